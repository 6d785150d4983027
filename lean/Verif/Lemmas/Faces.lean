import Verif.Lemmas.Macrobody
import Verif.Lemmas.Solid

/-!
# The faces of a macrobody
-/

set_option linter.unusedSectionVars false

namespace Csg

open Spec

section
variable {K : Type} [Field K] [LinearOrder K]

/-- The two planes across an edge `(a, b, c)` of length `n` at `(x, y, z)`. -/
def edgeFaces (n x y z a b c : K) : List (SType × List K) :=
  [(.planeGeneral, [a / n, b / n, c / n, a / n * (x + a) + b / n * (y + b) + c / n * (z + c)]),
    (.planeGeneral, [-1 * (a / n), -1 * (b / n), -1 * (c / n), -1 * (a / n * x + b / n * y + c / n * z)])]

/-- Types and coefficients of the new surfaces. -/
def faces (sqrt : K → K) : SType → List K → List (SType × List K)
  | .macroRPP, [x0, x1, y0, y1, z0, z1] =>
    [(.planeX, [1, 0, 0, x1]), (.planeGeneral, [-1, 0, 0, -1 * x0]), (.planeY, [0, 1, 0, y1]), (.planeGeneral, [0, -1, 0, -1 * y0]),
      (.planeZ, [0, 0, 1, z1]), (.planeGeneral, [0, 0, -1, -1 * z0])]
  | .macroRCC, [x, y, z, a, b, c, r] =>
    let n := sqrt (a ^ 2 + b ^ 2 + c ^ 2)
    let u := a / n
    let v := b / n
    let w := c / n
    [(.generalQuadratic, rccQuadric u v w x y z r), (.planeGeneral, [-1 * u, -1 * v, -1 * w, -(u * x + v * y + w * z)]),
      (.planeGeneral, [u, v, w, u * (x + a) + v * (y + b) + w * (z + c)])]
  | .macroBOX, [x, y, z, a1, b1, c1, a2, b2, c2, a3, b3, c3] =>
    edgeFaces (sqrt (a1 ^ 2 + b1 ^ 2 + c1 ^ 2)) x y z a1 b1 c1 ++ edgeFaces (sqrt (a2 ^ 2 + b2 ^ 2 + c2 ^ 2)) x y z a2 b2 c2 ++
      edgeFaces (sqrt (a3 ^ 2 + b3 ^ 2 + c3 ^ 2)) x y z a3 b3 c3
  | _, _ => []

/-- The values of the faces at a point. -/
def faceValues (sqrt : K → K) (p : Point K) : SType → List K → List K
  | .macroRPP, [x0, x1, y0, y1, z0, z1] => [p.x - x1, x0 - p.x, p.y - y1, y0 - p.y, p.z - z1, z0 - p.z]
  | .macroRCC, [x, y, z, a, b, c, r] =>
    let n := sqrt (a ^ 2 + b ^ 2 + c ^ 2)
    let q := p.sub ⟨x, y, z⟩
    let h : Point K := ⟨a, b, c⟩
    [dot q q - (dot q h / n) ^ 2 - r ^ 2, -dot q h / n, dot (q.sub h) h / n]
  | .macroBOX, [x, y, z, a1, b1, c1, a2, b2, c2, a3, b3, c3] =>
    let q := p.sub ⟨x, y, z⟩
    let e₁ : Point K := ⟨a1, b1, c1⟩
    let e₂ : Point K := ⟨a2, b2, c2⟩
    let e₃ : Point K := ⟨a3, b3, c3⟩
    [dot (q.sub e₁) e₁ / sqrt (a1 ^ 2 + b1 ^ 2 + c1 ^ 2), -dot q e₁ / sqrt (a1 ^ 2 + b1 ^ 2 + c1 ^ 2),
      dot (q.sub e₂) e₂ / sqrt (a2 ^ 2 + b2 ^ 2 + c2 ^ 2), -dot q e₂ / sqrt (a2 ^ 2 + b2 ^ 2 + c2 ^ 2),
      dot (q.sub e₃) e₃ / sqrt (a3 ^ 2 + b3 ^ 2 + c3 ^ 2), -dot q e₃ / sqrt (a3 ^ 2 + b3 ^ 2 + c3 ^ 2)]
  | _, _ => []

theorem side_plane (sqrt : K → K) (a b c d : K) (p : Point K) :
    side sqrt .planeGeneral [a, b, c, d] p = some (sideOf (a * p.x + b * p.y + c * p.z - d)) := rfl

theorem faces_side (sqrt : K → K) (ty : SType) (cs : List K) (p : Point K) :
    (faces sqrt ty cs).map (fun f => side sqrt f.1 f.2 p) = (faceValues sqrt p ty cs).map fun v => some (sideOf v) := by
  unfold faces faceValues
  split
  · have e1 : ∀ x0 : K, -1 * p.x + 0 * p.y + 0 * p.z - -1 * x0 = x0 - p.x := fun x0 => by ring
    have e2 : ∀ x0 : K, 0 * p.x + -1 * p.y + 0 * p.z - -1 * x0 = x0 - p.y := fun x0 => by ring
    have e3 : ∀ x0 : K, 0 * p.x + 0 * p.y + -1 * p.z - -1 * x0 = x0 - p.z := fun x0 => by ring
    simp only [List.map_cons, List.map_nil, side_plane, e1, e2, e3]
    rfl
  · rename_i x y z a b c r
    simp only [List.map_cons, List.map_nil, side_plane]
    generalize sqrt (a ^ 2 + b ^ 2 + c ^ 2) = n
    rw [show side sqrt .generalQuadratic (rccQuadric (a / n) (b / n) (c / n) x y z r) p =
      some (sideOf (dot (p.sub ⟨x, y, z⟩) (p.sub ⟨x, y, z⟩) - (dot (p.sub ⟨x, y, z⟩) ⟨a, b, c⟩ / n) ^ 2 - r ^ 2)) from ?_]
    · congr 1
      congr 1
      · congr 2; simp only [dot, Point.sub]; ring
      · congr 3; simp only [dot, Point.sub]; ring
    · simp only [side, torusValue, value, sheet, rccQuadric]
      congr 2
      simp only [dot, Point.sub]; ring
  · simp only [List.map_cons, List.map_nil, edgeFaces, side_plane, List.cons_append, List.nil_append]
    congr 1
    · congr 2; simp only [dot, Point.sub]; ring
    congr 1
    · congr 2; simp only [dot, Point.sub]; ring
    congr 1
    · congr 2; simp only [dot, Point.sub]; ring
    congr 1
    · congr 2; simp only [dot, Point.sub]; ring
    congr 1
    · congr 2; simp only [dot, Point.sub]; ring
    congr 1
    · congr 2; simp only [dot, Point.sub]; ring
  · rfl

end

section
variable {K : Type} [Field K] [LinearOrder K] [IsStrictOrderedRing K]

theorem root_pos {sqrt : K → K} {x : K} (h : RootAt sqrt x) (hx : x ≠ 0) : 0 < sqrt x := by
  refine lt_of_le_of_ne h.1 ?_
  intro e
  have := h.2
  rw [← e] at this
  exact hx (by rw [← this]; ring)

theorem dot_sub_self (q e : Point K) : dot (q.sub e) e = dot q e - dot e e := by
  simp only [dot, Point.sub]; ring

/-- The edge coordinate is in the open unit interval when both faces are negative. -/
theorem edge_open {n t d : K} (hn : 0 < n) (hd : 0 < d) : ((t - d) / n < 0 ∧ -t / n < 0) ↔ (0 < t / d ∧ t / d < 1) := by
  rw [div_lt_iff₀ hn, div_lt_iff₀ hn, div_pos_iff_of_pos_right hd, div_lt_one hd, zero_mul]
  constructor
  · rintro ⟨h1, h2⟩; exact ⟨by linarith, by linarith⟩
  · rintro ⟨h1, h2⟩; exact ⟨by linarith, by linarith⟩

theorem edge_closed {n t d : K} (hn : 0 < n) (hd : 0 < d) : (0 < (t - d) / n ∨ 0 < -t / n) ↔ ¬ (0 ≤ t / d ∧ t / d ≤ 1) := by
  rw [div_pos_iff_of_pos_right hn, div_pos_iff_of_pos_right hn, le_div_iff₀ hd, div_le_one hd, not_and_or, not_le, not_le]
  constructor
  · rintro (h | h)
    · exact Or.inr (by linarith)
    · exact Or.inl (by linarith)
  · rintro (h | h)
    · exact Or.inr (by linarith)
    · exact Or.inl (by linarith)

theorem sq_eq_dot (a b c : K) : a ^ 2 + b ^ 2 + c ^ 2 = dot (⟨a, b, c⟩ : Point K) ⟨a, b, c⟩ := by simp only [dot]; ring

theorem edgePos {sqrt : K → K} {a b c : K} (h : RootAt sqrt (a ^ 2 + b ^ 2 + c ^ 2)) (hd : dot (⟨a, b, c⟩ : Point K) ⟨a, b, c⟩ ≠ 0) :
    0 < sqrt (a ^ 2 + b ^ 2 + c ^ 2) ∧ 0 < dot (⟨a, b, c⟩ : Point K) ⟨a, b, c⟩ :=
  ⟨root_pos h (by rw [sq_eq_dot]; exact hd), dot_self_pos hd⟩

theorem faces_inside {sqrt : K → K} {ty : SType} {cs : List K} (hp : ProperBody ty cs) (hr : Roots sqrt ty cs) (p : Point K) :
    (∀ v ∈ faceValues sqrt p ty cs, v < 0) ↔ Inside ty cs p := by
  unfold ProperBody at hp
  split at hp
  · simp only [faceValues, Inside, List.mem_cons, List.not_mem_nil, or_false, forall_eq_or_imp, forall_eq, sub_neg]
    tauto
  · rename_i x y z a1 b1 c1 a2 b2 c2 a3 b3 c3
    obtain ⟨h1, h2, h3, h12, h23, h13⟩ := hp
    obtain ⟨r1, r2, r3⟩ := hr
    obtain ⟨n1, d1⟩ := edgePos r1 h1
    obtain ⟨n2, d2⟩ := edgePos r2 h2
    obtain ⟨n3, d3⟩ := edgePos r3 h3
    simp only [Inside]
    rw [inBox_iff _ _ _ _ _ _ h1 h2 h3 h12 h23 h13, ← edge_open n1 d1, ← edge_open n2 d2, ← edge_open n3 d3]
    simp only [faceValues, List.mem_cons, List.not_mem_nil, or_false, forall_eq_or_imp, forall_eq, dot_sub_self]
    tauto
  · rename_i x y z a b c r
    have hr' : RootAt sqrt (a ^ 2 + b ^ 2 + c ^ 2) := hr
    rw [sq_eq_dot] at hp
    obtain ⟨n1, d1⟩ := edgePos hr' hp
    simp only [Inside]
    rw [inCylinder_iff _ _ _ _ _ hp, ← edge_open n1 d1]
    simp only [faceValues, List.mem_cons, List.not_mem_nil, or_false, forall_eq_or_imp, forall_eq, dot_sub_self]
    rw [div_pow, hr'.2, sq_eq_dot a b c, sub_neg]
    tauto
  · exact absurd hp id

theorem faces_outside {sqrt : K → K} {ty : SType} {cs : List K} (hp : ProperBody ty cs) (hr : Roots sqrt ty cs) (p : Point K) :
    (∃ v ∈ faceValues sqrt p ty cs, 0 < v) ↔ Outside ty cs p := by
  unfold ProperBody at hp
  split at hp
  · simp only [faceValues, Outside, List.mem_cons, List.not_mem_nil, or_false, exists_eq_or_imp, exists_eq_left, sub_pos, not_and_or, not_le]
    tauto
  · rename_i x y z a1 b1 c1 a2 b2 c2 a3 b3 c3
    obtain ⟨h1, h2, h3, h12, h23, h13⟩ := hp
    obtain ⟨r1, r2, r3⟩ := hr
    obtain ⟨n1, d1⟩ := edgePos r1 h1
    obtain ⟨n2, d2⟩ := edgePos r2 h2
    obtain ⟨n3, d3⟩ := edgePos r3 h3
    simp only [Outside]
    have not3 : ∀ A B C : Prop, ¬ (A ∧ B ∧ C) ↔ ¬ A ∨ ¬ B ∨ ¬ C := by intro A B C; tauto
    rw [inBox_iff _ _ _ _ _ _ h1 h2 h3 h12 h23 h13, not3, ← edge_closed n1 d1, ← edge_closed n2 d2, ← edge_closed n3 d3]
    simp only [faceValues, List.mem_cons, List.not_mem_nil, or_false, exists_eq_or_imp, exists_eq_left, dot_sub_self]
    tauto
  · rename_i x y z a b c r
    have hr' : RootAt sqrt (a ^ 2 + b ^ 2 + c ^ 2) := hr
    rw [sq_eq_dot] at hp
    obtain ⟨n1, d1⟩ := edgePos hr' hp
    simp only [Outside]
    rw [inCylinder_iff _ _ _ _ _ hp, not_and_or, ← edge_closed n1 d1, not_le]
    simp only [faceValues, List.mem_cons, List.not_mem_nil, or_false, exists_eq_or_imp, exists_eq_left, dot_sub_self]
    rw [div_pow, hr'.2, sq_eq_dot a b c, sub_pos]
    tauto
  · exact absurd hp id

theorem div_signs {n t : K} (hn : 0 < n) : (t / n < 0 ↔ t < 0) ∧ (0 < t / n ↔ 0 < t) := by
  rw [div_lt_iff₀ hn, div_pos_iff_of_pos_right hn, zero_mul]
  simp

/-- The facets of RPP and BOX are the faces in order; for RCC this is true of the cylinder. -/
theorem faces_facet {sqrt : K → K} {ty : SType} {cs : List K} (hp : ProperBody ty cs) (hr : Roots sqrt ty cs) (p : Point K) (k : Nat)
    (hk : ty = .macroRCC → k = 1) (v : K) (hv : facetValue ty cs k p = some v) :
    ∃ v', (faceValues sqrt p ty cs)[k - 1]? = some v' ∧ (v < 0 ↔ v' < 0) ∧ (0 < v ↔ 0 < v') := by
  unfold ProperBody at hp
  split at hp
  · exact ⟨v, hv, Iff.rfl, Iff.rfl⟩
  · rename_i x y z a1 b1 c1 a2 b2 c2 a3 b3 c3
    obtain ⟨h1, h2, h3, -⟩ := hp
    obtain ⟨r1, r2, r3⟩ := hr
    obtain ⟨n1, d1⟩ := edgePos r1 h1
    obtain ⟨n2, d2⟩ := edgePos r2 h2
    obtain ⟨n3, d3⟩ := edgePos r3 h3
    simp only [facetValue, faceValues] at hv ⊢
    generalize k - 1 = i at hv ⊢
    match i, hv with
    | 0, hv => cases hv; exact ⟨_, rfl, (div_signs n1).1.symm, (div_signs n1).2.symm⟩
    | 1, hv => cases hv; exact ⟨_, rfl, (div_signs n1).1.symm, (div_signs n1).2.symm⟩
    | 2, hv => cases hv; exact ⟨_, rfl, (div_signs n2).1.symm, (div_signs n2).2.symm⟩
    | 3, hv => cases hv; exact ⟨_, rfl, (div_signs n2).1.symm, (div_signs n2).2.symm⟩
    | 4, hv => cases hv; exact ⟨_, rfl, (div_signs n3).1.symm, (div_signs n3).2.symm⟩
    | 5, hv => cases hv; exact ⟨_, rfl, (div_signs n3).1.symm, (div_signs n3).2.symm⟩
    | i + 6, hv => simp at hv
  · rename_i x y z a b c r
    have hr' : RootAt sqrt (a ^ 2 + b ^ 2 + c ^ 2) := hr
    rw [sq_eq_dot] at hp
    obtain ⟨n1, d1⟩ := edgePos hr' hp
    obtain rfl := hk rfl
    simp only [facetValue, faceValues] at hv ⊢
    cases hv
    refine ⟨_, rfl, ?_⟩
    rw [div_pow, hr'.2, sq_eq_dot a b c]
    generalize hd : dot (⟨a, b, c⟩ : Point K) ⟨a, b, c⟩ = d at d1 hp
    have e : ∀ A B : K, d * (A - r ^ 2) - B = (A - B / d - r ^ 2) * d := by intro A B; field_simp; ring
    rw [e]
    constructor
    · constructor
      · intro h; by_contra h'; exact absurd (mul_nonneg (not_lt.1 h') d1.le) (not_le.2 h)
      · intro h; exact mul_neg_of_neg_of_pos h d1
    · constructor
      · intro h; by_contra h'; exact absurd (mul_nonpos_of_nonpos_of_nonneg (not_lt.1 h') d1.le) (not_le.2 h)
      · intro h; exact mul_pos h d1
  · exact absurd hp id

end

section
variable {K : Type} [Field K] [LinearOrder K]

/-- Opening and closing texts of the descriptions. -/
def closeText : SType → Str
  | .macroRPP => c!" )"
  | _ => c!")"

def openText : SType → Str
  | .macroRCC => c!"("
  | _ => c!"( "

def sepText : SType → Str
  | .macroRPP => c!" : "
  | _ => c!":"

/-- The new surfaces. -/
def newSurfaces (sqrt : K → K) (last : Int) (s : Surface K) : List (Surface K) :=
  (faces sqrt s.type s.coeffs).mapIdx fun i f => plainCard (last + 1 + i) f.1 f.2

/-- The result of exploding a proper macrobody. -/
def explodedBody (sqrt : K → K) (last : Int) (s : Surface K) : Exploded K :=
  ⟨insideText (closeText s.type) ((newSurfaces sqrt last s).map Surface.id),
    outsideText (openText s.type) (sepText s.type) ((newSurfaces sqrt last s).map Surface.id), newSurfaces sqrt last s,
    last + (faces sqrt s.type s.coeffs).length⟩

theorem explode_ok [IsStrictOrderedRing K] (io : NumIO K) (hio : Exact io) (sqrt : K → K) (last : Int) (s : Surface K) (hp : ProperBody s.type s.coeffs)
    (hr : Roots sqrt s.type s.coeffs) : explodeMacrobody io sqrt last s = .ok (explodedBody sqrt last s) := by
  obtain ⟨ty, id, tr, cs, bc, bb⟩ := s
  simp only at hp hr
  have hplane : ∀ a b c d, ∀ n, classify io (intStr n ++ planeText io a b c d) = .ok (plainCard n .planeGeneral [a, b, c, d]) :=
    fun a b c d n => classify_planeText io hio n a b c d
  unfold ProperBody at hp
  split at hp
  · rename_i x0 x1 y0 y1 z0 z1
    have hcards := newCards_ok io (rppTexts io x0 x1 y0 y1 z0 z1) (faces sqrt .macroRPP [x0, x1, y0, y1, z0, z1]) last
      (.cons (fun n => classify_axisText io hio n c!"px" .planeX [1, 0, 0, x1] x1 (by simp))
        (.cons (fun n => classify_lowerText io hio n c!"-1.0" c!"0" c!"0" (-1) 0 0 (-1 * x0) (by simp))
          (.cons (fun n => classify_axisText io hio n c!"py" .planeY [0, 1, 0, y1] y1 (by simp))
            (.cons (fun n => classify_lowerText io hio n c!"0" c!"-1.0" c!"0" 0 (-1) 0 (-1 * y0) (by simp))
              (.cons (fun n => classify_axisText io hio n c!"pz" .planeZ [0, 0, 1, z1] z1 (by simp))
                (.cons (fun n => classify_lowerText io hio n c!"0" c!"0" c!"-1.0" 0 0 (-1) (-1 * z0) (by simp)) .nil))))))
    simp only [explodeMacrobody, pyGet, List.getElem?_cons_zero, List.getElem?_cons_succ, bind, Except.bind, hcards]
    rfl
  · rename_i x y z a1 b1 c1 a2 b2 c2 a3 b3 c3
    obtain ⟨h1, h2, h3, -⟩ := hp
    obtain ⟨r1, r2, r3⟩ := hr
    have n1 := (edgePos r1 h1).1.ne'
    have n2 := (edgePos r2 h2).1.ne'
    have n3 := (edgePos r3 h3).1.ne'
    have hcards := newCards_ok io
      (boxPair io (a1 / sqrt (a1 ^ 2 + b1 ^ 2 + c1 ^ 2)) (b1 / sqrt (a1 ^ 2 + b1 ^ 2 + c1 ^ 2)) (c1 / sqrt (a1 ^ 2 + b1 ^ 2 + c1 ^ 2)) x y z a1 b1 c1 ++
        boxPair io (a2 / sqrt (a2 ^ 2 + b2 ^ 2 + c2 ^ 2)) (b2 / sqrt (a2 ^ 2 + b2 ^ 2 + c2 ^ 2)) (c2 / sqrt (a2 ^ 2 + b2 ^ 2 + c2 ^ 2)) x y z a2 b2 c2 ++
        boxPair io (a3 / sqrt (a3 ^ 2 + b3 ^ 2 + c3 ^ 2)) (b3 / sqrt (a3 ^ 2 + b3 ^ 2 + c3 ^ 2)) (c3 / sqrt (a3 ^ 2 + b3 ^ 2 + c3 ^ 2)) x y z a3 b3 c3)
      (faces sqrt .macroBOX [x, y, z, a1, b1, c1, a2, b2, c2, a3, b3, c3]) last
      (.cons (hplane _ _ _ _) (.cons (hplane _ _ _ _) (.cons (hplane _ _ _ _) (.cons (hplane _ _ _ _)
        (.cons (hplane _ _ _ _) (.cons (hplane _ _ _ _) .nil))))))
    simp only [explodeMacrobody, pyGet, List.getElem?_cons_zero, List.getElem?_cons_succ, bind, Except.bind]
    rw [if_neg (by tauto)]
    simp only [hcards]
    rfl
  · rename_i x y z a b c r
    have hr' : RootAt sqrt (a ^ 2 + b ^ 2 + c ^ 2) := hr
    have n1 := (root_pos hr' hp).ne'
    have hcards := newCards_ok io
      (rccTexts io (a / sqrt (a ^ 2 + b ^ 2 + c ^ 2)) (b / sqrt (a ^ 2 + b ^ 2 + c ^ 2)) (c / sqrt (a ^ 2 + b ^ 2 + c ^ 2)) x y z a b c r)
      (faces sqrt .macroRCC [x, y, z, a, b, c, r]) last
      (.cons (fun n => classify_quadricText io hio n _ _ _ _ _ _ _ _ _ _) (.cons (hplane _ _ _ _) (.cons (hplane _ _ _ _) .nil)))
    simp only [explodeMacrobody, pyGet, List.getElem?_cons_zero, List.getElem?_cons_succ, bind, Except.bind]
    rw [if_neg n1]
    simp only [hcards]
    rfl
  · exact hp.elim

theorem Spec.ProperBody.shape {ty : SType} {cs : List K} (h : ProperBody ty cs) : BodyShape ty cs := by
  unfold ProperBody at h
  split at h <;> trivial

theorem facetValue_some {ty : SType} {cs : List K} {k : Nat} (h : BodyShape ty cs) (hk : 1 ≤ k ∧ k ≤ facetCount ty) (p : Point K) :
    ∃ v, facetValue ty cs k p = some v := by
  unfold BodyShape at h
  split at h
  · exact ⟨_, List.getElem?_eq_getElem (by simp [facetCount] at hk ⊢; omega)⟩
  · exact ⟨_, List.getElem?_eq_getElem (by simp [facetCount] at hk ⊢; omega)⟩
  · exact ⟨_, List.getElem?_eq_getElem (by simp [facetCount] at hk ⊢; omega)⟩
  · exact h.elim

/-- A body that explodes without an exception gives these surfaces. -/
theorem explode_shape (io : NumIO K) (hio : Exact io) (sqrt : K → K) (last : Int) (s : Surface K) (hp : BodyShape s.type s.coeffs)
    (e : Exploded K) (he : explodeMacrobody io sqrt last s = .ok e) : e = explodedBody sqrt last s := by
  obtain ⟨ty, id, tr, cs, bc, bb⟩ := s
  simp only at hp
  have hplane : ∀ a b c d, ∀ n, classify io (intStr n ++ planeText io a b c d) = .ok (plainCard n .planeGeneral [a, b, c, d]) :=
    fun a b c d n => classify_planeText io hio n a b c d
  unfold BodyShape at hp
  split at hp
  · rename_i x0 x1 y0 y1 z0 z1
    have hcards := newCards_ok io (rppTexts io x0 x1 y0 y1 z0 z1) (faces sqrt .macroRPP [x0, x1, y0, y1, z0, z1]) last
      (.cons (fun n => classify_axisText io hio n c!"px" .planeX [1, 0, 0, x1] x1 (by simp))
        (.cons (fun n => classify_lowerText io hio n c!"-1.0" c!"0" c!"0" (-1) 0 0 (-1 * x0) (by simp))
          (.cons (fun n => classify_axisText io hio n c!"py" .planeY [0, 1, 0, y1] y1 (by simp))
            (.cons (fun n => classify_lowerText io hio n c!"0" c!"-1.0" c!"0" 0 (-1) 0 (-1 * y0) (by simp))
              (.cons (fun n => classify_axisText io hio n c!"pz" .planeZ [0, 0, 1, z1] z1 (by simp))
                (.cons (fun n => classify_lowerText io hio n c!"0" c!"0" c!"-1.0" 0 0 (-1) (-1 * z0) (by simp)) .nil))))))
    simp only [explodeMacrobody, pyGet, List.getElem?_cons_zero, List.getElem?_cons_succ, bind, Except.bind, hcards] at he
    cases he
    rfl
  · rename_i x y z a1 b1 c1 a2 b2 c2 a3 b3 c3
    have hcards := newCards_ok io
      (boxPair io (a1 / sqrt (a1 ^ 2 + b1 ^ 2 + c1 ^ 2)) (b1 / sqrt (a1 ^ 2 + b1 ^ 2 + c1 ^ 2)) (c1 / sqrt (a1 ^ 2 + b1 ^ 2 + c1 ^ 2)) x y z a1 b1 c1 ++
        boxPair io (a2 / sqrt (a2 ^ 2 + b2 ^ 2 + c2 ^ 2)) (b2 / sqrt (a2 ^ 2 + b2 ^ 2 + c2 ^ 2)) (c2 / sqrt (a2 ^ 2 + b2 ^ 2 + c2 ^ 2)) x y z a2 b2 c2 ++
        boxPair io (a3 / sqrt (a3 ^ 2 + b3 ^ 2 + c3 ^ 2)) (b3 / sqrt (a3 ^ 2 + b3 ^ 2 + c3 ^ 2)) (c3 / sqrt (a3 ^ 2 + b3 ^ 2 + c3 ^ 2)) x y z a3 b3 c3)
      (faces sqrt .macroBOX [x, y, z, a1, b1, c1, a2, b2, c2, a3, b3, c3]) last
      (.cons (hplane _ _ _ _) (.cons (hplane _ _ _ _) (.cons (hplane _ _ _ _) (.cons (hplane _ _ _ _)
        (.cons (hplane _ _ _ _) (.cons (hplane _ _ _ _) .nil))))))
    simp only [explodeMacrobody, pyGet, List.getElem?_cons_zero, List.getElem?_cons_succ, bind, Except.bind] at he
    split at he
    · cases he
    · simp only [hcards] at he
      cases he
      rfl
  · rename_i x y z a b c r
    have hcards := newCards_ok io
      (rccTexts io (a / sqrt (a ^ 2 + b ^ 2 + c ^ 2)) (b / sqrt (a ^ 2 + b ^ 2 + c ^ 2)) (c / sqrt (a ^ 2 + b ^ 2 + c ^ 2)) x y z a b c r)
      (faces sqrt .macroRCC [x, y, z, a, b, c, r]) last
      (.cons (fun n => classify_quadricText io hio n _ _ _ _ _ _ _ _ _ _) (.cons (hplane _ _ _ _) (.cons (hplane _ _ _ _) .nil)))
    simp only [explodeMacrobody, pyGet, List.getElem?_cons_zero, List.getElem?_cons_succ, bind, Except.bind] at he
    split at he
    · cases he
    · simp only [hcards] at he
      cases he
      rfl
  · exact hp.elim

end

end Csg
