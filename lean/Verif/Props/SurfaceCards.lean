import Verif.Lemmas.SurfaceCard
import Verif.Props.Surfaces
import Verif.Spec.Sample

/-!
# C04–C08, C26, C63: reading and writing surface cards
-/

namespace Csg

open Spec

section
variable {K : Type} [Field K] [LinearOrder K]

/-- C04: a card with one of the mnemonics and the right number of entries is read as a surface with the equation of the manual, whether or
not it has a transform number or a comment. -/
theorem C04_mnemonics (io : NumIO K) (text : Str) (n : Int) (tr : Option Str) (mn : Mn) (ws : List Str) (cs : List K)
    (hc : IsCard io text n tr mn.word ws) (hr : Reads io ws cs) (hv : (mcnpValue mn cs ⟨0, 0, 0⟩).isSome = true) :
    ∃ s, classify io text = .ok s ∧ s.id = n ∧ s.transform = tr ∧ WellFormed s ∧ IsQuadric s.type ∧ TwoSheet s ∧
      ∀ p, value s.type s.coeffs p = mcnpValue mn cs p := by
  have h := classify_isCard io text n tr mn.word ws hc
  rw [ofWords_eq io ws cs hr] at h
  rw [h]
  exact classifyFields_value n tr mn cs hv

/-- C04 in terms of senses. -/
theorem C04_senses (sqrt : K → K) (io : NumIO K) (text : Str) (n : Int) (tr : Option Str) (mn : Mn) (ws : List Str)
    (cs : List K) (hc : IsCard io text n tr mn.word ws) (hr : Reads io ws cs)
    (hv : (mcnpValue mn cs ⟨0, 0, 0⟩).isSome = true) :
    ∃ s, classify io text = .ok s ∧ ∀ p, side sqrt s.type s.coeffs p = (mcnpValue mn cs p).map sideOf := by
  obtain ⟨s, h, _, _, hw, hq, h2, hval⟩ := C04_mnemonics io text n tr mn ws cs hc hr hv
  exact ⟨s, h, fun p => by rw [side_eq_sideOf sqrt s hw hq h2, hval]⟩

/-- C05: the special quadric. -/
theorem C05_sq (io : NumIO K) (text : Str) (n : Int) (tr : Option Str) (ws : List Str) (A B C D E F G x y z : K)
    (hc : IsCard io text n tr c!"sq" ws) (hr : Reads io ws [A, B, C, D, E, F, G, x, y, z]) :
    ∃ s, classify io text = .ok s ∧ s.type = .generalQuadratic ∧ s.id = n ∧ ∀ p : Point K,
      value s.type s.coeffs p = some (A * (p.x - x) ^ 2 + B * (p.y - y) ^ 2 + C * (p.z - z) ^ 2 +
        2 * D * (p.x - x) + 2 * E * (p.y - y) + 2 * F * (p.z - z) + G) := by
  have h := classify_isCard io text n tr _ ws hc
  rw [ofWords_eq io ws _ hr] at h
  rw [h]
  run_classify
  run_card
  intro p
  simp only [value, Option.some.injEq]
  ring

end

/-- A card with a transform number and a comment, and an sq card. -/
example : IsCard sampleIO c!"12 3 k/y 1 -2.5 0 2e0 $ cone" 12 (some c!"3") Mn.kpy.word [c!"1", c!"-2.5", c!"0", c!"2e0"] ∧
    Reads sampleIO [c!"1", c!"-2.5", c!"0", c!"2e0"] [1, -5 / 2, 0, 2] ∧
    (mcnpValue Mn.kpy [(1 : ℚ), -5 / 2, 0, 2] ⟨0, 0, 0⟩).isSome = true := by
  refine ⟨⟨c!"12", by decide +kernel, by decide +kernel, ⟨c!"12 3 k/y 1 -2.5 0 2e0 ", c!" cone", Or.inr ?_, by decide +kernel, ?_⟩, ?_⟩, ?_, rfl⟩
  · rfl
  · decide +kernel
  · decide +kernel
  · unfold Reads
    refine .cons ?_ (.cons ?_ (.cons ?_ (.cons ?_ .nil))) <;> decide +kernel

section
variable {K : Type} [Field K] [LinearOrder K] [IsStrictOrderedRing K]

/-- C06: the plane through three points. -/
theorem C06_three_points (io : NumIO K) (text : Str) (n : Int) (tr : Option Str) (ws : List Str) (a b c : Point K)
    (hc : IsCard io text n tr c!"p" ws) (hr : Reads io ws [a.x, a.y, a.z, b.x, b.y, b.z, c.x, c.y, c.z]) :
    ∃ s A B C D, classify io text = .ok s ∧ s.id = n ∧ s.transform = tr ∧ s.type = .planeGeneral ∧
      s.coeffs = [A, B, C, D] ∧
      value s.type s.coeffs a = some 0 ∧ value s.type s.coeffs b = some 0 ∧ value s.type s.coeffs c = some 0 ∧
      (¬ Collinear a b c → (A ≠ 0 ∨ B ≠ 0 ∨ C ≠ 0) ∧ PlaneSense A B C D) := by
  have h := classify_isCard io text n tr _ ws hc
  rw [ofWords_eq io ws _ hr] at h
  rw [h]
  run_classify
  obtain ⟨ax, ay, az⟩ := a
  obtain ⟨bx, by', bz⟩ := b
  obtain ⟨cx, cy, cz⟩ := c
  simp only [classifyGeneralPlanes, Coeffs.ofValues, List.length_cons, List.length_nil, Coeffs.first, pyGet, bind,
    Except.bind, planeDets, List.getElem?_cons_zero, List.getElem?_cons_succ, List.nil_append, List.cons_append,
    Nat.reduceAdd, if_true]
  obtain ⟨A, B, C, D, k, hs, hA, hB, hC, hD, hk⟩ := scalePlane_spec
    (ay * (bz - cz) + by' * (cz - az) + cy * (az - bz)) (az * (bx - cx) + bz * (cx - ax) + cz * (ax - bx))
    (ax * (by' - cy) + bx * (cy - ay) + cx * (ay - by'))
    (0 + ax * (by' * cz - cy * bz) + ay * (bz * cx - cz * bx) + az * (bx * cy - cx * by'))
  refine ⟨_, A, B, C, D, rfl, rfl, rfl, rfl, hs, ?_, ?_, ?_, ?_⟩
  · show value .planeGeneral (scalePlane _ _ _ _) _ = _
    rw [hs]
    simp only [value, hA, hB, hC, hD, Option.some.injEq]; ring
  · show value .planeGeneral (scalePlane _ _ _ _) _ = _
    rw [hs]
    simp only [value, hA, hB, hC, hD, Option.some.injEq]; ring
  · show value .planeGeneral (scalePlane _ _ _ _) _ = _
    rw [hs]
    simp only [value, hA, hB, hC, hD, Option.some.injEq]; ring
  · intro hcol
    apply hk
    intro h0
    apply hcol
    obtain ⟨e0, e1, e2⟩ := h0
    refine ⟨?_, ?_, ?_⟩
    · simp only; linear_combination e0
    · simp only; linear_combination e1
    · simp only; linear_combination e2

end

example : IsCard sampleIO c!"1 p 1 0 0 0 1 0 0 0 1" 1 none c!"p"
      [c!"1", c!"0", c!"0", c!"0", c!"1", c!"0", c!"0", c!"0", c!"1"] ∧
    Reads sampleIO [c!"1", c!"0", c!"0", c!"0", c!"1", c!"0", c!"0", c!"0", c!"1"] [1, 0, 0, 0, 1, 0, 0, 0, 1] ∧
    ¬ Collinear (⟨1, 0, 0⟩ : Point ℚ) ⟨0, 1, 0⟩ ⟨0, 0, 1⟩ := by
  refine ⟨⟨c!"1", by decide +kernel, by decide +kernel, ⟨c!"1 p 1 0 0 0 1 0 0 0 1", [], Or.inl rfl, by decide +kernel, by decide +kernel⟩,
    by decide +kernel⟩, ?_, ?_⟩
  · unfold Reads
    repeat' first | exact .nil | apply List.Forall₂.cons
    all_goals decide +kernel
  · norm_num [Collinear]

section
variable {K : Type} [Field K] [LinearOrder K] [IsStrictOrderedRing K]

/-- C07, partial: for the mnemonics `y` and `z` with two pairs the surface is the plane, cylinder or one-sheet cone around the named axis that
contains both circles. Missing: mnemonic `x`, see `C07_refuted`. -/
theorem C07_two_pairs_partial (sqrt : K → K) (io : NumIO K) (text : Str) (n : Int) (tr : Option Str) (ax : Axis)
    (ws : List Str) (a1 r1 a2 r2 : K) (hax : ax ≠ .x) (hc : IsCard io text n tr ax.word ws)
    (hr : Reads io ws [a1, r1, a2, r2]) (h1 : 0 ≤ r1) (h2 : 0 ≤ r2) :
    ∃ s, classify io text = .ok s ∧ s.id = n ∧ s.transform = tr ∧
      s.type = (if a1 = a2 then ax.plane else if r1 = r2 then ax.cylinder else ax.cone) ∧
      (∀ p q : Point K, ax.along p = ax.along q → ax.dist2 p = ax.dist2 q →
        side sqrt s.type s.coeffs p = side sqrt s.type s.coeffs q) ∧
      ∀ p : Point K, (ax.along p = a1 ∧ ax.dist2 p = r1 ^ 2) ∨ (ax.along p = a2 ∧ ax.dist2 p = r2 ^ 2) →
        side sqrt s.type s.coeffs p = some .on := by
  have h := classify_isCard io text n tr _ ws hc
  rw [ofWords_eq io ws _ hr] at h
  rw [h]
  by_cases ha : a1 = a2
  · subst ha
    cases ax with
    | x => exact absurd rfl hax
    | y =>
      refine ⟨{ (Surface.blank : Surface K) with type := .planeY, id := n, transform := tr, coeffs := [0, 1, 0, a1] }, ?_, rfl, rfl, by simp [Axis.plane], ?_, ?_⟩
      · simp only [Axis.word]
        run_classify
        simp [classifyEdp, edp2, classifyXyzPlanes, Coeffs.ofValues, pyGet, bind, Except.bind, Surface.setFrom,
          Surface.setType, Surface.blank]
      · intro p q e _
        simp only [Axis.along] at e
        simp [side, torusValue, value, sheet, e]
      · intro p hp
        simp only [Axis.along] at hp
        have : p.y = a1 := by rcases hp with h | h <;> exact h.1
        simp [side, torusValue, value, sheet, this, sideOf]
    | z =>
      refine ⟨{ (Surface.blank : Surface K) with type := .planeZ, id := n, transform := tr, coeffs := [0, 0, 1, a1] }, ?_, rfl, rfl, by simp [Axis.plane], ?_, ?_⟩
      · simp only [Axis.word]
        run_classify
        simp [classifyEdp, edp2, classifyXyzPlanes, Coeffs.ofValues, pyGet, bind, Except.bind, Surface.setFrom,
          Surface.setType, Surface.blank]
      · intro p q e _
        simp only [Axis.along] at e
        simp [side, torusValue, value, sheet, e]
      · intro p hp
        simp only [Axis.along] at hp
        have : p.z = a1 := by rcases hp with h | h <;> exact h.1
        simp [side, torusValue, value, sheet, this, sideOf]
  · by_cases hrr : r1 = r2
    · subst hrr
      cases ax with
      | x => exact absurd rfl hax
      | y =>
        refine ⟨{ (Surface.blank : Surface K) with type := .cylinderY, id := n, transform := tr, coeffs := [0, 0, r1] }, ?_, rfl, rfl, by simp [Axis.cylinder, ha], ?_, ?_⟩
        · simp only [Axis.word]
          run_classify
          simp [classifyEdp, edp2, classifyCylinderOnAxis, Coeffs.ofValues, pyGet, bind, Except.bind, Surface.setFrom,
            Surface.setType, Surface.blank, ha]
        · intro p q _ e
          simp only [Axis.dist2] at e
          simp [side, torusValue, value, sheet, e]
        · intro p hp
          simp only [Axis.dist2] at hp
          have : p.x ^ 2 + p.z ^ 2 = r1 ^ 2 := by rcases hp with h | h <;> exact h.2
          simp [side, torusValue, value, sheet, this, sideOf]
      | z =>
        refine ⟨{ (Surface.blank : Surface K) with type := .cylinderZ, id := n, transform := tr, coeffs := [0, 0, r1] }, ?_, rfl, rfl, by simp [Axis.cylinder, ha], ?_, ?_⟩
        · simp only [Axis.word]
          run_classify
          simp [classifyEdp, edp2, classifyCylinderOnAxis, Coeffs.ofValues, pyGet, bind, Except.bind, Surface.setFrom,
            Surface.setType, Surface.blank, ha]
        · intro p q _ e
          simp only [Axis.dist2] at e
          simp [side, torusValue, value, sheet, e]
        · intro p hp
          simp only [Axis.dist2] at hp
          have : p.x ^ 2 + p.y ^ 2 = r1 ^ 2 := by rcases hp with h | h <;> exact h.2
          simp [side, torusValue, value, sheet, this, sideOf]
    · obtain ⟨g, hg, hg0, hgr⟩ : ∃ g, g = (a2 - a1) / (r2 - r1) ∧ g ≠ 0 ∧ g * (r2 - r1) = a2 - a1 := by
        have e1 : r2 - r1 ≠ 0 := sub_ne_zero.2 (Ne.symm hrr)
        have e2 : a2 - a1 ≠ 0 := sub_ne_zero.2 (Ne.symm ha)
        exact ⟨_, rfl, div_ne_zero e2 e1, div_mul_cancel₀ _ e1⟩
      obtain ⟨w, hw, hw0, hwg⟩ : ∃ w : K, w = (if g < 0 then -1 else 1) ∧ w ≠ 0 ∧ 0 ≤ w * g := by
        refine ⟨_, rfl, ?_, ?_⟩
        · split <;> norm_num
        · split
          · rename_i h; linarith
          · rename_i h; linarith [not_lt.1 h]
      have hin : ∀ u v : K, (u = a1 ∧ v = r1 ^ 2) ∨ (u = a2 ∧ v = r2 ^ 2) →
          v - (-1 / g) ^ 2 * (u - (a2 - g * r2)) ^ 2 = 0 ∧ 0 ≤ w * (u - (a2 - g * r2)) := by
        have key : ∀ r : K, r ^ 2 - (-1 / g) ^ 2 * (g * r) ^ 2 = 0 := by
          intro r; field_simp; ring
        rintro u v (⟨rfl, rfl⟩ | ⟨rfl, rfl⟩)
        · rw [show u - (a2 - g * r2) = g * r1 by linear_combination hgr]
          exact ⟨key r1, by rw [← mul_assoc]; exact mul_nonneg hwg h1⟩
        · rw [show u - (u - g * r2) = g * r2 by ring]
          exact ⟨key r2, by rw [← mul_assoc]; exact mul_nonneg hwg h2⟩
      cases ax with
      | x => exact absurd rfl hax
      | y =>
        refine ⟨{ (Surface.blank : Surface K) with type := .coneY, id := n, transform := tr, coeffs := [0, a2 - g * r2, 0, (-1 / g) ^ 2, w] }, ?_, rfl, rfl, by simp [Axis.cone, ha, hrr], ?_, ?_⟩
        · simp only [Axis.word]
          run_classify
          simp [classifyEdp, edp2, classifyConeOnAxis, Coeffs.ofValues, pyGet, bind, Except.bind, Surface.setFrom,
            Surface.setType, Surface.blank, ha, hrr, ← hg, ← hw]
        · intro p q e1 e2
          simp only [Axis.dist2, Axis.along] at e1 e2
          simp [side, torusValue, value, sheet, e1, e2]
        · intro p hp
          obtain ⟨hv, hu⟩ := hin p.y (p.x ^ 2 + p.z ^ 2) hp
          simp [side, torusValue, value, sheet, hw0, nappeSide, hv, hu]
      | z =>
        refine ⟨{ (Surface.blank : Surface K) with type := .coneZ, id := n, transform := tr, coeffs := [0, 0, a2 - g * r2, (-1 / g) ^ 2, w] }, ?_, rfl, rfl, by simp [Axis.cone, ha, hrr], ?_, ?_⟩
        · simp only [Axis.word]
          run_classify
          simp [classifyEdp, edp2, classifyConeOnAxis, Coeffs.ofValues, pyGet, bind, Except.bind, Surface.setFrom,
            Surface.setType, Surface.blank, ha, hrr, ← hg, ← hw]
        · intro p q e1 e2
          simp only [Axis.dist2, Axis.along] at e1 e2
          simp [side, torusValue, value, sheet, e1, e2]
        · intro p hp
          obtain ⟨hv, hu⟩ := hin p.z (p.x ^ 2 + p.y ^ 2) hp
          simp [side, torusValue, value, sheet, hw0, nappeSide, hv, hu]

omit [IsStrictOrderedRing K] in
/-- A card with a single pair is dropped: the card keeps the number 0 and no type. -/
theorem C07_one_pair_dropped (io : NumIO K) (text : Str) (n : Int) (tr : Option Str) (ax : Axis) (ws : List Str)
    (a r : K) (hc : IsCard io text n tr ax.word ws) (hr : Reads io ws [a, r]) :
    classify io text = .ok Surface.blank ∧ (Surface.blank : Surface K).id = 0 ∧
      (Surface.blank : Surface K).type = .unset := by
  have h := classify_isCard io text n tr _ ws hc
  rw [ofWords_eq io ws _ hr] at h
  rw [h]
  refine ⟨?_, rfl, rfl⟩
  cases ax <;> simp only [Axis.word] <;> run_classify <;>
    simp [classifyEdp, Coeffs.first, Coeffs.ofValues, pyGet, bind, Except.bind]

end

/-- The cone `x` through the circles of radius 1 at 0 and radius 2 at 1. -/
def xCone : Str := c!"1 x 0 1 1 2"

theorem xCone_isCard : IsCard sampleIO xCone 1 none Axis.x.word [c!"0", c!"1", c!"1", c!"2"] ∧
    Reads sampleIO [c!"0", c!"1", c!"1", c!"2"] [0, 1, 1, 2] := by
  refine ⟨⟨c!"1", by decide +kernel, by decide +kernel, ⟨xCone, [], Or.inl rfl, by decide +kernel, by decide +kernel⟩,
    by decide +kernel⟩, ?_⟩
  unfold Reads
  refine .cons ?_ (.cons ?_ (.cons ?_ (.cons ?_ .nil))) <;> decide +kernel

/-- The hypotheses of `C07_two_pairs_partial` are met by a cone around z. -/
example : IsCard sampleIO c!"1 z 0 1 1 2" 1 none Axis.z.word [c!"0", c!"1", c!"1", c!"2"] := by
  exact ⟨c!"1", by decide +kernel, by decide +kernel, ⟨c!"1 z 0 1 1 2", [], Or.inl rfl, by decide +kernel, by decide +kernel⟩,
    by decide +kernel⟩

/-- C07 is false for `x`: the surface is put around the y axis. -/
theorem C07_refuted : ¬ ∀ (text : Str) (n : Int) (tr : Option Str) (ax : Axis) (ws : List Str) (a1 r1 a2 r2 : ℚ),
    IsCard sampleIO text n tr ax.word ws → Reads sampleIO ws [a1, r1, a2, r2] → 0 ≤ r1 → 0 ≤ r2 →
    ∃ s, classify sampleIO text = .ok s ∧ ∀ p : Point ℚ, ax.along p = a1 → ax.dist2 p = r1 ^ 2 →
      side id s.type s.coeffs p = some .on := by
  intro h
  obtain ⟨s, hs, hp⟩ := h xCone 1 none .x _ 0 1 1 2 xCone_isCard.1 xCone_isCard.2 (by norm_num) (by norm_num)
  have e : classify sampleIO xCone = .ok { (Surface.blank : Surface ℚ) with type := .coneY, id := 1, coeffs := [0, -1, 0, 1, 1] } := by
    decide +kernel
  rw [e] at hs
  cases hs
  exact absurd (hp ⟨0, 1, 0⟩ rfl (by norm_num [Axis.dist2])) (by decide +kernel)

section
variable {K : Type} [Field K] [LinearOrder K]

/-- C08, partial: reading a cone card with a sheet selector keeps the nappe. Missing: the later steps, see below. -/
theorem C08_read_sheet_partial (sqrt : K → K) (io : NumIO K) (text : Str) (n : Int) (tr : Option Str) (mn : Mn)
    (ws : List Str) (cs : List K) (hc : IsCard io text n tr mn.word ws) (hr : Reads io ws cs)
    (hv : (mcnpCone mn cs ⟨0, 0, 0⟩).isSome = true) :
    ∃ s, classify io text = .ok s ∧ s.id = n ∧ ∀ p x₀ x v w, mcnpCone mn cs p = some (x₀, x, v, w) → w ≠ 0 →
      side sqrt s.type s.coeffs p = some (nappeSide (w * (x - x₀)) v) := by
  have h := classify_isCard io text n tr _ ws hc
  rw [ofWords_eq io ws _ hr] at h
  rw [h]
  obtain ⟨s, hs, hid, _, _, hq, hcone⟩ := classifyFields_cone n tr mn cs hv
  refine ⟨s, hs, hid, fun p x₀ x v w hm hw => ?_⟩
  obtain ⟨h1, h2⟩ := hcone p x₀ x v w hm
  simp only [side, torusValue_none hq, h1, h2, if_neg hw]

/-- C08: the sheet selector has no influence on `generalise`, so any two cones that differ only in the selector are reported as the same
surface by `diff`. -/
theorem C08_sheets_identified (ty : SType) (hty : ty = .coneX ∨ ty = .coneY ∨ ty = .coneZ) (a b : Surface K)
    (x y z t u v : K) (ha : a.type = ty) (hb : b.type = ty) (hca : a.coeffs = [x, y, z, t, u])
    (hcb : b.coeffs = [x, y, z, t, v]) :
    ∃ a' b', a.generalise = .ok a' ∧ b.generalise = .ok b' ∧ (a'.diff b' true).1 = (true, false) := by
  rcases hty with rfl | rfl | rfl
  all_goals
    refine ⟨{ a with type := .generalQuadratic, coeffs := (gqCoeffs a.type [x, y, z, t, u]).toOption.getD [] },
      { b with type := .generalQuadratic, coeffs := (gqCoeffs b.type [x, y, z, t, v]).toOption.getD [] }, ?_, ?_, ?_⟩
    · simp [Surface.generalise, ha, hca, SType.isTorus, gqCoeffs, pyGet, bind, Except.bind, Except.toOption]
    · simp [Surface.generalise, hb, hcb, SType.isTorus, gqCoeffs, pyGet, bind, Except.bind, Except.toOption]
    · simp [Surface.diff, ha, hb, gqCoeffs, pyGet, bind, Except.bind, Except.toOption]

omit [Field K] [LinearOrder K] in
/-- C08: the MCNP writer drops the selector. -/
theorem C08_writer_drops_sheet (fuel : Nat) (io : NumIO K) (ty : SType) (hty : ty = .coneX ∨ ty = .coneY ∨ ty = .coneZ) (s : Surface K)
    (x y z t u v : K) (hs : s.type = ty) :
    writeMcnpSurface fuel io { s with coeffs := [x, y, z, t, u] } =
      writeMcnpSurface fuel io { s with coeffs := [x, y, z, t, v] } := by
  rcases hty with rfl | rfl | rfl <;>
    simp [writeMcnpSurface, mcnpSurfaceLine, hs, mcnpLayout, coeffText, pyGet]

end

/-- Two cones that open upwards and downwards. -/
def coneUp : Surface ℚ := { (Surface.blank : Surface ℚ) with type := .coneZ, id := 1, coeffs := [0, 0, 0, 1, 1] }
def coneDown : Surface ℚ := { (Surface.blank : Surface ℚ) with type := .coneZ, id := 2, coeffs := [0, 0, 0, 1, -1] }

/-- C08 is false: two cards that select opposite nappes are identified although a point inside the first is outside the second. -/
theorem C08_refuted : ¬ ∀ a b a' b' : Surface ℚ, WellFormed a → WellFormed b → a.generalise = .ok a' → b.generalise = .ok b' →
    (a'.diff b' true).1 = (true, false) → ∀ p, side id a.type a.coeffs p = side id b.type b.coeffs p := by
  intro h
  obtain ⟨a', b', ha, hb, hd⟩ := C08_sheets_identified .coneZ (by simp) coneUp coneDown 0 0 0 1 1 (-1) rfl rfl rfl rfl
  exact absurd (h coneUp coneDown a' b' rfl rfl ha hb hd ⟨0, 0, 1⟩) (by decide +kernel)

section
variable {K : Type} [Field K] [LinearOrder K]

/-- C26 is false, for every text: no card is ever read as a reflecting surface (nor with any other boundary condition). -/
theorem C26_never_reflecting (io : NumIO K) (text : Str) (s : Surface K) (h : classify io text = .ok s) :
    s.bc = .transmission := by
  unfold classify at h
  cases hf : readFields io (split (stripDollar text)) with
  | error e => rw [hf] at h; cases h
  | ok f => rw [hf] at h; exact classifyFields_bc f s h

/-- A star card is read exactly like the card without the star. -/
theorem C26_star_ignored (io : NumIO K) (text text' : Str) (n : Int) (tr : Option Str) (mn : Str) (ws : List Str)
    (h : IsStarCard io text n tr mn ws) (h' : IsCard io text' n tr mn ws) : classify io text = classify io text' := by
  rw [classify_isStarCard io text n tr mn ws h, classify_isCard io text' n tr mn ws h']

omit [Field K] [LinearOrder K] in
/-- C26, partial: a surface that is reflecting is written with the star. Missing: reading. -/
theorem C26_write_partial (io : NumIO K) (s : Surface K) (t : Str) (hb : s.bc = .reflecting)
    (h : mcnpSurfaceLine io s = .ok t) : ∃ t', t = '*' :: (intStr s.id ++ ' ' :: t') := by
  unfold mcnpSurfaceLine at h
  rw [hb] at h
  simp only [mcnpBoundary, bind, Except.bind] at h
  split at h
  · split at h
    · cases h
    · cases h; exact ⟨_, by simp; rfl⟩
  · cases h; exact ⟨_, by simp; rfl⟩

end

/-- C26 is false, concrete card. -/
theorem C26_refuted : ¬ ∀ (text : Str) (n : Int) (tr : Option Str) (mn : Str) (ws : List Str) (s : Surface ℚ),
    IsStarCard sampleIO text n tr mn ws → classify sampleIO text = .ok s → s.bc = .reflecting := by
  intro h
  have hc : IsStarCard sampleIO c!"*5 px 3" 5 none c!"px" [c!"3"] :=
    ⟨c!"5", by decide +kernel, by decide +kernel, ⟨c!"*5 px 3", [], Or.inl rfl, by decide +kernel, by decide +kernel⟩, by decide +kernel⟩
  have e : classify sampleIO c!"*5 px 3" = .ok { (Surface.blank : Surface ℚ) with type := .planeX, id := 5, coeffs := [1, 0, 0, 3] } := by
    decide +kernel
  have := h _ _ _ _ _ _ hc e
  cases this

end Csg
