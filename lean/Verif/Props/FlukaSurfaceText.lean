import Verif.Lemmas.SurfaceText
import Verif.Lemmas.Flatten
import Verif.Spec.Sample
import Mathlib.Tactic.Linarith
import Mathlib.Tactic.FieldSimp
import Mathlib.Tactic.Ring
import Mathlib.Tactic.Positivity
import Mathlib.Tactic.LinearCombination
import Mathlib.Algebra.Order.Field.Basic

/-!
# Written FLUKA bodies: C62
-/

namespace Csg

open Spec

/-- A point strictly inside a box given by the limits of x, y and z. -/
def Spec.InsideBox {K : Type} [LT K] (box : List K) (p : Point K) : Prop :=
  ∃ x₀ x₁ y₀ y₁ z₀ z₁, box = [x₀, x₁, y₀, y₁, z₀, z₁] ∧ x₀ < p.x ∧ p.x < x₁ ∧ y₀ < p.y ∧ p.y < y₁ ∧ z₀ < p.z ∧ p.z < z₁

/-- A surface that FLUKA can express with one body: no torus, no two-sheet cone, a plane with a normal. The box of a cone contains the origin; the apex does not lie in a face of the box. -/
def Spec.FlukaReady {K : Type} [Field K] [LinearOrder K] (s : Surface K) : Prop :=
  match s.type, s.coeffs, s.bbox with
  | .planeGeneral, [a, b, c, _], _ => ¬ (a = 0 ∧ b = 0 ∧ c = 0)
  | .coneX, [x, _, _, t, w], [lo, hi, _, _, _, _] => (w = 1 ∨ w = -1) ∧ 0 ≤ t ∧ lo ≤ 0 ∧ x ≠ lo ∧ x ≠ hi
  | .coneY, [_, y, _, t, w], [_, _, lo, hi, _, _] => (w = 1 ∨ w = -1) ∧ 0 ≤ t ∧ lo ≤ 0 ∧ y ≠ lo ∧ y ≠ hi
  | .coneZ, [_, _, z, t, w], [_, _, _, _, lo, hi] => (w = 1 ∨ w = -1) ∧ 0 ≤ t ∧ lo ≤ 0 ∧ z ≠ lo ∧ z ≠ hi
  | .coneX, _, _ | .coneY, _, _ | .coneZ, _, _ => False
  | ty, _, _ => IsQuadric ty

/-- A word is the text of a number or a written zero. -/
def Spec.NumberWord {K : Type} [Zero K] (io : NumIO K) (w : Str) (x : K) : Prop := w = io.render x ∨ (w = c!"0." ∨ w = c!"0.0") ∧ x = 0

section
variable {K : Type} [Field K] [LinearOrder K]

/-- The side of a cut-off cone: `m` says on which side of the apex the point lies. -/
theorem sideOf_cut {m v u : K} (h1 : 0 < u → m < 0) (h2 : u = 0 → m = 0) (h3 : u < 0 → 0 < m) (h0 : u = 0 → 0 ≤ v) :
    sideOf (max m v) = nappeSide u v := by
  rcases lt_trichotomy u 0 with hu | hu | hu
  · have hm := h3 hu
    have h : ¬ max m v < 0 := not_lt.2 (le_trans hm.le (le_max_left _ _))
    have h' : ¬ max m v = 0 := ne_of_gt (lt_of_lt_of_le hm (le_max_left _ _))
    simp [sideOf, nappeSide, h, h', not_lt.2 hu.le, not_le.2 hu]
  · have hm := h2 hu
    have hv := h0 hu
    rw [hm, max_eq_right hv]
    simp [sideOf, nappeSide, hu, not_lt.2 hv]
  · have hm := h1 hu
    rcases lt_trichotomy v 0 with hv | hv | hv
    · simp [sideOf, nappeSide, hm, hv, hu]
    · simp [sideOf, nappeSide, hv, hu.le, max_eq_right hm.le]
    · have h : max m v = v := max_eq_right (hm.trans hv).le
      simp [sideOf, nappeSide, h, not_lt.2 hv.le, ne_of_gt hv]

variable [IsStrictOrderedRing K]

private theorem trunc {q g : K} (hq : 0 < q) (hg : g ≠ 0) : (0 < g - q → max (-(q / g)) (q / g - 1) < 0) ∧ (g - q = 0 → max (-(q / g)) (q / g - 1) = 0) ∧
    (g - q < 0 → 0 < max (-(q / g)) (q / g - 1)) := by
  refine ⟨fun h => ?_, fun h => ?_, fun h => ?_⟩
  · have hg : 0 < g := by linarith
    refine max_lt (neg_lt_zero.2 (div_pos hq hg)) ?_
    rw [sub_neg, div_lt_one hg]; linarith
  · have : q = g := by linarith
    rw [this, div_self hg]; simp
  · rcases lt_or_gt_of_ne hg with hg | hg
    · exact lt_max_of_lt_left (neg_pos.2 (div_neg_of_pos_of_neg hq hg))
    · refine lt_max_of_lt_right ?_
      rw [sub_pos, one_lt_div hg]; linarith

/-- A truncated cone along an axis, with base `e`, height `h` and base radius `|h| √t`, as seen from its apex `x = e + h`. `u` is the distance from the apex away from it towards the base. -/
private theorem trc_side {sqrt : K → K} {e x a t r w u : K} (hsqrt : sqrt t ^ 2 = t) (hr : 0 ≤ r) (hx : x ≠ e)
    (hw : w = 1 ∧ a < e ∨ w = -1 ∧ e < a) (hu : u = w * (a - x)) :
    sideOf (max (max (-((a - e) / (x - e))) ((a - e) / (x - e) - 1))
      (r - (|x - e| * sqrt t + (a - e) / (x - e) * (0 - |x - e| * sqrt t)) ^ 2)) = nappeSide u (r - t * (a - x) ^ 2) := by
  have hg : x - e ≠ 0 := sub_ne_zero.2 hx
  have key : (|x - e| * sqrt t + (a - e) / (x - e) * (0 - |x - e| * sqrt t)) ^ 2 = t * (a - x) ^ 2 := by
    have h1 : (|x - e| * sqrt t + (a - e) / (x - e) * (0 - |x - e| * sqrt t)) ^ 2 = |x - e| ^ 2 * sqrt t ^ 2 * (1 - (a - e) / (x - e)) ^ 2 := by ring
    rw [h1, sq_abs, hsqrt]
    field_simp
    ring
  rw [key]
  have h0 : u = 0 → 0 ≤ r - t * (a - x) ^ 2 := by
    intro h
    have : a - x = 0 := by
      rcases hw with ⟨rfl, -⟩ | ⟨rfl, -⟩ <;> linarith
    rw [this]; simpa using hr
  rcases hw with ⟨rfl, ha⟩ | ⟨rfl, ha⟩
  · have := trunc (q := e - a) (g := e - x) (by linarith) (fun h => hg (by linarith))
    have e1 : (a - e) / (x - e) = (e - a) / (e - x) := by rw [← neg_sub e a, ← neg_sub e x, neg_div_neg_eq]
    have e2 : u = e - x - (e - a) := by rw [hu]; ring
    rw [e1]
    rw [← e2] at this
    exact sideOf_cut this.1 this.2.1 this.2.2 h0
  · have := trunc (q := a - e) (g := x - e) (by linarith) hg
    have e2 : u = x - e - (a - e) := by rw [hu]; ring
    rw [← e2] at this
    exact sideOf_cut this.1 this.2.1 this.2.2 h0

end

section
variable {K : Type}

private theorem head_split (kw : Str) (n : Int) (T : Str) (hk : kw ≠ [] ∧ NoSpace kw) :
    split (kw ++ c!" S" ++ intStr n ++ c!" " ++ T) = kw :: ('S' :: intStr n) :: split T := by
  have : kw ++ c!" S" ++ intStr n ++ c!" " ++ T = kw ++ ' ' :: (('S' :: intStr n) ++ ' ' :: T) := by simp
  rw [this, split_head hk.1 hk.2, split_head (by simp)]
  intro c hc
  rcases List.mem_cons.1 hc with rfl | hc
  · decide
  · exact intStr_noSpace n c hc

private theorem forall₂_self {K : Type} [Zero K] (io : NumIO K) (xs : List K) : List.Forall₂ (NumberWord io) (xs.map io.render) xs := by
  induction xs with
  | nil => exact .nil
  | cons x xs ih => exact .cons (Or.inl rfl) ih

end

section
variable {K : Type} [Field K] [LinearOrder K] [IsStrictOrderedRing K]

omit [IsStrictOrderedRing K] in
private theorem trcX (e y z h r : K) (hh : h ≠ 0) (p : Point K) : flukaSide c!"TRC" [e, y, z, h, 0, 0, r, 0] p =
    some (sideOf (max (max (-((p.x - e) / h)) ((p.x - e) / h - 1)) ((p.y - y) ^ 2 + (p.z - z) ^ 2 - (r + (p.x - e) / h * (0 - r)) ^ 2))) := by
  have hl : h ^ 2 + 0 ^ 2 + 0 ^ 2 ≠ (0 : K) := by simpa using hh
  have hs : ((p.x - e) * h + (p.y - y) * 0 + (p.z - z) * 0) / (h ^ 2 + 0 ^ 2 + 0 ^ 2) = (p.x - e) / h := by
    field_simp; ring
  have hr : (p.x - e) ^ 2 + (p.y - y) ^ 2 + (p.z - z) ^ 2 - ((p.x - e) / h) ^ 2 * (h ^ 2 + 0 ^ 2 + 0 ^ 2) = (p.y - y) ^ 2 + (p.z - z) ^ 2 := by
    field_simp; ring
  show (if h ^ 2 + 0 ^ 2 + 0 ^ 2 = (0 : K) then none else _) = _
  rw [if_neg hl, hs, hr]

omit [IsStrictOrderedRing K] in
private theorem trcY (e x z h r : K) (hh : h ≠ 0) (p : Point K) : flukaSide c!"TRC" [x, e, z, 0, h, 0, r, 0] p =
    some (sideOf (max (max (-((p.y - e) / h)) ((p.y - e) / h - 1)) ((p.x - x) ^ 2 + (p.z - z) ^ 2 - (r + (p.y - e) / h * (0 - r)) ^ 2))) := by
  have hl : 0 ^ 2 + h ^ 2 + 0 ^ 2 ≠ (0 : K) := by simpa using hh
  have hs : ((p.x - x) * 0 + (p.y - e) * h + (p.z - z) * 0) / (0 ^ 2 + h ^ 2 + 0 ^ 2) = (p.y - e) / h := by
    field_simp; ring
  have hr : (p.x - x) ^ 2 + (p.y - e) ^ 2 + (p.z - z) ^ 2 - ((p.y - e) / h) ^ 2 * (0 ^ 2 + h ^ 2 + 0 ^ 2) = (p.x - x) ^ 2 + (p.z - z) ^ 2 := by
    field_simp; ring
  show (if 0 ^ 2 + h ^ 2 + 0 ^ 2 = (0 : K) then none else _) = _
  rw [if_neg hl, hs, hr]

omit [IsStrictOrderedRing K] in
private theorem trcZ (e x y h r : K) (hh : h ≠ 0) (p : Point K) : flukaSide c!"TRC" [x, y, e, 0, 0, h, r, 0] p =
    some (sideOf (max (max (-((p.z - e) / h)) ((p.z - e) / h - 1)) ((p.x - x) ^ 2 + (p.y - y) ^ 2 - (r + (p.z - e) / h * (0 - r)) ^ 2))) := by
  have hl : 0 ^ 2 + 0 ^ 2 + h ^ 2 ≠ (0 : K) := by simpa using hh
  have hs : ((p.x - x) * 0 + (p.y - y) * 0 + (p.z - e) * h) / (0 ^ 2 + 0 ^ 2 + h ^ 2) = (p.z - e) / h := by
    field_simp; ring
  have hr : (p.x - x) ^ 2 + (p.y - y) ^ 2 + (p.z - e) ^ 2 - ((p.z - e) / h) ^ 2 * (0 ^ 2 + 0 ^ 2 + h ^ 2) = (p.x - x) ^ 2 + (p.y - y) ^ 2 := by
    field_simp; ring
  show (if 0 ^ 2 + 0 ^ 2 + h ^ 2 = (0 : K) then none else _) = _
  rw [if_neg hl, hs, hr]

/-- What `flukaSheet` gives for the two selectors. -/
private theorem sheet_ends (ty : SType) {w lo hi x : K} (hw : w = 1 ∨ w = -1) (hlo : lo ≤ 0) (h1 : x ≠ lo) (h2 : x ≠ hi) :
    ∃ e, flukaSheet ty w lo hi x = .ok (e, x - e) ∧ x ≠ e ∧ (w = 1 ∧ e = hi ∨ w = -1 ∧ e = lo) := by
  rcases hw with rfl | rfl
  · refine ⟨hi, ?_, h2, Or.inl ⟨rfl, rfl⟩⟩
    have h : (1 : K) ≠ -1 := by intro h; have : (0 : K) < 1 := one_pos; linarith
    have e : -1 * (hi - x) = x - hi := by ring
    simp [flukaSheet, h]
  · refine ⟨lo, ?_, h1, Or.inr ⟨rfl, rfl⟩⟩
    simp [flukaSheet, abs_of_nonpos hlo]; ring

set_option maxHeartbeats 1000000 in
/-- **C62.** The words of the FLUKA body of a surface are a keyword, the name `S<number>`, and as many numbers as belong to the keyword, which FLUKA reads as the same half-spaces: everywhere, except for
one-sheet cones, where it is inside the box of the geometry. Missing are tori, two-sheet cones (`C62_refuted`), and cones with the apex in a face of the box. -/
theorem C62_body_partial (sqrt : K → K) (io : NumIO K) (hio : ∀ x, io.render x ≠ [] ∧ ∀ c ∈ io.render x, isSpace c = false)
    (s : Surface K) (hw : WellFormed s) (hs : FlukaReady s) (hsqrt : IsCone s.type → ∀ t, s.coeffs[3]? = some t → sqrt t ^ 2 = t) :
    ∃ text kw ws ns, flukaSurface io sqrt s = .ok (text, s) ∧ split text = kw :: ('S' :: intStr s.id) :: ws ∧ List.Forall₂ (NumberWord io) ws ns ∧
      flukaArity.lookup kw = some ws.length ∧ ∀ p, (IsCone s.type → InsideBox s.bbox p) → ∃ d, flukaSide kw ns p = some d ∧ side sqrt s.type s.coeffs p = some d := by
  obtain ⟨ty, n, tr, cs, bc, bb⟩ := s
  have nk : ∀ kw ∈ [c!"PLA", c!"YZP", c!"XZP", c!"XYP", c!"XCC", c!"YCC", c!"ZCC", c!"SPH", c!"QUA", c!"TRC"],
      kw ≠ [] ∧ NoSpace kw := by unfold NoSpace; decide
  have plane : ∀ kw ∈ [c!"YZP", c!"XZP", c!"XYP"], ∀ d : K, split (kw ++ c!" S" ++ intStr n ++ c!" " ++ io.render d ++ c!"\n") = kw :: ('S' :: intStr n) :: [d].map io.render := by
    intro kw hk d
    rw [List.append_assoc _ (io.render d), head_split kw n _ (nk kw (by simp at hk ⊢; tauto)), split_newline (hio d).1 (hio d).2]; rfl
  have trailing : ∀ kw ∈ [c!"PLA", c!"XCC", c!"YCC", c!"ZCC"], ∀ xs : List K,
      split (kw ++ c!" S" ++ intStr n ++ c!" " ++ xs.flatMap (fun x => io.render x ++ c!" ") ++ c!"\n") = kw :: ('S' :: intStr n) :: xs.map io.render := by
    intro kw hk xs
    rw [List.append_assoc _ (xs.flatMap _), head_split kw n _ (nk kw (by simp at hk ⊢; tauto)), split_trailing _ _ fun x _ => hio x]
  cases ty
  case planeX =>
    match cs, hw with
    | [a, b, c, d], _ => exact ⟨_, c!"YZP", _, [d], rfl, plane c!"YZP" (by simp) d, forall₂_self io [d], rfl, fun p _ => ⟨_, rfl, rfl⟩⟩
  case planeY =>
    match cs, hw with
    | [a, b, c, d], _ => exact ⟨_, c!"XZP", _, [d], rfl, plane c!"XZP" (by simp) d, forall₂_self io [d], rfl, fun p _ => ⟨_, rfl, rfl⟩⟩
  case planeZ =>
    match cs, hw with
    | [a, b, c, d], _ => exact ⟨_, c!"XYP", _, [d], rfl, plane c!"XYP" (by simp) d, forall₂_self io [d], rfl, fun p _ => ⟨_, rfl, rfl⟩⟩
  case cylinderX =>
    match cs, hw with
    | [a, b, c], _ => exact ⟨_, c!"XCC", _, [a, b, c], rfl, trailing c!"XCC" (by simp) _, forall₂_self io _, rfl, fun p _ => ⟨_, rfl, rfl⟩⟩
  case cylinderY =>
    match cs, hw with
    | [a, b, c], _ => exact ⟨_, c!"YCC", _, [b, a, c], rfl, trailing c!"YCC" (by simp) _, forall₂_self io _, rfl, fun p _ => ⟨_, rfl, rfl⟩⟩
  case cylinderZ =>
    match cs, hw with
    | [a, b, c], _ => exact ⟨_, c!"ZCC", _, [a, b, c], rfl, trailing c!"ZCC" (by simp) _, forall₂_self io _, rfl, fun p _ => ⟨_, rfl, rfl⟩⟩
  case sphereGeneral =>
    match cs, hw with
    | [a, b, c, d], _ =>
      refine ⟨_, c!"SPH", _, [a, b, c, d], rfl, ?_, forall₂_self io _, rfl, fun p _ => ⟨_, rfl, rfl⟩⟩
      show split (c!"SPH" ++ c!" S" ++ intStr n ++ c!" " ++ join c!" " ([a, b, c, d].map io.render) ++ c!"\n") = _
      rw [List.append_assoc _ (join _ _), head_split _ n _ (nk _ (by simp)), split_joined]
      intro w hw
      obtain ⟨x, -, rfl⟩ := List.mem_map.1 hw
      exact hio x
  case generalQuadratic =>
    match cs, hw with
    | [a, b, c, d, e, f, g, h, j, k], _ =>
      refine ⟨_, c!"QUA", _, [a, b, c, d, f, e, g, h, j, k], rfl, ?_, forall₂_self io _, rfl, fun p _ => ⟨_, rfl, rfl⟩⟩
      show split (c!"QUA" ++ c!" S" ++ intStr n ++ [a, b, c, d, f, e, g, h, j, k].flatMap (fun x => c!" " ++ io.render x ++ c!" ") ++ c!"\n") = _
      have e1 : c!"QUA" ++ c!" S" ++ intStr n ++ [a, b, c, d, f, e, g, h, j, k].flatMap (fun x => c!" " ++ io.render x ++ c!" ") ++ c!"\n" =
          c!"QUA" ++ c!" S" ++ intStr n ++ c!" " ++ (io.render a ++ ' ' :: ([b, c, d, f, e, g, h, j, k].flatMap (fun x => c!" " ++ io.render x ++ c!" ") ++ c!"\n")) := by
        simp
      rw [e1, head_split _ n _ (nk _ (by simp)), split_head (hio a).1 (hio a).2, split_spaced _ _ fun x _ => hio x]; rfl
  case planeGeneral =>
    match cs, hw, hs with
    | [a, b, c, d], _, hs =>
      have hs : ¬ (a = 0 ∧ b = 0 ∧ c = 0) := hs
      have hm : a ^ 2 + b ^ 2 + c ^ 2 ≠ 0 := by
        intro h
        have ha := sq_nonneg a
        have hb := sq_nonneg b
        have hc := sq_nonneg c
        refine hs ⟨?_, ?_, ?_⟩ <;> refine pow_eq_zero_iff (n := 2) (by decide) |>.1 ?_ <;> linarith
      let D := a * 0 + b * 0 + c * 0 + d
      let M := a ^ 2 + b ^ 2 + c ^ 2
      have ht : flukaSurface io sqrt ⟨.planeGeneral, n, tr, [a, b, c, d], bc, bb⟩ =
          .ok (c!"PLA" ++ c!" S" ++ intStr n ++ c!" " ++ [a, b, c, a * D / M, b * D / M, c * D / M].flatMap (fun x => io.render x ++ c!" ") ++ c!"\n",
            ⟨.planeGeneral, n, tr, [a, b, c, d], bc, bb⟩) := by
        show (flukaPlane io ⟨.planeGeneral, n, tr, [a, b, c, d], bc, bb⟩).map (·, (⟨.planeGeneral, n, tr, [a, b, c, d], bc, bb⟩ : Surface K)) = _
        have : flukaPlane io ⟨.planeGeneral, n, tr, [a, b, c, d], bc, bb⟩ = .ok (c!"PLA" ++ c!" S" ++ intStr n ++ c!" " ++
            [a, b, c, a * D / M, b * D / M, c * D / M].flatMap (fun x => io.render x ++ c!" ") ++ c!"\n") := by
          show (if a ^ 2 + b ^ 2 + c ^ 2 = 0 then _ else _) = _
          exact if_neg hm
        rw [this]; rfl
      refine ⟨_, c!"PLA", _, _, ht, trailing c!"PLA" (by simp) _, forall₂_self io _, rfl, fun p _ => ⟨sideOf (a * p.x + b * p.y + c * p.z - d), ?_, rfl⟩⟩
      have e1 : a * p.x + b * p.y + c * p.z - d = a * (p.x - a * D / M) + b * (p.y - b * D / M) + c * (p.z - c * D / M) := by
        have : a * (p.x - a * D / M) + b * (p.y - b * D / M) + c * (p.z - c * D / M) = a * p.x + b * p.y + c * p.z - D * ((a ^ 2 + b ^ 2 + c ^ 2) / M) := by ring
        rw [this, div_self hm]; simp only [D]; ring
      rw [e1]
      exact if_neg hs
  case coneX =>
    match cs, hw, bb, hs with
    | [x, y, z, t, w], _, [lo, hi, k₁, k₂, k₃, k₄], hs =>
      obtain ⟨hw1, ht, hlo, h1, h2⟩ : (w = 1 ∨ w = -1) ∧ 0 ≤ t ∧ lo ≤ 0 ∧ x ≠ lo ∧ x ≠ hi := hs
      obtain ⟨e, he, hne, hend⟩ := sheet_ends .coneX hw1 hlo h1 h2
      have hw0 : w ≠ 0 := by rcases hw1 with rfl | rfl <;> simp
      have htext : flukaSurface io sqrt ⟨.coneX, n, tr, [x, y, z, t, w], bc, [lo, hi, k₁, k₂, k₃, k₄]⟩ =
          .ok (c!"TRC" ++ c!" S" ++ intStr n ++ c!" " ++ (io.render e ++ c!" " ++ io.render y ++ c!" " ++ io.render z ++ c!" " ++ io.render (x - e) ++ c!" 0. 0. ") ++ io.render (|x - e| * sqrt t) ++ c!" 0.0\n",
            ⟨.coneX, n, tr, [x, y, z, t, w], bc, [lo, hi, k₁, k₂, k₃, k₄]⟩) := by
        show flukaCone io sqrt ⟨.coneX, n, tr, [x, y, z, t, w], bc, [lo, hi, k₁, k₂, k₃, k₄]⟩ = _
        simp [flukaCone, pyGet, bind, Except.bind, hw0, he, not_lt.2 ht, flukaHead]
      refine ⟨_, c!"TRC", [io.render e, io.render y, io.render z, io.render (x - e), c!"0.", c!"0.", io.render (|x - e| * sqrt t), c!"0.0"], [e, y, z, x - e, 0, 0, |x - e| * sqrt t, 0], htext, ?_, ?_, rfl, ?_⟩
      · have e1 : c!"TRC" ++ c!" S" ++ intStr n ++ c!" " ++ (io.render e ++ c!" " ++ io.render y ++ c!" " ++ io.render z ++ c!" " ++ io.render (x - e) ++ c!" 0. 0. ") ++ io.render (|x - e| * sqrt t) ++ c!" 0.0\n" =
            c!"TRC" ++ c!" S" ++ intStr n ++ c!" " ++ (io.render e ++ ' ' :: (io.render y ++ ' ' :: (io.render z ++ ' ' :: (io.render (x - e) ++ ' ' :: (c!"0." ++ ' ' :: (c!"0." ++ ' ' :: (io.render (|x - e| * sqrt t) ++ ' ' :: (c!"0.0" ++ c!"\n")))))))) := by simp
        rw [e1, head_split _ n _ (nk _ (by simp))]
        have hz : c!"0." ≠ [] ∧ NoSpace c!"0." := by unfold NoSpace; decide
        have hz' : c!"0.0" ≠ [] ∧ NoSpace c!"0.0" := by unfold NoSpace; decide
        simp only [split_head (hio _).1 (hio _).2, split_head hz.1 hz.2, split_newline hz'.1 hz'.2]
      · exact .cons (Or.inl rfl) (.cons (Or.inl rfl) (.cons (Or.inl rfl) (.cons (Or.inl rfl) (.cons (Or.inr ⟨Or.inl rfl, rfl⟩) (.cons (Or.inr ⟨Or.inl rfl, rfl⟩) (.cons (Or.inl rfl) (.cons (Or.inr ⟨Or.inr rfl, rfl⟩) .nil)))))))
      · intro p hp
        refine ⟨nappeSide (w * (p.x - x)) ((p.y - y) ^ 2 + (p.z - z) ^ 2 - t * (p.x - x) ^ 2), ?_, by simp [side, torusValue, value, sheet, hw0]⟩
        obtain ⟨x₀, x₁, y₀, y₁, z₀, z₁, hbox, hx₀, hx₁, hy₀, hy₁, hz₀, hz₁⟩ := hp (by simp [IsCone])
        simp only [List.cons.injEq, and_true] at hbox
        obtain ⟨hb0, hb1, hb2, hb3, hb4, hb5⟩ := hbox
        rw [trcX _ _ _ _ _ (sub_ne_zero.2 hne) p]
        refine congrArg some (trc_side (hsqrt (by simp [IsCone]) t rfl) (by positivity) hne ?_ rfl)
        rcases hend with ⟨hw2, rfl⟩ | ⟨hw2, rfl⟩
        · exact Or.inl ⟨hw2, by rw [hb1]; assumption⟩
        · exact Or.inr ⟨hw2, by rw [hb0]; assumption⟩
  case coneY =>
    match cs, hw, bb, hs with
    | [x, y, z, t, w], _, [k₁, k₂, lo, hi, k₃, k₄], hs =>
      obtain ⟨hw1, ht, hlo, h1, h2⟩ : (w = 1 ∨ w = -1) ∧ 0 ≤ t ∧ lo ≤ 0 ∧ y ≠ lo ∧ y ≠ hi := hs
      obtain ⟨e, he, hne, hend⟩ := sheet_ends .coneY hw1 hlo h1 h2
      have hw0 : w ≠ 0 := by rcases hw1 with rfl | rfl <;> simp
      have htext : flukaSurface io sqrt ⟨.coneY, n, tr, [x, y, z, t, w], bc, [k₁, k₂, lo, hi, k₃, k₄]⟩ =
          .ok (c!"TRC" ++ c!" S" ++ intStr n ++ c!" " ++ (io.render x ++ c!" " ++ io.render e ++ c!" " ++ io.render z ++ c!" " ++ c!"0. " ++ io.render (y - e) ++ c!" 0. ") ++ io.render (|y - e| * sqrt t) ++ c!" 0.0\n",
            ⟨.coneY, n, tr, [x, y, z, t, w], bc, [k₁, k₂, lo, hi, k₃, k₄]⟩) := by
        show flukaCone io sqrt ⟨.coneY, n, tr, [x, y, z, t, w], bc, [k₁, k₂, lo, hi, k₃, k₄]⟩ = _
        simp [flukaCone, pyGet, bind, Except.bind, hw0, he, not_lt.2 ht, flukaHead]
      refine ⟨_, c!"TRC", [io.render x, io.render e, io.render z, c!"0.", io.render (y - e), c!"0.", io.render (|y - e| * sqrt t), c!"0.0"], [x, e, z, 0, y - e, 0, |y - e| * sqrt t, 0], htext, ?_, ?_, rfl, ?_⟩
      · have e1 : c!"TRC" ++ c!" S" ++ intStr n ++ c!" " ++ (io.render x ++ c!" " ++ io.render e ++ c!" " ++ io.render z ++ c!" " ++ c!"0. " ++ io.render (y - e) ++ c!" 0. ") ++ io.render (|y - e| * sqrt t) ++ c!" 0.0\n" =
            c!"TRC" ++ c!" S" ++ intStr n ++ c!" " ++ (io.render x ++ ' ' :: (io.render e ++ ' ' :: (io.render z ++ ' ' :: (c!"0." ++ ' ' :: (io.render (y - e) ++ ' ' :: (c!"0." ++ ' ' :: (io.render (|y - e| * sqrt t) ++ ' ' :: (c!"0.0" ++ c!"\n")))))))) := by simp
        rw [e1, head_split _ n _ (nk _ (by simp))]
        have hz : c!"0." ≠ [] ∧ NoSpace c!"0." := by unfold NoSpace; decide
        have hz' : c!"0.0" ≠ [] ∧ NoSpace c!"0.0" := by unfold NoSpace; decide
        simp only [split_head (hio _).1 (hio _).2, split_head hz.1 hz.2, split_newline hz'.1 hz'.2]
      · exact .cons (Or.inl rfl) (.cons (Or.inl rfl) (.cons (Or.inl rfl) (.cons (Or.inr ⟨Or.inl rfl, rfl⟩) (.cons (Or.inl rfl) (.cons (Or.inr ⟨Or.inl rfl, rfl⟩) (.cons (Or.inl rfl) (.cons (Or.inr ⟨Or.inr rfl, rfl⟩) .nil)))))))
      · intro p hp
        refine ⟨nappeSide (w * (p.y - y)) ((p.x - x) ^ 2 + (p.z - z) ^ 2 - t * (p.y - y) ^ 2), ?_, by simp [side, torusValue, value, sheet, hw0]⟩
        obtain ⟨x₀, x₁, y₀, y₁, z₀, z₁, hbox, hx₀, hx₁, hy₀, hy₁, hz₀, hz₁⟩ := hp (by simp [IsCone])
        simp only [List.cons.injEq, and_true] at hbox
        obtain ⟨hb0, hb1, hb2, hb3, hb4, hb5⟩ := hbox
        rw [trcY _ _ _ _ _ (sub_ne_zero.2 hne) p]
        refine congrArg some (trc_side (hsqrt (by simp [IsCone]) t rfl) (by positivity) hne ?_ rfl)
        rcases hend with ⟨hw2, rfl⟩ | ⟨hw2, rfl⟩
        · exact Or.inl ⟨hw2, by rw [hb3]; assumption⟩
        · exact Or.inr ⟨hw2, by rw [hb2]; assumption⟩
  case coneZ =>
    match cs, hw, bb, hs with
    | [x, y, z, t, w], _, [k₁, k₂, k₃, k₄, lo, hi], hs =>
      obtain ⟨hw1, ht, hlo, h1, h2⟩ : (w = 1 ∨ w = -1) ∧ 0 ≤ t ∧ lo ≤ 0 ∧ z ≠ lo ∧ z ≠ hi := hs
      obtain ⟨e, he, hne, hend⟩ := sheet_ends .coneZ hw1 hlo h1 h2
      have hw0 : w ≠ 0 := by rcases hw1 with rfl | rfl <;> simp
      have htext : flukaSurface io sqrt ⟨.coneZ, n, tr, [x, y, z, t, w], bc, [k₁, k₂, k₃, k₄, lo, hi]⟩ =
          .ok (c!"TRC" ++ c!" S" ++ intStr n ++ c!" " ++ (io.render x ++ c!" " ++ io.render y ++ c!" " ++ io.render e ++ c!" " ++ c!"0. 0. " ++ io.render (z - e) ++ c!" ") ++ io.render (|z - e| * sqrt t) ++ c!" 0.0\n",
            ⟨.coneZ, n, tr, [x, y, z, t, w], bc, [k₁, k₂, k₃, k₄, lo, hi]⟩) := by
        show flukaCone io sqrt ⟨.coneZ, n, tr, [x, y, z, t, w], bc, [k₁, k₂, k₃, k₄, lo, hi]⟩ = _
        simp [flukaCone, pyGet, bind, Except.bind, hw0, he, not_lt.2 ht, flukaHead]
      refine ⟨_, c!"TRC", [io.render x, io.render y, io.render e, c!"0.", c!"0.", io.render (z - e), io.render (|z - e| * sqrt t), c!"0.0"], [x, y, e, 0, 0, z - e, |z - e| * sqrt t, 0], htext, ?_, ?_, rfl, ?_⟩
      · have e1 : c!"TRC" ++ c!" S" ++ intStr n ++ c!" " ++ (io.render x ++ c!" " ++ io.render y ++ c!" " ++ io.render e ++ c!" " ++ c!"0. 0. " ++ io.render (z - e) ++ c!" ") ++ io.render (|z - e| * sqrt t) ++ c!" 0.0\n" =
            c!"TRC" ++ c!" S" ++ intStr n ++ c!" " ++ (io.render x ++ ' ' :: (io.render y ++ ' ' :: (io.render e ++ ' ' :: (c!"0." ++ ' ' :: (c!"0." ++ ' ' :: (io.render (z - e) ++ ' ' :: (io.render (|z - e| * sqrt t) ++ ' ' :: (c!"0.0" ++ c!"\n")))))))) := by simp
        rw [e1, head_split _ n _ (nk _ (by simp))]
        have hz : c!"0." ≠ [] ∧ NoSpace c!"0." := by unfold NoSpace; decide
        have hz' : c!"0.0" ≠ [] ∧ NoSpace c!"0.0" := by unfold NoSpace; decide
        simp only [split_head (hio _).1 (hio _).2, split_head hz.1 hz.2, split_newline hz'.1 hz'.2]
      · exact .cons (Or.inl rfl) (.cons (Or.inl rfl) (.cons (Or.inl rfl) (.cons (Or.inr ⟨Or.inl rfl, rfl⟩) (.cons (Or.inr ⟨Or.inl rfl, rfl⟩) (.cons (Or.inl rfl) (.cons (Or.inl rfl) (.cons (Or.inr ⟨Or.inr rfl, rfl⟩) .nil)))))))
      · intro p hp
        refine ⟨nappeSide (w * (p.z - z)) ((p.x - x) ^ 2 + (p.y - y) ^ 2 - t * (p.z - z) ^ 2), ?_, by simp [side, torusValue, value, sheet, hw0]⟩
        obtain ⟨x₀, x₁, y₀, y₁, z₀, z₁, hbox, hx₀, hx₁, hy₀, hy₁, hz₀, hz₁⟩ := hp (by simp [IsCone])
        simp only [List.cons.injEq, and_true] at hbox
        obtain ⟨hb0, hb1, hb2, hb3, hb4, hb5⟩ := hbox
        rw [trcZ _ _ _ _ _ (sub_ne_zero.2 hne) p]
        refine congrArg some (trc_side (hsqrt (by simp [IsCone]) t rfl) (by positivity) hne ?_ rfl)
        rcases hend with ⟨hw2, rfl⟩ | ⟨hw2, rfl⟩
        · exact Or.inl ⟨hw2, by rw [hb5]; assumption⟩
        · exact Or.inr ⟨hw2, by rw [hb4]; assumption⟩
  all_goals cases hs

end

/-- C62 is false for two-sheet cones: the body has the equation of an ellipsoid, and the point (1, 0, 0) inside the cone lies outside of it. -/
theorem C62_refuted : ¬ ∀ (s s' : Surface ℚ) (text kw : Str) (ws : List Str) (ns : List ℚ), WellFormed s → IsQuadric s.type →
    flukaSurface sampleIO id s = .ok (text, s') → split text = kw :: ('S' :: intStr s.id) :: ws → ws.map decimal = ns.map some →
    ∀ p, flukaSide kw ns p = side id s.type s.coeffs p := by
  intro h
  have := h { (Surface.blank : Surface ℚ) with type := .coneX, id := 7, coeffs := [0, 0, 0, 1, 0] } { (Surface.blank : Surface ℚ) with type := .coneX, id := 7, coeffs := [1, 1, 1, 0, 0, 0, 0, 0, 0, 0] }
    c!"QUA S7 1.0  1.0  1.0  0.0  0.0  0.0  0.0  0.0  0.0  0.0 \n" c!"QUA" [c!"1.0", c!"1.0", c!"1.0", c!"0.0", c!"0.0", c!"0.0", c!"0.0", c!"0.0", c!"0.0", c!"0.0"]
    [1, 1, 1, 0, 0, 0, 0, 0, 0, 0] rfl trivial (by decide +kernel) (by decide +kernel) (by decide +kernel) ⟨1, 0, 0⟩
  exact absurd this (by decide +kernel)

section
variable {K : Type} [Field K] [LinearOrder K] [IsStrictOrderedRing K]

omit [IsStrictOrderedRing K] in
/-- Writing FLUKA bodies changes the deck: afterwards a two-sheet cone is still called a cone but carries the ten coefficients of a quadric. -/
theorem C62_cone_overwritten (sqrt : K → K) (io : NumIO K) (s : Surface K) (hty : IsCone s.type) (x y z t : K) (hc : s.coeffs = [x, y, z, t, 0]) :
    ∃ text s', flukaSurface io sqrt s = .ok (text, s') ∧ s'.type = s.type ∧ s'.coeffs.length = 10 := by
  obtain ⟨ty, n, tr, cs, bc, bb⟩ := s
  subst hc
  have h0 : ¬ (0 : K) ≠ 0 := by simp
  rcases hty with h | h | h <;> cases h <;> exact ⟨_, _, if_neg h0, rfl, rfl⟩

private theorem side_sum {t u v w e : K} {P : Prop} [Decidable P] (ht : 0 < t) (hP : u = 0 ∧ v = 0 ∧ w = 0 ↔ P) (he : e = t * u ^ 2 + v ^ 2 + w ^ 2) :
    some (sideOf e) = some (if P then .on else .pos) := by
  have h1 := sq_nonneg u
  have h2 := sq_nonneg v
  have h3 := sq_nonneg w
  have h4 : 0 ≤ t * u ^ 2 := mul_nonneg ht.le h1
  have hz : e = 0 ↔ P := by
    rw [← hP, he]
    refine ⟨fun h => ?_, fun ⟨h, h', h''⟩ => by simp [h, h', h'']⟩
    have hu : t * u ^ 2 = 0 := by linarith
    have hv : v ^ 2 = 0 := by linarith
    have hw : w ^ 2 = 0 := by linarith
    refine ⟨?_, (pow_eq_zero_iff two_ne_zero).1 hv, (pow_eq_zero_iff two_ne_zero).1 hw⟩
    rcases mul_eq_zero.1 hu with h | h
    · exact absurd h ht.ne'
    · exact (pow_eq_zero_iff two_ne_zero).1 h
  unfold sideOf
  rw [if_neg (by linarith), if_congr hz rfl rfl]

/-- What is written for a two-sheet cone, for every such cone: the body that has the apex as its only point. The term along the axis has the wrong sign, so that the inside of the cone becomes empty. -/
theorem C62_two_sheets (sqrt : K → K) (io : NumIO K) (hio : ∀ x, io.render x ≠ [] ∧ ∀ c ∈ io.render x, isSpace c = false) (s : Surface K) (hty : IsCone s.type)
    (x y z t : K) (hc : s.coeffs = [x, y, z, t, 0]) (ht : 0 < t) :
    ∃ text s' ws ns, flukaSurface io sqrt s = .ok (text, s') ∧ split text = c!"QUA" :: ('S' :: intStr s.id) :: ws ∧ List.Forall₂ (NumberWord io) ws ns ∧
      (∀ p, flukaSide c!"QUA" ns p = some (if p.x = x ∧ p.y = y ∧ p.z = z then .on else .pos)) := by
  obtain ⟨ty, n, tr, cs, bc, bb⟩ := s
  subst hc
  have h0 : ¬ (0 : K) ≠ 0 := by simp
  have key : ∀ a b c g h j k : K, ∃ ws, split (c!"QUA" ++ c!" S" ++ intStr n ++ [a, b, c, 0, 0, 0, g, h, j, k].flatMap (fun x => c!" " ++ io.render x ++ c!" ") ++ c!"\n") =
      c!"QUA" :: ('S' :: intStr n) :: ws ∧ List.Forall₂ (NumberWord io) ws [a, b, c, 0, 0, 0, g, h, j, k] := by
    intro a b c g h j k
    refine ⟨_, ?_, forall₂_self io _⟩
    have e1 : c!"QUA" ++ c!" S" ++ intStr n ++ [a, b, c, 0, 0, 0, g, h, j, k].flatMap (fun x => c!" " ++ io.render x ++ c!" ") ++ c!"\n" =
        c!"QUA" ++ c!" S" ++ intStr n ++ c!" " ++ (io.render a ++ ' ' :: ([b, c, 0, 0, 0, g, h, j, k].flatMap (fun x => c!" " ++ io.render x ++ c!" ") ++ c!"\n")) := by
      simp
    rw [e1, head_split _ n _ ⟨by decide, by unfold NoSpace; decide⟩, split_head (hio a).1 (hio a).2, split_spaced _ _ fun x _ => hio x]; rfl
  rcases hty with h | h | h <;> cases h
  · obtain ⟨ws, h1, h2⟩ := key t 1 1 (-2 * t * x) (-2 * y) (-2 * z) (t * x ^ 2 + y ^ 2 + z ^ 2)
    refine ⟨_, _, ws, _, if_neg h0, h1, h2, fun p => ?_⟩
    exact side_sum (u := p.x - x) (v := p.y - y) (w := p.z - z) ht (by simp only [sub_eq_zero]) (by ring)
  · obtain ⟨ws, h1, h2⟩ := key 1 t 1 (-2 * x) (-2 * t * y) (-2 * z) (x ^ 2 + t * y ^ 2 + z ^ 2)
    refine ⟨_, _, ws, _, if_neg h0, h1, h2, fun p => ?_⟩
    exact side_sum (u := p.y - y) (v := p.x - x) (w := p.z - z) ht (by simp only [sub_eq_zero]; tauto) (by ring)
  · obtain ⟨ws, h1, h2⟩ := key 1 1 t (-2 * x) (-2 * y) (-2 * t * z) (x ^ 2 + y ^ 2 + t * z ^ 2)
    refine ⟨_, _, ws, _, if_neg h0, h1, h2, fun p => ?_⟩
    exact side_sum (u := p.z - z) (v := p.x - x) (w := p.y - y) ht (by simp only [sub_eq_zero]; tauto) (by ring)

end

/-- A cone as in `C62_two_sheets`; the point (1, 2, 9) is inside the cone. -/
example : side id .coneZ [1, 2, 4, 9, 0] (⟨1, 2, 9⟩ : Point ℚ) = some .neg ∧ ∃ s', flukaSurface sampleIO id { (Surface.blank : Surface ℚ) with type := .coneZ, id := 3, coeffs := [1, 2, 4, 9, 0] } =
    .ok (c!"QUA S3 1.0  1.0  9.0  0.0  0.0  0.0  -2.0  -4.0  -72.0  149.0 \n", s') :=
  ⟨by decide +kernel, { (Surface.blank : Surface ℚ) with type := .coneZ, id := 3, coeffs := [1, 1, 9, 0, 0, 0, -2, -4, -72, 149] }, by decide +kernel⟩

/-- A cone that opens downwards in a box around the origin. -/
def flukaSampleCone : Surface ℚ := { (Surface.blank : Surface ℚ) with type := .coneZ, id := 3, coeffs := [1, 2, 4, 9, -1], bbox := [-10, 10, -10, 10, -10, 10] }

theorem sampleIO_words (x : ℚ) : sampleIO.render x ≠ [] ∧ ∀ c ∈ sampleIO.render x, isSpace c = false := by
  unfold sampleIO
  simp only
  split
  · refine ⟨by simp, fun c hc => ?_⟩
    rcases List.mem_append.1 hc with hc | hc
    · exact intStr_noSpace _ c hc
    · simp at hc; rcases hc with rfl | rfl <;> rfl
  · refine ⟨by simp, fun c hc => ?_⟩
    simp only [List.mem_append] at hc
    rcases hc with (hc | hc) | hc
    · exact intStr_noSpace _ c hc
    · rw [List.mem_singleton.1 hc]; rfl
    · exact isSpace_of_isDigit (natStr_digits _ c hc)

/-- The hypotheses of C62 are met; the cone has the apex (1, 2, 4) and height 14. -/
example : WellFormed flukaSampleCone ∧ FlukaReady flukaSampleCone ∧ (∀ x : ℚ, sampleIO.render x ≠ [] ∧ ∀ c ∈ sampleIO.render x, isSpace c = false) ∧
    InsideBox flukaSampleCone.bbox ⟨1, 2, 3⟩ ∧ side id .coneZ [1, 2, 4, 9, -1] (⟨1, 2, 3⟩ : Point ℚ) = some .neg ∧
    flukaSurface sampleIO (fun t => if t = 9 then 3 else 0) flukaSampleCone = .ok (c!"TRC S3 1.0 2.0 -10.0 0. 0. 14.0 42.0 0.0\n", flukaSampleCone) :=
  ⟨rfl, by norm_num [FlukaReady, flukaSampleCone], sampleIO_words, ⟨_, _, _, _, _, _, rfl, by norm_num, by norm_num, by norm_num, by norm_num, by norm_num, by norm_num⟩,
    by decide +kernel, by decide +kernel⟩

end Csg
