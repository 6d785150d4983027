import Verif.Lemmas.Transform
import Verif.Lemmas.Bounding
import Mathlib.Tactic.NormNum
import Mathlib.Tactic.Linarith
import Mathlib.Data.Rat.Defs

/-!
# C01, C02, C03, C09, C10, C11: generic surface operations
-/

namespace Csg

open Spec

section
variable {K : Type} [Field K]

/-- C01 (values): `generalise` gives a general quadric with, at every point, the value of the defining function
of the card. It never fails on a card with the right number of coefficients. -/
theorem C01_generalise_value (s : Surface K) (hw : WellFormed s) (hq : IsQuadric s.type) :
    ∃ s', s.generalise = .ok s' ∧ s'.type = .generalQuadratic ∧ WellFormed s' ∧ s'.id = s.id ∧ s'.bc = s.bc ∧
      s'.transform = s.transform ∧ ∀ p, value s'.type s'.coeffs p = value s.type s.coeffs p := by
  obtain ⟨cs, h, hl, hv⟩ := gqCoeffs_value s hw hq
  refine ⟨{ s with type := .generalQuadratic, coeffs := cs }, ?_, rfl, ?_, rfl, rfl, rfl, hv⟩
  · simp [Surface.generalise, isTorus_of_isQuadric hq, h, bind, Except.bind]
  · simp [WellFormed, arity, hl]

variable [LinearOrder K]

/-- C01 (senses): the sense of every point is unchanged. -/
theorem C01_generalise_side (sqrt : K → K) (s : Surface K) (hw : WellFormed s) (hq : IsQuadric s.type)
    (h2 : TwoSheet s) :
    ∃ s', s.generalise = .ok s' ∧ s'.type = .generalQuadratic ∧ s'.id = s.id ∧ s'.bc = s.bc ∧
      ∀ p, side sqrt s'.type s'.coeffs p = side sqrt s.type s.coeffs p ∧
        (side sqrt s.type s.coeffs p).isSome = true := by
  obtain ⟨s', h, ht, _, hid, hbc, _, hv⟩ := C01_generalise_value s hw hq
  refine ⟨s', h, ht, hid, hbc, fun p => ⟨?_, ?_⟩⟩
  · rw [side_eq_sideOf sqrt s hw hq h2, ← hv p, ht, side_gq]
  · rw [side_eq_sideOf sqrt s hw hq h2]
    simpa using value_isSome s hw hq p

end

/-- A sphere with centre (1, 2, 3) and radius 2. -/
def sampleSphere : Surface ℚ :=
  { type := .sphereGeneral, id := 7, transform := none, coeffs := [1, 2, 3, 2], bc := .transmission, bbox := [] }

example : WellFormed sampleSphere ∧ IsQuadric sampleSphere.type ∧ TwoSheet sampleSphere ∧
    side id sampleSphere.type sampleSphere.coeffs ⟨1, 2, 4⟩ = some .neg ∧
    side id sampleSphere.type sampleSphere.coeffs ⟨3, 2, 3⟩ = some .on ∧
    side id sampleSphere.type sampleSphere.coeffs ⟨0, 0, 0⟩ = some .pos := by
  refine ⟨rfl, trivial, trivial, ?_, ?_, ?_⟩ <;>
    norm_num [sampleSphere, side, torusValue, value, sheet, sideOf]

section
variable {K : Type} [Field K] [LinearOrder K]

/-- C03, partial: `simplify` keeps the sense of every point if the quadric is not one whose only second-degree term is in
`x z`. What is missing is that exceptional case, see `C03_refuted`. -/
theorem C03_simplify_partial (sqrt : K → K) (s : Surface K) (hw : WellFormed s) (hty : s.type = .generalQuadratic)
    (hx : ¬ XZOnly (value s.type s.coeffs)) :
    ∃ s', s.simplify = .ok s' ∧ s'.id = s.id ∧ s'.bc = s.bc ∧ WellFormed s' ∧
      ∀ p, side sqrt s'.type s'.coeffs p = side sqrt s.type s.coeffs p := by
  have hl : s.coeffs.length = 10 := by
    simpa [WellFormed, hty, arity, eq_comm] using hw
  obtain ⟨s', h, hid, hbc, _, hw', hq', h2', hv⟩ := simplify_value s hty hl hx
  refine ⟨s', h, hid, hbc, hw', fun p => ?_⟩
  rw [side_eq_sideOf sqrt s' hw' hq' h2', hv, hty, side_gq]

/-- C03 for every other card: nothing happens. -/
theorem C03_simplify_other (s : Surface K) (hty : s.type ≠ .generalQuadratic) : s.simplify = .ok s := by
  simp [Surface.simplify, hty]

end

/-- The quadric `x z = 0`. -/
def xzQuadric : Surface ℚ :=
  { type := .generalQuadratic, id := 1, transform := some c!"5", coeffs := [0, 0, 0, 0, 0, 1, 0, 0, 0, 0],
    bc := .transmission, bbox := [] }

/-- C03 is false: the quadric `x z = 0` becomes the degenerate plane with four zero coefficients, for which every point is on
the surface. -/
theorem C03_refuted : ¬ ∀ s : Surface ℚ, WellFormed s → s.type = .generalQuadratic →
    ∃ s', s.simplify = .ok s' ∧ ∀ p, side id s'.type s'.coeffs p = side id s.type s.coeffs p := by
  intro h
  obtain ⟨s', hs, hp⟩ := h xzQuadric rfl rfl
  have e : xzQuadric.simplify = .ok { xzQuadric with type := .planeGeneral, coeffs := [0, 0, 0, 0] } := by
    decide +kernel
  rw [e] at hs
  cases hs
  have := hp ⟨1, 0, 1⟩
  exact absurd this (by decide +kernel)

/-- The hypothesis of `C03_simplify_partial` holds for the plane `x + 2 y = 3` given as a quadric. -/
example : ¬ XZOnly (value (K := ℚ) .generalQuadratic [0, 0, 0, 0, 0, 0, 1, 2, 0, -3]) := by
  rintro ⟨f, g, h, j, k, hf, hv⟩
  simp only [value, Option.some.injEq] at hv
  have h0 := hv ⟨0, 0, 0⟩
  have hx := hv ⟨1, 0, 0⟩
  have hz := hv ⟨0, 0, 1⟩
  have hxz := hv ⟨1, 0, 1⟩
  norm_num at h0 hx hz hxz
  apply hf
  linarith

section
variable {K : Type} [Field K] [LinearOrder K] [IsStrictOrderedRing K]

/-- C02, partial: the surface with a transform number becomes a card for which the sense of a point is the sense of the
pulled-back point with respect to the original. The TR card is arbitrary (the rows need not be orthonormal). What is missing: one-sheet
cones, and moved surfaces of the exceptional form of `C03_refuted`. -/
theorem C02_transform_partial (sqrt : K → K) (trs : List (Str × Transform K)) (s : Surface K) (n : Str) (t : Transform K)
    (hw : WellFormed s) (hq : IsQuadric s.type) (h2 : TwoSheet s)
    (hn : s.transform = some n) (ht : trs.lookup n = some t)
    (hx : ¬ XZOnly (fun p => value s.type s.coeffs (pullback t p))) :
    ∃ s', s.applyTransformCard trs = .ok s' ∧ s'.id = s.id ∧ s'.bc = s.bc ∧ WellFormed s' ∧ IsQuadric s'.type ∧ TwoSheet s' ∧
      ∀ p, side sqrt s'.type s'.coeffs p = side sqrt s.type s.coeffs (pullback t p) := by
  obtain ⟨g, hg, hgt, hgw, hgid, hgbc, hgtr, hgv⟩ := C01_generalise_value s hw hq
  have hgl : g.coeffs.length = 10 := by simpa [WellFormed, hgt, arity, eq_comm] using hgw
  obtain ⟨cs, hcs, hcl, hcv⟩ := transformCoeffs_value g.coeffs t hgl
  have hm : g.applyTransform t = .ok { g with coeffs := cs } := by
    simp [Surface.applyTransform, hgtr, hn, hcs, bind, Except.bind]
  have hval : ∀ p, value g.type cs p = value s.type s.coeffs (pullback t p) := by
    intro p
    rw [hgt, hcv, ← hgv (pullback t p), hgt]
  have hx' : ¬ XZOnly (value g.type cs) := by
    intro h
    obtain ⟨f, a, b, c, d, hf, h⟩ := h
    exact hx ⟨f, a, b, c, d, hf, fun p => by rw [← h p, hval]⟩
  obtain ⟨s', h, hid, hbc, _, hw', hq', h2', hv⟩ :=
    simplify_value { g with coeffs := cs } hgt hcl hx'
  have hnm : s.isMacrobody = false := by
    unfold Surface.isMacrobody
    cases hs : s.type <;> simp_all [IsQuadric]
  refine ⟨s', ?_, hid.trans hgid, hbc.trans hgbc, hw', hq', h2', fun p => ?_⟩
  · simp [Surface.applyTransformCard, hn, hnm, hg, ht, hm, h, bind, Except.bind]
  · rw [side_eq_sideOf sqrt s' hw' hq' h2', hv, hval, side_eq_sideOf sqrt s hw hq h2]

/-- C02 without exceptions for every plane, sphere, cylinder and two-sheet cone (any card that is not itself a general quadric) under
every rigid motion. -/
theorem C02_transform_rigid_partial (sqrt : K → K) (trs : List (Str × Transform K)) (s : Surface K) (n : Str)
    (t : Transform K) (hw : WellFormed s) (hq : IsQuadric s.type) (h2 : TwoSheet s)
    (hng : s.type ≠ .generalQuadratic) (hn : s.transform = some n) (ht : trs.lookup n = some t) (hr : Rigid t) :
    ∃ s', s.applyTransformCard trs = .ok s' ∧ s'.id = s.id ∧ s'.bc = s.bc ∧ WellFormed s' ∧ IsQuadric s'.type ∧ TwoSheet s' ∧
      ∀ p, side sqrt s'.type s'.coeffs p = side sqrt s.type s.coeffs (pullback t p) := by
  refine C02_transform_partial sqrt trs s n t hw hq h2 hn ht ?_
  obtain ⟨cs, hcs, _, hv⟩ := gqCoeffs_value s hw hq
  obtain ⟨q1, q2, q3, g, h, j, k, hd, hor⟩ := gqCoeffs_diag s hw hq hng
  rw [hd] at hcs
  cases hcs
  have := not_xzOnly_of_rigid q1 q2 q3 g h j k t hr hor
  simpa only [hv] using this

end

/-- A quarter turn about z with a shift. -/
def quarterTurn : Transform ℚ := ⟨⟨10, 0, 0⟩, ⟨0, 1, 0⟩, ⟨-1, 0, 0⟩, ⟨0, 0, 1⟩⟩

example : Rigid quarterTurn ∧
    pullback quarterTurn ⟨10, 1, 0⟩ = ⟨1, 0, 0⟩ ∧
    WellFormed ({ sampleSphere with type := .coneX, coeffs := [1, 2, 3, 2, 0], transform := some c!"5" } : Surface ℚ) ∧
    TwoSheet ({ sampleSphere with type := .coneX, coeffs := [1, 2, 3, 2, 0], transform := some c!"5" } : Surface ℚ) := by
  refine ⟨⟨?_, ?_, ?_, ?_, ?_, ?_⟩, ?_, rfl, rfl⟩ <;> norm_num [quarterTurn, vecDot, pullback]

/-- C02 is false: the quadric `x z = 0` with a transform number loses its half-spaces even under the identity. -/
theorem C02_refuted : ¬ ∀ (trs : List (Str × Transform ℚ)) (s : Surface ℚ) (n : Str) (t : Transform ℚ),
    WellFormed s → IsQuadric s.type → s.transform = some n → trs.lookup n = some t → Rigid t →
    ∃ s', s.applyTransformCard trs = .ok s' ∧
      ∀ p, side id s'.type s'.coeffs p = side id s.type s.coeffs (pullback t p) := by
  intro h
  have hr : Rigid (⟨⟨0, 0, 0⟩, ⟨1, 0, 0⟩, ⟨0, 1, 0⟩, ⟨0, 0, 1⟩⟩ : Transform ℚ) := by
    refine ⟨?_, ?_, ?_, ?_, ?_, ?_⟩ <;> norm_num [vecDot]
  obtain ⟨s', hs, hp⟩ := h [(c!"5", ⟨⟨0, 0, 0⟩, ⟨1, 0, 0⟩, ⟨0, 1, 0⟩, ⟨0, 0, 1⟩⟩)] xzQuadric c!"5" _ rfl trivial rfl
    rfl hr
  have e : xzQuadric.applyTransformCard [(c!"5", ⟨⟨0, 0, 0⟩, ⟨1, 0, 0⟩, ⟨0, 1, 0⟩, ⟨0, 0, 1⟩⟩)]
      = .ok { xzQuadric with type := .planeGeneral, coeffs := [0, 0, 0, 0] } := by
    decide +kernel
  rw [e] at hs
  cases hs
  have := hp ⟨1, 0, 1⟩
  exact absurd this (by decide +kernel)

/-- C02 for tori: a torus with a transform number always raises `IndexError`. -/
theorem C02_torus_fails {K : Type} [Field K] [DecidableEq K] (trs : List (Str × Transform K)) (s : Surface K) (n : Str)
    (t : Transform K) (hw : WellFormed s) (hty : s.type = .torusX ∨ s.type = .torusY ∨ s.type = .torusZ)
    (hn : s.transform = some n) (ht : trs.lookup n = some t) :
    s.applyTransformCard trs = .error .indexError := by
  have hl : s.coeffs.length = 6 := by
    rcases hty with h | h | h <;> simpa [WellFormed, h, arity, eq_comm] using hw
  have hm : s.isMacrobody = false := by
    rcases hty with h | h | h <;> simp [Surface.isMacrobody, h]
  have hg : s.generalise = .ok s := by
    rcases hty with h | h | h <;> simp [Surface.generalise, h, SType.isTorus]
  obtain ⟨a, b, c, d, e, f, hc⟩ := length_six hl
  simp [Surface.applyTransformCard, hn, hm, hg, ht, Surface.applyTransform, hc, transformCoeffs, pyGet, bind,
    Except.bind]

section
variable {K : Type} [Field K] [LinearOrder K] [IsStrictOrderedRing K]

/-- C09: the answer of `diff` on two generalised quadrics. -/
theorem C09_diff (sqrt : K → K) (a b : Surface K) (ha : WellFormed a) (hb : WellFormed b)
    (hta : a.type = .generalQuadratic) (htb : b.type = .generalQuadratic) :
    (a.diff b true).2 = b ∧
    ((a.diff b true).1 = (true, false) ∨ (a.diff b true).1 = (true, true) ∨ (a.diff b true).1 = (false, false)) ∧
    ((a.diff b true).1 = (true, false) →
      ∀ p, side sqrt a.type a.coeffs p = side sqrt b.type b.coeffs p) ∧
    ((a.diff b true).1 = (true, true) →
      ∀ p, side sqrt a.type a.coeffs p = (side sqrt b.type b.coeffs p).map Side.flip) ∧
    ((a.diff b true).1 = (false, false) →
      a.coeffs ≠ b.coeffs ∧ a.coeffs ≠ b.coeffs.map (fun x => -x)) := by
  have hrev : b.reverse.reverse = b := by
    obtain ⟨ty, id, tr, l, bc, bb⟩ := b
    simp [Surface.reverse]
  have hal : a.coeffs.length = 10 := by simpa [WellFormed, hta, arity, eq_comm] using ha
  have hbl : b.coeffs.length = 10 := by simpa [WellFormed, htb, arity, eq_comm] using hb
  have hneg : b.coeffs.map (fun x => -x) = a.coeffs →
      ∀ p, side sqrt a.type a.coeffs p = (side sqrt b.type b.coeffs p).map Side.flip := by
    intro h p
    obtain ⟨x0, x1, x2, x3, x4, x5, x6, x7, x8, x9, hc⟩ := length_ten hbl
    rw [hta, htb, side_gq, side_gq, ← h, hc]
    simp only [List.map_cons, List.map_nil, value, Option.map_some, Option.some.injEq]
    generalize hv : x0 * p.x ^ 2 + x1 * p.y ^ 2 + x2 * p.z ^ 2 + x3 * p.x * p.y + x4 * p.y * p.z + x5 * p.z * p.x +
      x6 * p.x + x7 * p.y + x8 * p.z + x9 = v
    have hv' : -x0 * p.x ^ 2 + -x1 * p.y ^ 2 + -x2 * p.z ^ 2 + -x3 * p.x * p.y + -x4 * p.y * p.z + -x5 * p.z * p.x +
      -x6 * p.x + -x7 * p.y + -x8 * p.z + -x9 = -v := by rw [← hv]; ring
    rw [hv']
    unfold sideOf
    rcases lt_trichotomy v 0 with h | h | h
    · rw [if_pos h, if_neg (by linarith : ¬ -v < 0), if_neg (by linarith : ¬ -v = 0)]; rfl
    · subst h; simp [Side.flip]
    · rw [if_neg (by linarith : ¬ v < 0), if_neg (by linarith : ¬ v = 0), if_pos (by linarith : -v < 0)]; rfl
  unfold Surface.diff
  rw [if_neg (by simp [hta, htb])]
  by_cases h1 : b.coeffs = a.coeffs
  · simp [h1, hta, htb]
  · rw [if_neg h1]
    by_cases h2 : b.coeffs.map (fun x => -x) = a.coeffs
    · have h2' : b.reverse.coeffs = a.coeffs := h2
      simp only [if_true, h2', hrev]
      simpa using hneg h2
    · have h2' : ¬ b.reverse.coeffs = a.coeffs := h2
      simp only [if_true, h2', if_false, hrev]
      simpa using ⟨fun h => h1 h.symm, fun h => h2 h.symm⟩

end

/-- The sphere as a quadric, with all signs changed. -/
def sampleQuadric : Surface ℚ :=
  { sampleSphere with type := .generalQuadratic, coeffs := [-1, -1, -1, 0, 0, 0, 2, 4, 6, -10] }

example : WellFormed sampleQuadric ∧ ∃ g, sampleSphere.generalise = .ok g ∧ WellFormed g ∧
    (g.diff sampleQuadric true).1 = (true, true) := by
  refine ⟨rfl, { sampleSphere with type := .generalQuadratic, coeffs := [1, 1, 1, 0, 0, 0, -2, -4, -6, 10] }, ?_, rfl, ?_⟩
  · decide +kernel
  · decide +kernel

section
variable {K : Type} [Field K] [LinearOrder K] [IsStrictOrderedRing K]

/-- C10: every point on the surface lies within the reported extent along each axis in which the surface is bounded. -/
theorem C10_bounding_box (s : Surface K) (hw : WellFormed s) (hr : RadiusNonneg s) (p : Point K)
    (hon : value s.type s.coeffs p = some 0) :
    ∃ x0 x1 y0 y1 z0 z1, s.boundingBox = .ok [x0, x1, y0, y1, z0, z1] ∧
      ((boundedAxes s.type).1 = true → x0 ≤ p.x ∧ p.x ≤ x1) ∧
      ((boundedAxes s.type).2.1 = true → y0 ≤ p.y ∧ p.y ≤ y1) ∧
      ((boundedAxes s.type).2.2 = true → z0 ≤ p.z ∧ p.z ≤ z1) := by
  obtain ⟨ty, id, tr, l, bc, bb⟩ := s
  simp only [WellFormed] at hw
  simp only at hon
  cases ty <;> simp only [arity, Option.some.injEq] at hw
  case sphereGeneral =>
    obtain ⟨a, b, c, d, rfl⟩ := length_four hw.symm
    simp only [RadiusNonneg] at hr
    simp only [value, Option.some.injEq] at hon
    refine ⟨_, _, _, _, _, _, rfl, fun _ => ?_, fun _ => ?_, fun _ => ?_⟩
    · exact between_of_sq hr (add_nonneg (sq_nonneg (p.y - b)) (sq_nonneg (p.z - c))) (by linarith)
    · exact between_of_sq hr (add_nonneg (sq_nonneg (p.x - a)) (sq_nonneg (p.z - c))) (by linarith)
    · exact between_of_sq hr (add_nonneg (sq_nonneg (p.x - a)) (sq_nonneg (p.y - b))) (by linarith)
  case cylinderX =>
    obtain ⟨a, b, d, rfl⟩ := length_three hw.symm
    simp only [RadiusNonneg] at hr
    simp only [value, Option.some.injEq] at hon
    refine ⟨_, _, _, _, _, _, rfl, by simp [boundedAxes], fun _ => ?_, fun _ => ?_⟩
    · exact between_of_sq hr (sq_nonneg (p.z - b)) (by linarith)
    · exact between_of_sq hr (sq_nonneg (p.y - a)) (by linarith)
  case cylinderY =>
    obtain ⟨a, b, d, rfl⟩ := length_three hw.symm
    simp only [RadiusNonneg] at hr
    simp only [value, Option.some.injEq] at hon
    refine ⟨_, _, _, _, _, _, rfl, fun _ => ?_, by simp [boundedAxes], fun _ => ?_⟩
    · exact between_of_sq hr (sq_nonneg (p.z - b)) (by linarith)
    · exact between_of_sq hr (sq_nonneg (p.x - a)) (by linarith)
  case cylinderZ =>
    obtain ⟨a, b, d, rfl⟩ := length_three hw.symm
    simp only [RadiusNonneg] at hr
    simp only [value, Option.some.injEq] at hon
    refine ⟨_, _, _, _, _, _, rfl, fun _ => ?_, fun _ => ?_, by simp [boundedAxes]⟩
    · exact between_of_sq hr (sq_nonneg (p.y - b)) (by linarith)
    · exact between_of_sq hr (sq_nonneg (p.x - a)) (by linarith)
  case planeX =>
    obtain ⟨a, b, c, d, rfl⟩ := length_four hw.symm
    simp only [value, Option.some.injEq] at hon
    refine ⟨_, _, _, _, _, _, rfl, fun _ => ?_, by simp [boundedAxes], by simp [boundedAxes]⟩
    constructor <;> linarith
  case planeY =>
    obtain ⟨a, b, c, d, rfl⟩ := length_four hw.symm
    simp only [value, Option.some.injEq] at hon
    refine ⟨_, _, _, _, _, _, rfl, by simp [boundedAxes], fun _ => ?_, by simp [boundedAxes]⟩
    constructor <;> linarith
  case planeZ =>
    obtain ⟨a, b, c, d, rfl⟩ := length_four hw.symm
    simp only [value, Option.some.injEq] at hon
    refine ⟨_, _, _, _, _, _, rfl, by simp [boundedAxes], by simp [boundedAxes], fun _ => ?_⟩
    constructor <;> linarith
  all_goals exact ⟨_, _, _, _, _, _, rfl, by simp [boundedAxes], by simp [boundedAxes], by simp [boundedAxes]⟩

omit [IsStrictOrderedRing K] in
/-- C11: the box of the deck contains the origin and the box of every surface, and it is the smallest such box. -/
theorem C11_bounding_coordinates (l : List (Surface K)) (hw : ∀ s ∈ l, WellFormed s) :
    ∃ B, boundingCoordinates l = .ok B ∧ Within B ⟨0, 0, 0⟩ ∧
      (∀ s ∈ l, ∃ b, s.boundingBox = .ok b ∧ BoxLe b B) ∧
      ∀ B', Within B' ⟨0, 0, 0⟩ → (∀ s ∈ l, ∀ b, s.boundingBox = .ok b → BoxLe b B') → BoxLe B B' := by
  obtain ⟨B, hB, hl, hacc, hmem, hleast⟩ := boundGo_spec l hw [0, 0, 0, 0, 0, 0] rfl
  refine ⟨B, hB, ?_, hmem, fun B' h0 h1 => hleast B' ?_ h1⟩
  · obtain ⟨p0, p1, q0, q1, r0, r1, rfl⟩ := length_six hl
    exact hacc
  · match B', h0 with
    | [a0, a1, b0, b1, c0, c1], h => exact h

end

example : WellFormed sampleSphere ∧ RadiusNonneg sampleSphere ∧
    value sampleSphere.type sampleSphere.coeffs ⟨3, 2, 3⟩ = some 0 ∧
    sampleSphere.boundingBox = .ok [-1, 3, 0, 4, 1, 5] ∧
    boundingCoordinates [sampleSphere, { sampleSphere with type := .planeZ, coeffs := [0, 0, 1, -4] }]
      = .ok [-1, 3, 0, 4, -4, 5] := by
  refine ⟨rfl, ?_, ?_, ?_, ?_⟩
  · norm_num [RadiusNonneg, sampleSphere]
  all_goals decide +kernel

end Csg
