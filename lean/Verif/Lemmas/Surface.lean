import Verif.Spec.Geometry
import Mathlib.Tactic.Ring
import Mathlib.Tactic.Linarith

namespace Csg

open Spec

section
variable {α : Type}

theorem length_three {l : List α} (h : l.length = 3) : ∃ a b c, l = [a, b, c] := by
  match l, h with
  | [a, b, c], _ => exact ⟨a, b, c, rfl⟩

theorem length_four {l : List α} (h : l.length = 4) : ∃ a b c d, l = [a, b, c, d] := by
  match l, h with
  | [a, b, c, d], _ => exact ⟨a, b, c, d, rfl⟩

theorem length_five {l : List α} (h : l.length = 5) : ∃ a b c d e, l = [a, b, c, d, e] := by
  match l, h with
  | [a, b, c, d, e], _ => exact ⟨a, b, c, d, e, rfl⟩

theorem length_six {l : List α} (h : l.length = 6) : ∃ a b c d e f, l = [a, b, c, d, e, f] := by
  match l, h with
  | [a, b, c, d, e, f], _ => exact ⟨a, b, c, d, e, f, rfl⟩

theorem length_seven {l : List α} (h : l.length = 7) : ∃ a b c d e f g, l = [a, b, c, d, e, f, g] := by
  match l, h with
  | [a, b, c, d, e, f, g], _ => exact ⟨a, b, c, d, e, f, g, rfl⟩

theorem length_ten {l : List α} (h : l.length = 10) :
    ∃ a b c d e f g h' j k, l = [a, b, c, d, e, f, g, h', j, k] := by
  match l, h with
  | [a, b, c, d, e, f, g, h', j, k], _ => exact ⟨a, b, c, d, e, f, g, h', j, k, rfl⟩

theorem length_twelve {l : List α} (h : l.length = 12) :
    ∃ a b c d e f g h' j k m n, l = [a, b, c, d, e, f, g, h', j, k, m, n] := by
  match l, h with
  | [a, b, c, d, e, f, g, h', j, k, m, n], _ => exact ⟨a, b, c, d, e, f, g, h', j, k, m, n, rfl⟩

end

section
variable {K : Type} [Field K]

/-- `gqCoeffs` succeeds on well-formed quadrics and the resulting polynomial is the surface's polynomial. -/
theorem gqCoeffs_value (s : Surface K) (hw : WellFormed s) (hq : IsQuadric s.type) :
    ∃ cs, gqCoeffs s.type s.coeffs = .ok cs ∧ cs.length = 10 ∧
      ∀ p, value .generalQuadratic cs p = value s.type s.coeffs p := by
  obtain ⟨ty, id, tr, l, bc, bb⟩ := s
  simp only [WellFormed] at hw
  cases ty <;> simp only [IsQuadric] at hq <;> simp only [arity, Option.some.injEq] at hw
  all_goals first
    | (obtain ⟨a, b, c, d, rfl⟩ := length_four hw.symm
       refine ⟨_, rfl, rfl, fun p => ?_⟩; simp only [value, Option.some.injEq]; ring)
    | (obtain ⟨a, b, c, rfl⟩ := length_three hw.symm
       refine ⟨_, rfl, rfl, fun p => ?_⟩; simp only [value, Option.some.injEq]; ring)
    | (obtain ⟨a, b, c, d, e, rfl⟩ := length_five hw.symm
       refine ⟨_, rfl, rfl, fun p => ?_⟩; simp only [value, Option.some.injEq]; ring)
    | (obtain ⟨a, b, c, d, e, f, g, h', j, k, rfl⟩ := length_ten hw.symm
       exact ⟨_, rfl, rfl, fun p => rfl⟩)

/-- Every well-formed quadric has a value at every point. -/
theorem value_isSome (s : Surface K) (hw : WellFormed s) (hq : IsQuadric s.type) (p : Point K) :
    (value s.type s.coeffs p).isSome = true := by
  obtain ⟨cs, _, hl, hv⟩ := gqCoeffs_value s hw hq
  rw [← hv]
  obtain ⟨a, b, c, d, e, f, g, h', j, k, rfl⟩ := length_ten hl
  rfl

theorem isTorus_of_isQuadric {ty : SType} (hq : IsQuadric ty) : ty.isTorus = false := by
  cases ty <;> simp_all [IsQuadric, SType.isTorus]

variable [LinearOrder K]

omit [LinearOrder K] in
theorem torusValue_none {ty : SType} (hq : IsQuadric ty) (sqrt : K → K) (cs : List K) (p : Point K) :
    torusValue sqrt ty cs p = none := by
  cases ty <;> simp_all [IsQuadric, torusValue]

/-- For quadrics that are not one-sheet cones the side is the sign of the value. -/
theorem side_eq_sideOf (sqrt : K → K) (s : Surface K) (hw : WellFormed s) (hq : IsQuadric s.type)
    (h2 : TwoSheet s) (p : Point K) :
    side sqrt s.type s.coeffs p = (value s.type s.coeffs p).map sideOf := by
  obtain ⟨v, hv⟩ := Option.isSome_iff_exists.1 (value_isSome s hw hq p)
  simp only [side, torusValue_none hq, hv, Option.map_some]
  obtain ⟨ty, id, tr, l, bc, bb⟩ := s
  simp only [WellFormed] at hw
  cases ty <;> simp only [IsQuadric] at hq <;> simp only [arity, Option.some.injEq] at hw
  all_goals first
    | (obtain ⟨a, b, c, d, e, rfl⟩ := length_five hw.symm
       simp only [TwoSheet] at h2
       simp [sheet, h2])
    | simp [sheet]

theorem side_gq (sqrt : K → K) (cs : List K) (p : Point K) :
    side sqrt .generalQuadratic cs p = (value .generalQuadratic cs p).map sideOf := by
  simp only [side, torusValue, sheet]
  cases value .generalQuadratic cs p <;> simp

end

end Csg
