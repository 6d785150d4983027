import Verif.Spec.Macrobody

/-!
# Duplicate surfaces
-/

namespace Csg.Spec

section
variable {K : Type} [Field K]

/-- The defining polynomials of two surfaces agree everywhere, or are opposite everywhere. -/
def SameEquation (s t : Surface K) : Prop :=
  (∀ p, value s.type s.coeffs p = value t.type t.coeffs p) ∨ ∀ p, value s.type s.coeffs p = (value t.type t.coeffs p).map fun v => -v

/-- A torus card with positive major radius. -/
def ProperTorus [LT K] (s : Surface K) : Prop := s.type.isTorus = true ∧ ∃ x y z a b c, s.coeffs = [x, y, z, a, b, c] ∧ 0 < a

/-- Surfaces for which comparing equations is right: quadrics and proper tori, where a cone that has the equation of another surface is no
one-sheet cone. -/
structure Mergeable [LT K] (surfs : List (Surface K)) : Prop where
  shape : ∀ s ∈ surfs, WellFormed s ∧ (IsQuadric s.type ∨ ProperTorus s)
  sheets : ∀ s ∈ surfs, ∀ t ∈ surfs, s ≠ t → SameEquation s t → TwoSheet s

end

/-- The surface numbers in a description, with sign. -/
def numbers (is : List Item) : List Int := (words is).filterMap parseInt

/-- Every word of the description is a parenthesis or a number. -/
def OnlyNumbers (is : List Item) : Prop := ∀ w ∈ words is, w = c!"(" ∨ w = c!")" ∨ ∃ z, parseInt w = some z

end Csg.Spec
