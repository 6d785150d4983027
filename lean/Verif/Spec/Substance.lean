import Verif.Spec.Material

/-!
# What a material consists of
-/

namespace Csg.Spec

section
variable {K : Type} [Field K]

/-- The nuclides for one entry of a material card: for an element, whose number ends with three zeros, its natural nuclides with their shares of the atoms, and else the nuclide itself. -/
def NuclidesOf (e : Str × K) (l : List (Str × K)) : Prop :=
  (∃ z, e.1 = natStr (1000 * z) ∧ l = (natural z).map fun d => (natStr (d.nucid / 10000), e.2 * ((d.abundance : K) / 100))) ∨
    (∀ z, e.1 ≠ natStr (1000 * z)) ∧ l = [e]

/-- The second composition has the nuclides of the first one, in some order, and fractions with the same ratios and the sum 1. -/
def SameSubstance (comp comp' : List (Str × K)) : Prop :=
  (∃ parts, List.Forall₂ NuclidesOf comp parts ∧ comp'.Perm (parts.flatten.map fun e => (e.1, e.2 / total comp))) ∧ total comp' = 1

/-- A material card with fractions of atoms: nuclides and elements are different from each other, no nuclide is listed besides its element, and elements are in the table. -/
structure AtomFractions [LinearOrder K] (comp : List (Str × K)) : Prop where
  canonical : Canonical comp
  apart : NoOverlap comp
  positive : ∀ e ∈ comp, 0 ≤ e.2
  total : 0 < total comp
  known : ∀ z, natStr (1000 * z) ∈ comp.map Prod.fst → natural z ≠ []

end

end Csg.Spec
