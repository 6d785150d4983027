import Verif.Model.Material

/-!
# Compositions
-/

namespace Csg.Spec

/-- The nuclide identifier of a word such as `92235.70c`: the part before the point. -/
def nuclideOf (w : Str) : Str := w.takeWhile (· ≠ '.')

/-- The words of a list of entries. -/
def entryWords (entries : List (Str × Str)) : List Str := entries.flatMap fun e => [e.1, e.2]

section
variable {K : Type} [Field K]

/-- The sum of the fractions given for a nuclide. -/
def given (nuc : Str) (entries : List (Str × Str)) (fracs : List K) : K :=
  (((entries.zip fracs).filter fun e => nuclideOf e.1.1 = nuc).map fun e => e.2).sum

/-- The total of a composition. -/
def total (comp : List (Str × K)) : K := (comp.map Prod.snd).sum

/-- The atomic number of a nuclide identifier written in decimal. -/
def IsElement (z : Nat) (nuc : Str) : Prop := ∃ a, a < 1000 ∧ nuc = natStr (1000 * z + a)

instance (z : Nat) (nuc : Str) : Decidable (IsElement z nuc) :=
  decidable_of_iff (∃ a ∈ List.range 1000, nuc = natStr (1000 * z + a)) (by simp [IsElement])

/-- The total fraction of the nuclides of an element. -/
def elementTotal (z : Nat) (comp : List (Str × K)) : K := total (comp.filter fun e => IsElement z e.1)

end

/-- The natural nuclides of an element in the table. -/
def natural (z : Nat) : List NuclideData := materialData.filter fun d => d.nucid / 10000000 = z

/-- The keys of a composition are different identifiers of nuclides or elements, written as decimal numbers. -/
def Canonical {K : Type} (comp : List (Str × K)) : Prop := (comp.map Prod.fst).Nodup ∧ ∀ e ∈ comp, ∃ n : Nat, e.1 = natStr n

/-- Natural nuclides of an element that is listed itself are not listed. -/
def NoOverlap {K : Type} (comp : List (Str × K)) : Prop :=
  ∀ z, natStr (1000 * z) ∈ comp.map Prod.fst → ∀ d ∈ natural z, natStr (d.nucid / 10000) ∉ comp.map Prod.fst

end Csg.Spec
