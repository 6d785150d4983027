import Verif.Model.Material
import Mathlib.Tactic.Ring

/-!
# C46: the number of a nuclide
-/

namespace Csg

/-- C46: the number of a nuclide is split into its atomic number and its nucleon number. -/
theorem C46_numbers (z a : Nat) (h : a < 1000) : getZZ ((1000 * z + a : Nat) : Int) = z ∧ getAA ((1000 * z + a : Nat) : Int) = a := by
  unfold getZZ getAA
  omega

/-- The number of uranium 235. -/
example : getZZ 92235 = 92 ∧ getAA 92235 = 235 := by decide

/-- C46: a nuclide has an abundance if and only if it is in the table; for others a `KeyError` is raised. -/
theorem C46_abundance (n : Int) :
    (∀ x, abundance n = .ok x → ∃ d ∈ materialData, (d.nucid : Int) = n * 10000 ∧ d.abundance = x) ∧ ((∀ d ∈ materialData, (d.nucid : Int) ≠ n * 10000) → abundance n = .error .keyError) := by
  unfold abundance
  constructor
  · intro x h
    split at h
    · rename_i d hd
      cases h
      exact ⟨d, List.mem_of_find?_eq_some hd, by simpa using List.find?_some hd, rfl⟩
    · cases h
  · intro h
    have : (materialData.find? fun d => (d.nucid : Int) = n * 10000) = none := by
      rw [List.find?_eq_none]
      intro d hd
      simpa using h d hd
    rw [this]

/-- Carbon 14 is not in the table. -/
example : abundance 6014 = .error .keyError := by decide +kernel

end Csg
