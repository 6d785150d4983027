import Verif.Spec.InputFile

/-!
# Surface cards that say the same
-/

namespace Csg.Spec

/-- The lines say the same: with the same surface number, TR number if there is one, and mnemonic, and with words for the same numbers, on any lines and with any comments. -/
def SameSurfaceCard {K : Type} [Field K] (io : NumIO K) (g g' : List Str) : Prop :=
  ∃ number tr mnemonic ws ws' values, split (cardText g) = number :: (tr ++ mnemonic :: ws) ∧ split (cardText g') = number :: (tr ++ mnemonic :: ws') ∧
    (tr = [] ∧ io.parse mnemonic = none ∨ ∃ t, tr = [t] ∧ (io.parse t).isSome = true) ∧
    List.Forall₂ (fun w v => io.float w = .ok v) ws values ∧ List.Forall₂ (fun w v => io.float w = .ok v) ws' values

end Csg.Spec
