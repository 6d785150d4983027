import Verif.Model.Py
import Mathlib.Data.List.Forall2

/-!
# Texts that agree up to upper and lower case
-/

namespace Csg.Spec

/-- The two letters are the same, or one is the lower case of the other. -/
def SameLetter (a b : Char) : Prop := a = b ∨ ('A' ≤ a ∧ a ≤ 'Z' ∧ b.toNat = a.toNat + 32) ∨ ('A' ≤ b ∧ b ≤ 'Z' ∧ a.toNat = b.toNat + 32)

/-- The texts agree up to upper and lower case. -/
def SameUpToCase : Str → Str → Prop := List.Forall₂ SameLetter

end Csg.Spec
