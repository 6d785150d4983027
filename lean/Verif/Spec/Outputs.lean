import Verif.Model.Outputs

/-!
# Which outputs are asked for
-/

namespace Csg.Spec

/-- The word that stands for a code on the command line. -/
def codeName : Code → Str
  | .mcnp => c!"mcnp"
  | .serpent => c!"serpent"
  | .openmc => c!"openmc"
  | .phits => c!"phits"
  | .fluka => c!"fluka"
  | .scone => c!"scone"

/-- All codes in their fixed order. -/
def allCodes : List Code := [.mcnp, .serpent, .openmc, .phits, .fluka, .scone]

/-- The codes that are asked for, in the fixed order: all of them without `-o` or with the word `all`, otherwise those whose names are listed. -/
def wanted : Option (List Str) → List Code
  | none => allCodes
  | some ws => if c!"all" ∈ ws then allCodes else allCodes.filter fun c => codeName c ∈ ws

/-- Evaluation of a writer: what it returns if it ends without an exception within the rounds given. -/
def Returns {α : Type} (w : W α) (a : α) : Prop := w.run = .ok (some a)

end Csg.Spec
