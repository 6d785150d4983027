import Verif.Spec.ConvertibleFile

/-!
# Files with the same cards in another order
-/

namespace Csg.Spec

variable {K : Type}

/-- The two files have the same cards, each block in an order of its own. There is no importance card in the data block, because its entries belong to the cells in their order. -/
structure Reordered (f f' : InputFile K) : Prop where
  cells : f.cells.Perm f'.cells
  surfaces : f.surfaces.Perm f'.surfaces
  data : f.data.Perm f'.data
  importances : f.importances = []

variable [Field K]

/-- The cell is filled alike in two written files, unless it is filled with a universe: with nothing in both, or with materials that have the density on the card and the same nuclides with the same fractions. The arguments
say what it means for each file that the cell is void, and that it has a material with this density and composition. -/
def SameFilling (e : CellEntry K) (void void' : Prop) (has has' : K → List (Str × K) → Prop) : Prop :=
  e.fill = none → match e.content with
    | none => void ∧ void'
    | some (_, x) => ∃ comp comp', comp.Perm comp' ∧ has x comp ∧ has' x comp'

end Csg.Spec
