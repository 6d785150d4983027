import Mathlib.Data.List.Dedup
import Verif.Model.CellWriters

/-!
# Removal of unused universes (OpenMCInput.py)
-/

namespace Csg

/-- The universe and the fill of a cell element (OpenMCInput.py 66-71). -/
def elemNumbers (e : OpenMCCellElem) : Py (Int × Option Int) := do
  let u ← pyInt e.uni
  match e.filled with
  | none => .ok (u, none)
  | some (f, _) => do
    let f ← pyInt f
    .ok (u, some f)

/-- `__get_unused_fills` (OpenMCInput.py 61-81). No lattice is ever written, so the loop over lattices does nothing. -/
def unusedFills (es : List OpenMCCellElem) : Py (List Int) := do
  let ps ← es.mapM elemNumbers
  .ok ((ps.map Prod.fst).dedup.filter fun u => u ∉ ps.filterMap Prod.snd)

/-- `__check_unused_universes` (OpenMCInput.py 84-101); `none` if it has not ended within `fuel` rounds. -/
def checkUnusedUniverses (fuel : Nat) (es : List OpenMCCellElem) : Option (Py (List OpenMCCellElem)) :=
  match unusedFills es with
  | .error x => some (.error x)
  | .ok unused =>
    if 1 < unused.length then
      match fuel with
      | 0 => none
      | fuel + 1 => checkUnusedUniverses fuel (es.filter fun e => !unused.any fun u => decide (u ≠ 0) && decide (pyInt e.uni = .ok u))
    else some (.ok es)

end Csg
