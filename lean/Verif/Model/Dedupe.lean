import Verif.Model.Cell
import Verif.Model.Surface

/-!
# Removal of duplicate surfaces (MCNPInput.py 1195-1299)
-/

namespace Csg

/-- `d[k] = v` on a dictionary, as list of entries in the order of insertion. -/
def dictSet {κ ν : Type} [DecidableEq κ] (d : List (κ × ν)) (k : κ) (v : ν) : List (κ × ν) :=
  match d with
  | [] => [(k, v)]
  | (k', v') :: d => if k' = k then (k, v) :: d else (k', v') :: dictSet d k v

section
variable {K : Type} [Field K] [DecidableEq K]

/-- The places of the surfaces of a type, as in `surf_by_type` (MCNPInput.py 1217-1223). -/
def placesOf (gs : List (Surface K)) (t : SType) : List Nat :=
  (gs.zipIdx.filter fun x => x.1.type = t).map Prod.snd

/-- The keys of `surf_by_type`, in the order of insertion. -/
def typesOf (gs : List (Surface K)) : List SType := (gs.map Surface.type).eraseDups

/-- Comparison of the generalised surface at place `j` with that at place `i` (line 1236): place of the earlier, place of the later, sense reversed. -/
def comparePlaces (gs : List (Surface K)) (j i : Nat) : Option (Nat × Nat × Bool) :=
  match gs[j]?, gs[i]? with
  | some a, some b => if (a.diff b true).1.1 then some (i, j, (a.diff b true).1.2) else none
  | _, _ => none

/-- All assignments to `duplicates` and `senses` in the order of lines 1226-1243: for each type, for each surface `j` of the type, for each surface `i` of
the type before `j`. -/
def duplicateEntries (gs : List (Surface K)) : List (Nat × Nat × Bool) :=
  (typesOf gs).flatMap fun t =>
    (placesOf gs t).flatMap fun j => ((placesOf gs t).takeWhile (· ≠ j)).filterMap (comparePlaces gs j)

/-- The dictionaries `duplicates` and `senses` (lines 1198-1199, 1226-1243), which have the same keys. Surfaces are dictionary keys by
identity, for which the place in the list stands here. -/
def duplicates (gs : List (Surface K)) : List (Nat × Nat × Bool) :=
  (duplicateEntries gs).foldl (fun d e => dictSet d e.1 e.2) []

/-- The renamings of lines 1286-1293: number of the surface that stays, number of the one that goes, sense reversed. -/
def renamings (surfs : List (Surface K)) : List (Nat × Nat × Bool) → Py (List (Int × Int × Bool))
  | [] => .ok []
  | (i, j, r) :: d => do
    let s ← pyGet surfs i
    let t ← pyGet surfs j
    let rest ← renamings surfs d
    .ok ((t.id, s.id, r) :: rest)

/-- The loop of lines 1286-1293 on one cell. -/
def renameAll : List (Int × Int × Bool) → List Item → Py (List Item)
  | [], is => .ok is
  | (ref, new, r) :: d, is => do
    let is ← replaceSurface ref new r is
    renameAll d is

/-- `__remove_duplicate_surfaces` (MCNPInput.py 1195-1299): the new cells and surfaces. Lines 1296-1297 remove by identity. -/
def dedupe (cells : List (Cell K)) (surfs : List (Surface K)) : Py (List (Cell K) × List (Surface K)) := do
  let gs ← surfs.mapM Surface.generalise
  let d := duplicates gs
  let rs ← renamings surfs d
  let cells ← cells.mapM fun c => do
    let is ← renameAll rs c.interpreted
    .ok { c with interpreted := is }
  .ok (cells, (surfs.zipIdx.filter fun x => x.2 ∉ d.map Prod.fst).map Prod.fst)

end

end Csg
