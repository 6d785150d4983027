import Verif.Model.Bounding
import Verif.Model.DataCards
import Verif.Model.Macrobody
import Verif.Model.Nots

/-!
# Reading and processing a whole MCNP file (MCNPInput.py 1303-1371)
-/

namespace Csg

/-- `x.lower()` in `read` (Input.py 56). Simplification: only the letters A to Z. -/
def lower (s : Str) : Str := s.map Char.toLower

/-- `f.readlines()` in `read` (Input.py 51-52): the lines with the newlines at their ends. Simplification: only the line feed ends a line, and no character is replaced. -/
def readlines : Str → List Str
  | [] => []
  | c :: s =>
    if c = '\n' then [c] :: readlines s
    else
      match readlines s with
      | [] => [[c]]
      | l :: ls => (c :: l) :: ls

/-- `read` (Input.py 50-58) on the text of the file. -/
def readText (text : Str) : List Str := (readlines text).map lower

/-- The fields of an input deck that `process` sets (Input.py 14-39). -/
structure Deck (K : Type) where
  title : Str
  cells : List (Cell K)
  surfaces : List (Surface K)
  last : Int
  importances : List (Particle × Str)
  transforms : List (Str × Transform K)
  materials : List (Str × Material K)
  bounding : List K

section
variable {K : Type} [Field K] [LinearOrder K]

/-- The first half of `process` (MCNPInput.py 1305-1342), from the lines that `read` leaves. The weight windows (1339) are not modelled: their method does nothing. `last` is
`last_free_surface_index` (1184-1185), which starts at 0. -/
def readDeck (io : NumIO K) (cosDeg : K → K) (lines : List Str) : Py (Deck K) := do
  let (title, lines) ← setTitle lines
  let lines ← dropComments lines
  let (cells, lines) ← block removeInlineComment (readCell io cosDeg) lines
  let (surfs, lines) ← block stripDollar (classify io) lines
  let imps ← getImportances lines
  let trs ← getTransformCards io cosDeg [] lines
  let mats ← getMaterialCards io [] lines
  .ok { title := title, cells := cells, surfaces := surfs, last := surfs.foldl (fun m s => if m < s.id then s.id else m) 0, importances := imps, transforms := trs,
        materials := mats, bounding := [0, 0, 0, 0, 0, 0] }

/-- `__apply_surface_transformations` (MCNPInput.py 281-291). The message about a missing transform is left out. -/
def applySurfaceTransformations (trs : List (Str × Transform K)) (surfs : List (Surface K)) : Py (List (Surface K)) :=
  surfs.mapM (Surface.applyTransformCard trs)

/-- One surface in `__update_surfaces` (MCNPInput.py 1060-1078): cones get the limits of the problem along their axis. -/
def updateSurface (box : List K) (s : Surface K) : Py (Surface K) :=
  let put (i : Nat) : Py (Surface K) := do
    let lo ← pyGet box i
    let hi ← pyGet box (i + 1)
    .ok { s with bbox := (s.bbox.set i lo).set (i + 1) hi }
  match s.type with
  | .coneX => put 0
  | .coneY => put 2
  | .coneZ => put 4
  | _ => .ok s

/-- The second half of `process` (MCNPInput.py 1343-1371). `none` if `__explode_nots` does not end within the given number of rounds. `split_unions` (Input.py 86-92)
does nothing. -/
def finishDeck (fuel : Nat) (io : NumIO K) (cosDeg sqrt : K → K) (quick : Bool) (d : Deck K) : Option (Py (Deck K)) :=
  match flatten io cosDeg sqrt d.cells d.surfaces d.last with
  | .error e => some (.error e)
  | .ok (cells, surfs, last) =>
    match explodeNots fuel cells with
    | none => none
    | some (.error e) => some (.error e)
    | some (.ok cells) => some (do
      let surfs ← applySurfaceTransformations d.transforms surfs
      let cells ← applyUniverseTransformations d.transforms cells
      let (mats, cells) ← reorganiseMaterials io d.materials cells
      let (cells, surfs) ← applyBoundaryConditions io d.importances cells surfs
      let box ← boundingCoordinates surfs
      let surfs ← surfs.mapM (updateSurface box)
      let (cells, surfs) ← (if quick then .ok (cells, surfs) else dedupe cells surfs : Py (List (Cell K) × List (Surface K)))
      .ok { d with cells := cells, surfaces := surfs, last := last, materials := mats, bounding := box })

/-- `process` (MCNPInput.py 1303-1371). -/
def processDeck (fuel : Nat) (io : NumIO K) (cosDeg sqrt : K → K) (quick : Bool) (lines : List Str) : Option (Py (Deck K)) :=
  match readDeck io cosDeg lines with
  | .error e => some (.error e)
  | .ok d => finishDeck fuel io cosDeg sqrt quick d

end

end Csg
