import Verif.Model.Blocks
import Verif.Model.Material
import Verif.Model.Transform

/-!
# The data block: material and transform cards (MCNPInput.py)
-/

namespace Csg

/-- The text before a `$` (lines 175-177 and 193-195). -/
def cutDollar (s : Str) : Str := if s.elem '$' then sliceTo s (findChar '$' s) else s

/-- `re.match(" *m[0-9]/*", line)` (MCNPInput.py 242): blanks, the letter m, a digit. -/
def isMaterialLine (l : Str) : Bool :=
  match l.dropWhile (· = ' ') with
  | 'm' :: d :: _ => isDigit d
  | _ => false

/-- `re.match("^\*?tr", line)` (MCNPInput.py 257). -/
def isTransformLine (l : Str) : Bool :=
  match l with
  | '*' :: 't' :: 'r' :: _ => true
  | 't' :: 'r' :: _ => true
  | _ => false

section
variable {K : Type} [Field K]

/-- `__get_material_card` (MCNPInput.py 165-214) on the line of the card and the lines after it: number and material. -/
def getMaterialCard (io : NumIO K) (l : Str) (rest : List Str) : Py (Str × Material K) := do
  let tokens := split l
  let t0 ← pyGet tokens 0
  let number := replaceChar 'm' [] t0
  let text := cutDollar (join c!" " (tokens.drop 1) ++ c!" ") ++ ((rest.takeWhile continues).map cutDollar).flatten
  let m ← readMaterial io number text
  .ok (number, m)

/-- `__get_material_cards` (MCNPInput.py 217-247). -/
def getMaterialCards (io : NumIO K) (mats : List (Str × Material K)) : List Str → Py (List (Str × Material K))
  | [] => .ok mats
  | l :: ls =>
    if isMaterialLine l then do
      let (number, m) ← getMaterialCard io l ls
      getMaterialCards io (dictSet mats number m) ls
    else getMaterialCards io mats ls

/-- The second definition of `__get_transform_cards` (MCNPInput.py 250-270), which replaces the first. The lines that continue a card begin with blanks, so
passing over them one by one makes no difference. A card at the end of the file is an `IndexError`. -/
def getTransformCards (io : NumIO K) (cosDeg : K → K) (trs : List (Str × Transform K)) : List Str → Py (List (Str × Transform K))
  | [] => .ok trs
  | l :: ls =>
    if isTransformLine l then
      if ls.all continues then .error .indexError
      else do
        let (n, t) ← parseTransform io cosDeg (l ++ (ls.takeWhile continues).flatten)
        getTransformCards io cosDeg (dictSet trs n t) ls
    else getTransformCards io cosDeg trs ls

/-- `apply_universe_transform` (MCNPCellCard.py 370-374). -/
def Cell.applyUniverseTransform (c : Cell K) (t : Transform K) : Cell K :=
  { c with
    offset := some [.num t.shift.x, .num t.shift.y, .num t.shift.z]
    rotation := some [.num t.v1.x, .num t.v1.y, .num t.v1.z, .num t.v2.x, .num t.v2.y, .num t.v2.z, .num t.v3.x, .num t.v3.y, .num t.v3.z]
    trId := c!"0" }

/-- `__apply_universe_transformations` (MCNPInput.py 294-303). -/
def applyUniverseTransformations (trs : List (Str × Transform K)) (cells : List (Cell K)) : Py (List (Cell K)) :=
  cells.mapM fun c =>
    if c.trId ≠ c!"0" then
      match trs.lookup c.trId with
      | some t => .ok (c.applyUniverseTransform t)
      | none => .error .keyError
    else .ok c

end

end Csg
