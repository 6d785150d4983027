import Verif.Model.Cell
import Verif.Model.Formatter

/-!
# Writing cells

`MCNPCellCard.py`, `SerpentCellCard.py`, `OpenMCCell.py`, `SCONECellCard.py`, `FLUKACellCard.py`: the cell writers. What is written to the file is returned as text.
`write_mcnp_cell` without importances is the PHITS writer (PhitsInput.py 30-34).
-/

namespace Csg

/-- `re.sub(" +", " ", s)`. -/
def squeeze : Str → Str
  | [] => []
  | c :: s => if c = ' ' ∧ s.head? = some ' ' then squeeze s else c :: squeeze s

/-- `mcnp_op_from_generic` (MCNPCellCard.py 44-64). -/
def mcnpItem : Item → Str
  | .op .not => c!" #"
  | .op .and => c!"  "
  | .op .union => c!" : "
  | .str s => if s = c!"(" ∨ s = c!")" then ' ' :: (s ++ c!" ") else s

/-- `serpent_op_from_generic` (SerpentCellCard.py 11-31). -/
def serpentItem : Item → Str
  | .op .not => c!" #"
  | .op .and => c!" "
  | .op .union => c!":"
  | .str s => if s = c!"(" ∨ s = c!")" then ' ' :: (s ++ c!" ") else s

/-- `openmc_op_from_generic` (OpenMCCell.py 63-78). -/
def openmcItem : Item → Str
  | .op .not => c!" ~ "
  | .op .and => c!" "
  | .op .union => c!" | "
  | .str s => s

/-- `scone_op_from_generic` (SCONECellCard.py 11-31). -/
def sconeItem : Item → Str
  | .op .not => c!" # "
  | .op .and => c!" "
  | .op .union => c!" : "
  | .str s => if s = c!"(" then c!" < " else if s = c!")" then c!" > " else s

/-- `fluka_op_from_generic` (FLUKACellCard.py 8-31). -/
def flukaItem : Item → Py Str
  | .op .not => .ok c!" -"
  | .op .and => .ok c!"  "
  | .op .union => .ok c!" | "
  | .str s =>
    if s = c!"(" then .ok c!" +( "
    else if s = c!")" then .ok c!" ) "
    else do
      let z ← pyInt s
      if z < 0 then .ok (c!" +S" ++ natStr z.natAbs)
      else if 0 < z then .ok (c!" -S" ++ intStr z)
      else .ok s

section
variable {K : Type} [Field K]

/-- `str` of an entry of the offset or the rotation. -/
def Entry.text (io : NumIO K) : Entry K → Str
  | .txt s => s
  | .num x => io.render x

/-- `float` of an entry. -/
def Entry.float (io : NumIO K) : Entry K → Py K
  | .txt s => io.float s
  | .num x => .ok x

/-- The three offsets, each followed by a blank (MCNPCellCard.py 97-98, SerpentCellCard.py 74-75, OpenMCCell.py 127-129). -/
def offsetText (io : NumIO K) (l : List (Entry K)) : Py Str := do
  let ws ← (List.range 3).mapM fun i => (do let e ← pyGet l i; .ok (e.text io ++ c!" ") : Py Str)
  .ok ws.flatten

/-- The nine entries of the rotation as floats, each followed by a blank (MCNPCellCard.py 103-106, SerpentCellCard.py 80-84). -/
def rotationText (io : NumIO K) (l : List (Entry K)) : Py Str := do
  let ws ← (List.range 9).mapM fun i => (do let e ← pyGet l i; let x ← e.float io; .ok (io.render x ++ c!" ") : Py Str)
  .ok ws.flatten

/-- The fill of a cell (MCNPCellCard.py 91-107). -/
def mcnpFillText (io : NumIO K) (c : Cell K) : Py Str :=
  match c.fill with
  | none => .ok []
  | some f =>
    match c.offset, c.rotation with
    | none, none => .ok (c!" fill=" ++ f ++ c!" ")
    | o, r => do
      let ot ← (match o with | some l => offsetText io l | none => .ok c!" 0 0 0 " : Py Str)
      let rt ← (match r with | some l => rotationText io l | none => .ok [] : Py Str)
      .ok (c!" fill=" ++ f ++ c!" " ++ c!"(" ++ ot ++ rt ++ c!")")

/-- The text of `write_mcnp_cell` before it is wrapped (MCNPCellCard.py 69-112). The importance is printed like a float; Python prints the initial value 1, which is an `int`, without
a decimal point. -/
def mcnpCellText (io : NumIO K) (c : Cell K) (printImportances : Bool) : Py Str := do
  let header := intStr c.id ++ c!" " ++ (c.material.text ++ c!" ") ++
    (if c.material = .int 0 then [] else io.render c.density ++ c!" ")
  let s := strip (squeeze (header ++ c.interpreted.flatMap mcnpItem ++ c!"\n"))
  let u := match c.uni with
    | none => []
    | some u => c!" u=" ++ u
  let f ← mcnpFillText io c
  .ok (s ++ u ++ f ++ (if printImportances then c!" IMP:N=" ++ io.render c.importance else []) ++ c!"\n")

/-- `write_mcnp_cell` (MCNPCellCard.py 68-115); `none` if the line formatter has not ended within `fuel` rounds. -/
def writeMcnpCell (fuel : Nat) (io : NumIO K) (c : Cell K) (printImportances : Bool) : Py (Option Str) := do
  let s ← mcnpCellText io c printImportances
  .ok (lineFormatter fuel s)

/-- `str` of a universe or fill, where `none` is the integer 0. -/
def optText (o : Option Str) : Str := o.getD c!"0"

/-- The content of a cell (SerpentCellCard.py 45-53). -/
def serpentFillText (c : Cell K) : Str :=
  match c.fill with
  | some f => c!" fill " ++ f ++ c!" "
  | none => if c.material = .int 0 then c!"void " else c.material.text ++ c!" "

/-- The cell card of `write_serpent_cell` before it is wrapped (SerpentCellCard.py 38-62). -/
def serpentCellText (c : Cell K) : Str :=
  squeeze (c!"cell " ++ intStr c.id ++ c!" " ++ optText c.uni ++ c!" " ++
    serpentFillText c ++ c!"( " ++ c.interpreted.flatMap serpentItem ++ c!" ) " ++ c!"\n")

/-- The transform card of `write_serpent_cell` (SerpentCellCard.py 67-90). -/
def serpentTransText (io : NumIO K) (c : Cell K) : Py Str :=
  match c.fill with
  | none => .ok []
  | some _ =>
    match c.offset, c.rotation with
    | none, none => .ok []
    | o, r => do
      let ot ← (match o with | some l => offsetText io l | none => .ok c!" 0 0 0 " : Py Str)
      let rt ← (match r with | some l => rotationText io l | none => .ok c!"1 0 0 0 1 0 0 0 1 " : Py Str)
      .ok (c!"trans f " ++ intStr c.id ++ c!" " ++ ot ++ rt ++ c!"1 \n")

/-- `write_serpent_cell` (SerpentCellCard.py 35-90): the wrapped cell card and the transform card. -/
def writeSerpentCell (fuel : Nat) (io : NumIO K) (c : Cell K) : Py (Option (Str × Str)) := do
  let t ← serpentTransText io c
  .ok ((lineFormatter fuel (serpentCellText c)).map fun s => (s, t))

/-- The attributes of a cell element for OpenMC. -/
structure OpenMCCellElem where
  id : Str
  material : Option Str
  region : Str
  uni : Str
  /-- fill, rotation, translation -/
  filled : Option (Str × Str × Str)
  deriving DecidableEq, Repr

/-- The region attribute (OpenMCCell.py 91-94). -/
def openmcRegion (is : List Item) : Str := replaceChar ')' c!" ) " (replaceChar '(' c!" ( " (is.flatMap openmcItem))

/-- The rotation attribute (OpenMCCell.py 98-121): nine entries separated by blanks. -/
def openmcRotation (io : NumIO K) : Option (List (Entry K)) → Py Str
  | none => .ok c!"0 0 0"
  | some l => do
    let ws ← (List.range 9).mapM fun i => (do let e ← pyGet l i; .ok (e.text io) : Py Str)
    .ok (join c!" " ws)

/-- `get_openmc_cell_info` and `write_openmc_cell` (OpenMCCell.py 83-167). The rotation and the translation are computed for all cells. -/
def writeOpenmcCell (io : NumIO K) (c : Cell K) : Py OpenMCCellElem := do
  let r ← openmcRotation io c.rotation
  let t ← (match c.offset with | some l => offsetText io l | none => .ok c!"0 0 0" : Py Str)
  let m := if c.material.text = c!"0" then c!"void" else c.material.text
  .ok (match c.fill with
    | some f => { id := intStr c.id, material := none, region := openmcRegion c.interpreted, uni := optText c.uni, filled := some (f, r, t) }
    | none => { id := intStr c.id, material := some m, region := openmcRegion c.interpreted, uni := optText c.uni, filled := none })

/-- The content of a cell (SCONECellCard.py 50-60). -/
def sconeFillText (c : Cell K) : Py Str :=
  match c.fill with
  | some f => do
    let z ← pyInt f
    .ok (c!" filltype uni; universe " ++ intStr (z + 1) ++ c!"; ")
  | none => .ok (c!" filltype mat; material " ++ (if c.material = .int 0 then c!" void; " else c!"m" ++ c.material.text ++ c!"; "))

/-- The text of `write_scone_cell` before it is wrapped (SCONECellCard.py 45-74). -/
def sconeCellText (c : Cell K) : Py Str := do
  let content ← sconeFillText c
  .ok (squeeze (intStr c.id ++ c!" { type unionCell; id " ++ intStr c.id ++ c!"; " ++ content ++ c!"surfaces [ " ++
    c.interpreted.flatMap sconeItem ++ c!" ]; }\n"))

/-- `write_scone_cell` (SCONECellCard.py 34-78). -/
def writeSconeCell (fuel : Nat) (c : Cell K) : Py (Option Str) := do
  let s ← sconeCellText c
  .ok (lineFormatter fuel s)

/-- `re.sub("\- \+", " -", s)`. -/
def flukaSigns : Str → Str
  | '-' :: ' ' :: '+' :: s => ' ' :: '-' :: flukaSigns s
  | c :: s => c :: flukaSigns s
  | [] => []

/-- `write_fluka_cell` (FLUKACellCard.py 35-53). `re.sub("  ", " ", s)` halves runs of blanks. -/
def writeFlukaCell (c : Cell K) : Py Str := do
  let ws ← c.interpreted.mapM flukaItem
  .ok (flukaSigns (squeezePairs ' ' (c!" C" ++ intStr c.id ++ c!" 5 " ++ c!"( " ++ ws.flatten ++ c!" ) " ++ c!"\n")))

end

end Csg
