import Verif.Model.CellWriters

/-!
# Universes for SCONE (UniverseCard.py, Input.py, SCONEUniverseCard.py)
-/

namespace Csg

/-- The fields of a universe card that are used (UniverseCard.py 20-32). The fill type 0 is `none`, 1 (`uni_fill`) is `some fillId`; 2 (`mat_fill`) is never set. An offset or rotation
that is the integer 0 is `none`. -/
structure UniverseCard (K : Type) where
  id : Int
  cells : List Int
  fill : Option Int
  isRoot : Bool
  border : Int
  offset : Option (List (Entry K))
  rotation : Option (List (Entry K))
  deriving DecidableEq, Repr

section
variable {K : Type}

/-- The constructor and the start of `build_from_cell_list` (UniverseCard.py 20-32, 57-65). -/
def UniverseCard.start (uni : Int) : UniverseCard K :=
  { id := uni, cells := [], fill := none, isRoot := decide (uni = 0), border := 0, offset := none, rotation := none }

/-- The halfspaces of a cell (UniverseCard.py 79-80): `item.lstrip('-').isdigit()`, then `int`, which fails on more than one sign. -/
def halfspaces (text : List Str) : Py (List Int) :=
  (text.filter fun w => let d := w.dropWhile (· = '-'); decide (d ≠ []) && d.all isDigit).mapM pyInt

/-- One round of the loop of `build_from_cell_list` (UniverseCard.py 67-95). The fill of a cell is the text on the card or the integer 0; compared with the number of the universe it can
only be equal when it is 0. -/
def buildStep (uni : Int) (u : UniverseCard K) (c : Cell K) : Py (UniverseCard K) := do
  let cu ← pyInt (optText c.uni)
  let u ← (if cu = uni then do
      let hs ← halfspaces c.text
      .ok { u with cells := u.cells ++ [c.id], border := match hs with
                | [s] => if uni = 0 ∧ 0 < s then s else u.border
                | _ => u.border }
    else .ok u : Py (UniverseCard K))
  if c.fill = none ∧ uni = 0 then
    .ok { u with rotation := if c.rotation ≠ none then c.rotation else u.rotation, offset := if c.offset ≠ none then c.offset else u.offset }
  else .ok u

end

section
variable {K : Type}

/-- `build_from_cell_list` (UniverseCard.py 56-95). -/
def buildUniverse (cells : List (Cell K)) (uni : Int) : Py (UniverseCard K) := cells.foldlM (buildStep uni) (.start uni)

/-- The new universe that holds the cells of a root universe, and what is left of it (Input.py 120-130). -/
def splitRoot (new : Int) (u : UniverseCard K) : UniverseCard K × Option (UniverseCard K) :=
  if u.isRoot ∧ u.cells ≠ [] then ({ u with cells := [], fill := some new }, some { u with id := new, isRoot := false, border := 0 })
  else (u, none)

/-- `create_universes_from_cells` (Input.py 95-132). `order` is `universe_ids` in the order in which Python visits it, `old` the universe list before. The loop in lines 119-130 also visits
the universes that it appends, but these are no roots. -/
def createUniverses (order : List Int) (old : List (UniverseCard K)) (cells : List (Cell K)) : Py (List (UniverseCard K)) := do
  let us ← order.mapM (buildUniverse cells)
  let us := old ++ us
  if us.any fun u => decide (u.isRoot ∧ u.cells ≠ []) then
    match order.max? with
    | none => .error .valueError
    | some m =>
      let ss := us.map (splitRoot (m + 1))
      .ok (ss.map Prod.fst ++ ss.filterMap Prod.snd)
  else .ok us

/-- The displacement (SCONEUniverseCard.py 35-40). -/
def sconeTranslation (io : NumIO K) : Option (List (Entry K)) → Py Str
  | none => .ok []
  | some l => do
    let ws ← (List.range 3).mapM fun i => (do let e ← pyGet l i; .ok ((match e with | .txt s => s | .num x => io.render x) ++ c!" ") : Py Str)
    .ok (c!"translation (" ++ ws.flatten ++ c!"); ")

/-- The text of `write_scone_universe` before it is wrapped (SCONEUniverseCard.py 14-58). A rotation fails, since the name `rot` is not bound. -/
def sconeUniverseText (io : NumIO K) (u : UniverseCard K) : Py Str := do
  let head :=
    if u.isRoot then
      c!"root { type rootUniverse; border " ++ intStr u.border ++ c!"; " ++ (match u.fill with | some f => c!"fill u<" ++ intStr (f + 1) ++ c!">; " | none => [])
    else intStr (u.id + 1) ++ c!" { type cellUniverse; cells (" ++ (u.cells.map fun c => intStr c ++ c!" ").flatten ++ c!"); "
  let tr ← sconeTranslation io u.offset
  match u.rotation with
  | some _ => .error .unboundLocal
  | none => .ok (squeeze (head ++ c!"id " ++ intStr (u.id + 1) ++ c!"; " ++ tr ++ c!" } \n"))

/-- `write_scone_universe` (SCONEUniverseCard.py 10-60). -/
def writeSconeUniverse (fuel : Nat) (io : NumIO K) (u : UniverseCard K) : Py (Option Str) := do
  let s ← sconeUniverseText io u
  .ok (lineFormatter fuel s)

end

end Csg
