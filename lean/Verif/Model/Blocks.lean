import Verif.Model.Cell
import Verif.Model.Dedupe
import Verif.Model.Formatter
import Verif.Model.Particle

/-!
# The blocks of an input file: cell and surface cards, importances, boundary conditions (MCNPInput.py)

`file_lines` is a list of lines; the functions that move an index through it take the lines from that index on and return the rest.
-/

namespace Csg

/-- `s.rstrip()`. -/
def rstrip (s : Str) : Str := (s.reverse.dropWhile isSpace).reverse

/-- `__set_title` (MCNPInput.py 44-52): the title and the lines after it. -/
def setTitle (lines : List Str) : Py (Str × List Str) := do
  let l0 ← pyGet lines 0
  if hasInfix c!"message" l0 then do
    let l1 ← pyGet lines 1
    .ok (l1, lines.drop 2)
  else .ok (l0, lines.drop 1)

/-- The loop in lines 1308-1315 of `process` that removes comment lines. -/
def dropComments : List Str → Py (List Str)
  | [] => .ok []
  | l :: ls =>
    match l with
    | [] => .error .indexError
    | c :: _ => do
      let rest ← dropComments ls
      if c = 'c' then .ok rest else .ok (l :: rest)

/-- `__remove_inline_comment` (MCNPInput.py 1081-1094). -/
def removeInlineComment (s : Str) : Str :=
  if s.elem '$' then sliceTo s (findChar '$' s) else s

/-- Five blanks at the start of a line mark a continuation. -/
def continues (l : Str) : Bool := (c!"     ").isPrefixOf l

section
variable {α : Type}

/-- The loops over the lines of a card block, `__get_cell_cards` (MCNPInput.py 1097-1139) and `__get_surface_cards` (1165-1190). `card` is the text of the
card so far, `clean` removes the comment of a line, `parse` is the constructor of the card. The end of the file is an `IndexError`. -/
def blockGo (clean : Str → Str) (parse : Str → Py α) (card : Str) : List Str → Py (List α × List Str)
  | [] => .error .indexError
  | l :: ls =>
    if continues (clean l) ∧ ¬ isspace (clean l) then blockGo clean parse (card ++ clean l) ls
    else do
      let c ← parse card
      if isspace (clean l) then .ok ([c], ls)
      else do
        let (cs, rest) ← blockGo clean parse (clean l) ls
        .ok (c :: cs, rest)

/-- A block from its first line on: the cards and the lines after the blank line that ends it. -/
def block (clean : Str → Str) (parse : Str → Py α) : List Str → Py (List α × List Str)
  | [] => .error .indexError
  | l :: ls => if isspace (clean l) then .ok ([], ls) else blockGo clean parse (clean l) ls

end

/-- The loop of `__get_importances` (MCNPInput.py 90-127). `cur` is the card that is being read. An unknown particle makes the log message
in lines 103-109 fail, as `particleToGeneric` returns `None`. -/
def importancesGo (d : List (Particle × Str)) (cur : Option (Particle × Str)) : List Str → Py (List (Particle × Str))
  | [] =>
    match cur with
    | none => .ok d
    | some _ => .error .indexError
  | l :: ls =>
    let start (d : List (Particle × Str)) : Py (List (Particle × Str)) :=
      if hasInfix c!"imp" l then do
        let w ← pyGet (split l) 0
        let s ← pyGet (splitOnChar ':' w) 1
        match mcnpToParticle s with
        | none => .error .typeError
        | some p => importancesGo d (some (p, rstrip (l.drop 5))) ls
      else importancesGo d none ls
    match cur with
    | some (p, t) => if continues l then importancesGo d (some (p, t ++ rstrip l)) ls else start (dictSet d p t)
    | none => start d

/-- Lines 74-83 of `__process_importances`: `nr` is replaced by copies of the entry before, which for the first one is the last. -/
def expandRepeats (prev : Str) : List Str → Py (List Str)
  | [] => .ok []
  | w :: ws =>
    if w.elem 'r' then do
      let n ← pyInt (replaceChar 'r' [] w)
      let w' := join c!" " (List.replicate (n - 1).toNat prev)
      let rest ← expandRepeats w' ws
      .ok (w' :: rest)
    else do
      let rest ← expandRepeats w ws
      .ok (w :: rest)

/-- `__process_importances` (MCNPInput.py 61-87). The first list without `i` and `r` ends the loop. -/
def processImportances : List (Particle × Str) → Py (List (Particle × Str))
  | [] => .ok []
  | (p, t) :: d =>
    if ¬ t.elem 'i' ∧ ¬ t.elem 'r' then .ok ((p, t) :: d)
    else do
      let ws ← expandRepeats ((split t).getLastD []) (split t)
      let d ← processImportances d
      .ok ((p, join c!" " ws) :: d)

/-- `__get_importances` (MCNPInput.py 90-129). -/
def getImportances (lines : List Str) : Py (List (Particle × Str)) := do
  let d ← importancesGo [] none lines
  processImportances d

section
variable {K : Type}

/-- Lines 1149-1151 of `__apply_boundary_conditions`. -/
def assignImportances (io : NumIO K) : List (Cell K) → List Str → Py (List (Cell K))
  | cs, [] => .ok cs
  | [], _ :: _ => .error .indexError
  | c :: cs, w :: ws => do
    let x ← io.float w
    let cs ← assignImportances io cs ws
    .ok ({ c with importance := x } :: cs)

/-- Lines 1145-1151. -/
def applyImportances (io : NumIO K) (imps : List (Particle × Str)) (cells : List (Cell K)) : Py (List (Cell K)) :=
  if imps = [] then .ok cells
  else
    match imps.lookup .neutron with
    | none => .error .keyError
    | some t => if t = [] then .ok cells else assignImportances io cells (split t)

/-- `self.get_surface_with_id(n).boundary_condition = VACUUM` (lines 1159-1161, Input.py 61-65). There is no attribute to set on `None`. -/
def setVacuum (n : Int) : List (Surface K) → Py (List (Surface K))
  | [] => .error .attributeError
  | s :: l =>
    if s.id = n then .ok ({ s with bc := .vacuum } :: l)
    else do
      let l ← setVacuum n l
      .ok (s :: l)

/-- Lines 1158-1161, for the surfaces of one cell. -/
def setVacuums : List Int → List (Surface K) → Py (List (Surface K))
  | [], surfs => .ok surfs
  | n :: ns, surfs => do
    let surfs ← setVacuum n surfs
    setVacuums ns surfs

variable [Zero K] [DecidableEq K]

/-- Lines 1156-1161. -/
def vacuumGo : List (Cell K) → List (Surface K) → Py (List (Surface K))
  | [], surfs => .ok surfs
  | c :: cs, surfs => do
    let surfs ← (if c.importance = 0 then setVacuums c.surfaces surfs else .ok surfs : Py (List (Surface K)))
    vacuumGo cs surfs

/-- `__apply_boundary_conditions` (MCNPInput.py 1142-1162). -/
def applyBoundaryConditions (io : NumIO K) (imps : List (Particle × Str)) (cells : List (Cell K)) (surfs : List (Surface K)) :
    Py (List (Cell K) × List (Surface K)) := do
  let cells ← applyImportances io imps cells
  let surfs ← vacuumGo cells surfs
  .ok (cells, surfs)

end

end Csg
