import Verif.Model.Num

/-!
# `CellCard.py` and `MCNPCellCard.py`
-/

namespace Csg

/-- `CellCard.OperationType` (CellCard.py 14-20). -/
inductive Op
  | not | union | and
  deriving DecidableEq, Repr

/-- An entry of `cell_interpreted`: an operation or a string. -/
inductive Item
  | op (o : Op)
  | str (s : Str)
  deriving DecidableEq, Repr

/-- A material number: an `int` from the card, or the string key of a material made by `__reorganise_materials`. -/
inductive MatNum
  | int (z : Int)
  | str (s : Str)
  deriving DecidableEq, Repr

/-- An entry of the transform of a filled cell: text from the card, or a number. -/
inductive Entry (K : Type)
  | txt (s : Str)
  | num (x : K)
  deriving DecidableEq, Repr

/-- The fields of a cell card (CellCard.py 22-42). Text description and interpreted description start as empty strings in
Python and are lists from the first interpretation on. A universe, fill, offset or rotation that is the integer 0 is `none`. The surface
set is a list that is only used for membership. The comment is left out. -/
structure Cell (K : Type) where
  id : Int
  density : K
  material : MatNum
  importance : K
  text : List Str
  interpreted : List Item
  fill : Option Str
  uni : Option Str
  offset : Option (List (Entry K))
  rotation : Option (List (Entry K))
  trId : Str
  surfaces : List Int
  deriving DecidableEq, Repr

/-- The state set by the constructor (CellCard.py 23-39). -/
def Cell.blank {K : Type} [Zero K] [One K] : Cell K :=
  { id := 0, density := 0, material := .int 0, importance := 1, text := [], interpreted := [], fill := none, uni := none
    offset := none, rotation := none, trId := c!"0", surfaces := [] }

/-- The loop of `MCNPCellCard.generalise` (MCNPCellCard.py 150-179). `prev` is the entry before the current token, which for the first
token is the last one of the list (index -1). The result is the list of entries and the surface numbers that are recorded.
The end is only tested after a token that is not `:`, `#` or `(`. Line 161 tests for "(" only, since `"(" or ")"` is `"("`. -/
def generaliseGo (prev : Item) : List Str → Py (List Item × List Int)
  | [] => .error .indexError
  | s :: rest =>
    if s = c!":" then do
      let (is, ns) ← generaliseGo (.op .union) rest
      .ok (.op .union :: is, ns)
    else if s = c!"#" then do
      let (is, ns) ← generaliseGo (.op .not) rest
      .ok (.op .not :: is, ns)
    else if s = c!"(" then do
      let (is, ns) ← generaliseGo (.str s) rest
      .ok (.str s :: is, ns)
    else
      let put : List Item × List Int :=
        if prev ≠ .str c!"(" ∧ s ≠ c!")" then
          ([.op .and, .str s], match parseInt s with | some z => [(z.natAbs : Int)] | none => [])
        else ([.str s], [])
      if rest = [] then .ok put
      else do
        let (is, ns) ← generaliseGo (.str s) rest
        .ok (put.1 ++ is, put.2 ++ ns)

/-- `MCNPCellCard.generalise` (MCNPCellCard.py 142-186) on the tokens. -/
def generalise (tokens : List Str) : Py (List Item × List Int) :=
  match tokens.getLast? with
  | none => .error .indexError
  | some t => generaliseGo (.str t) tokens

/-- The longest prefix of digits and the rest. -/
def spanDigits (s : Str) : Str × Str := (s.takeWhile isDigit, s.dropWhile isDigit)

/-- The text matched by `[+-]?([0-9]*)(\.([0-9]+))?` at the start of the string. -/
def matchNumber (s : Str) : Str :=
  let (sg, s) := match s with
    | '+' :: t => (c!"+", t)
    | '-' :: t => (c!"-", t)
    | t => ([], t)
  let (a, s) := spanDigits s
  match s with
  | '.' :: t =>
    let (b, _) := spanDigits t
    if b = [] then sg ++ a else sg ++ a ++ '.' :: b
  | _ => sg ++ a

/-- The text matched at the start of the string by `(keyword) ?= ?(?=.)number` (MCNPCellCard.py 198-200), with the backtracking of the
second optional blank. -/
def matchKeyword (kw s : Str) : Option Str :=
  if kw.isPrefixOf s then
    let rest := s.drop kw.length
    let (sp, rest) := match rest with
      | ' ' :: t => (c!" ", t)
      | t => ([], t)
    match rest with
    | '=' :: ' ' :: c :: t => if c ≠ '\n' then some (kw ++ sp ++ c!"= " ++ matchNumber (c :: t)) else some (kw ++ sp ++ c!"=")
    | '=' :: c :: t => if c ≠ '\n' then some (kw ++ sp ++ c!"=" ++ matchNumber (c :: t)) else none
    | _ => none
  else none

/-- `regex.search`: the first match. -/
def searchKeyword (kw : Str) : Str → Option Str
  | [] => matchKeyword kw []
  | c :: s =>
    match matchKeyword kw (c :: s) with
    | some r => some r
    | none => searchKeyword kw s

/-- `__get_keyword_value` (MCNPCellCard.py 196-202). No match: `None[0]` is a `TypeError`. -/
def keywordValue (kw s : Str) : Py Str :=
  match searchKeyword kw s with
  | none => .error .typeError
  | some r => pyGet (splitOnChar ' ' r) 2

/-- `__extract_string_between` (MCNPCellCard.py 204-212). -/
def extractBetween (s : Str) (a b : Char) : Str :=
  join c!" " (split (slice s (findChar a s + 1) (findChar b s)))

section
variable {K : Type} [Field K]

/-- `__set_universe_transform` (MCNPCellCard.py 337-367). `cosDeg` is `math.cos(x / 180.0 * math.pi)`. -/
def setUniverseTransform (io : NumIO K) (cosDeg : K → K) (c : Cell K) (transform : Str) (degrees : Bool) : Py (Cell K) :=
  match split transform with
  | [t] => .ok { c with trId := t }
  | t0 :: t1 :: t2 :: rest => do
    let c := { c with offset := some [.txt t0, .txt t1, .txt t2] }
    if 9 ≤ rest.length then do
      let rot := rest.take 9
      if degrees then do
        let xs ← rot.mapM io.float
        .ok { c with rotation := some (xs.map fun x => .num (cosDeg x)) }
      else .ok { c with rotation := some (rot.map .txt) }
    else .ok c
  | _ => .ok c

/-- `mcnp_cell_keywords` (MCNPCellCard.py 14). -/
def cellKeywords : List Str := [c!"imp", c!"u", c!"fill", c!"vol", c!"tmp"]

/-- Lines 252-284 of `__detect_keywords`: universe, fill and importance from the text after the first keyword. -/
def readKeywords (io : NumIO K) (cosDeg : K → K) (c : Cell K) (string : Str) (posu posf posi : Int) (degrees : Bool) (m : Int) :
    Py (Cell K) := do
  let tail := squeezePairs ' ' (replaceChar '=' c!"= " (replaceChar '=' c!" =" (sliceFrom string m))) ++ c!" "
  let u ← (if posu = -1 then .ok none else (keywordValue c!"u" tail).map some : Py (Option Str))
  let c := { c with uni := u }
  let c ← (if posf = -1 then .ok { c with fill := none }
    else do
      let f ← keywordValue c!"fill" tail
      let c := { c with fill := some (strip f) }
      let body := sliceFrom string posf
      setUniverseTransform io cosDeg c (if body.elem '(' then extractBetween body '(' ')' else c!"0") degrees : Py (Cell K))
  let imp ← (if posi = -1 then .ok 1
    else do
      let v ← keywordValue c!"imp:n" tail
      io.float v : Py K)
  .ok { c with importance := imp }

/-- `__detect_keywords` (MCNPCellCard.py 215-286): the cell with universe, fill and importance, and the text before the keywords. -/
def detectKeywords (io : NumIO K) (cosDeg : K → K) (c : Cell K) (string : Str) : Py (Cell K × Str) :=
  if ¬ cellKeywords.any (fun w => hasInfix w string) then .ok (c, string)
  else
    let posd := findChar '$' string
    let string := if posd ≠ -1 then sliceTo string posd else string
    let posu := findChar 'u' string
    let posf := findStr c!"fill" string
    let post := findStr c!"tmp" string
    let degrees : Bool := findStr c!"*fill" string ≠ -1
    let posf := if degrees then posf - 1 else posf
    let posi := findStr c!"imp" string
    let posv := findStr c!"vol" string
    if posu = -1 ∧ posf = -1 ∧ posi = -1 ∧ posv = -1 ∧ post = -1 then .ok (c, string)
    else
      match ([posu, posf, posi, posv, post].filter fun i => 0 < i).min? with
      | none => .error .valueError
      | some m => do
        let c ← readKeywords io cosDeg c string posu posf posi degrees m
        .ok (c, sliceTo string m)

/-- Lines 301-304: blanks around parentheses and colons, plus signs purged. -/
def expandText (s : Str) : Str :=
  replaceChar '+' [] (replaceChar ':' c!" : " (replaceChar ')' c!" ) " (replaceChar '(' c!" ( " s)))

/-- `__interpret` (MCNPCellCard.py 290-333) of a text on a cell. Simplification: the loop over `$` comments in lines 308-312 is left out; all callers in
MCNPInput.py remove such comments first (1103, 1123). -/
def interpret (io : NumIO K) (cosDeg : K → K) (c : Cell K) (text : Str) : Py (Cell K) := do
  let (c, string) ← detectKeywords io cosDeg c text
  let tokens := split (expandText string)
  let t0 ← pyGet tokens 0
  let id ← pyInt t0
  let t1 ← pyGet tokens 1
  let m ← pyInt t1
  let c := { c with id := id }
  let c ← (if 0 < m then do
      let t2 ← pyGet tokens 2
      let d ← fortranNumber io t2
      .ok { c with material := .int m, density := d, text := tokens.drop 3 }
    else .ok { c with density := 0, material := .int 0, text := tokens.drop 2 } : Py (Cell K))
  let (is, ns) ← generalise c.text
  .ok { c with interpreted := is, surfaces := c.surfaces ++ ns }

/-- The constructor of `MCNPCellCard` (MCNPCellCard.py 124-126). -/
def readCell (io : NumIO K) (cosDeg : K → K) (text : Str) : Py (Cell K) := interpret io cosDeg .blank text

/-- `str(cell_material_number)`. -/
def MatNum.text : MatNum → Str
  | .int z => intStr z
  | .str s => s

/-- The text built by `update` (MCNPCellCard.py 380-386). -/
def updateText (io : NumIO K) (c : Cell K) (description : Str) : Str :=
  if c.material = .int 0 then intStr c.id ++ c!" " ++ c.material.text ++ c!" " ++ description
  else intStr c.id ++ c!" " ++ c.material.text ++ c!" " ++ io.render c.density ++ c!" " ++ description

/-- `update` (MCNPCellCard.py 377-388). -/
def Cell.update (io : NumIO K) (cosDeg : K → K) (c : Cell K) (description : Str) : Py (Cell K) :=
  interpret io cosDeg c (updateText io c description)

end

/-- One entry in the loop of `replace_surface` (CellCard.py 67-82). -/
def replaceItem (ref new : Int) (reverse : Bool) : Item → Py Item
  | .op o => .ok (.op o)
  | .str s =>
    if s = c!"(" ∨ s = c!")" then .ok (.str s)
    else do
      let surf ← pyInt s
      if (surf.natAbs : Int) = new ∧ surf = new then
        .ok (.str (if reverse then intStr (-1 * ref) else intStr ref))
      else if (surf.natAbs : Int) = new ∧ surf ≠ new then
        .ok (.str (if reverse then intStr ref else intStr (-1 * ref)))
      else .ok (.str s)

/-- `replace_surface` (CellCard.py 62-84) on the interpreted description. -/
def replaceSurface (ref new : Int) (reverse : Bool) (is : List Item) : Py (List Item) :=
  is.mapM (replaceItem ref new reverse)

end Csg
