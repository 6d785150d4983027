import Verif.Spec.Cell
import Verif.Spec.Text

/-!
# How the other codes read a region

Region text of Serpent, OpenMC, SCONE and FLUKA as symbols of region expressions. White space separates words. In Serpent, OpenMC and SCONE certain
characters are symbols of their own wherever they stand, and everything else is part of a surface word. In all codes intersection is juxtaposition.
-/

namespace Csg.Spec

/-- A pending surface word at the end of a run of characters. -/
def pending (acc : Str) : List (Sym Str) := if acc = [] then [] else [.atom acc]

/-- Reading text in which the characters chosen by `sp` are symbols. -/
def lexCharsGo (sp : Char → Option (Sym Str)) (acc : Str) : Str → List (Sym Str)
  | [] => pending acc
  | c :: cs =>
    if isSpace c then pending acc ++ lexCharsGo sp [] cs
    else match sp c with
      | some s => pending acc ++ s :: lexCharsGo sp [] cs
      | none => lexCharsGo sp (acc ++ [c]) cs

/-- Serpent: parentheses, `:` for union, `#` for complement. -/
def serpentChar (c : Char) : Option (Sym Str) :=
  if c = '(' then some .lp else if c = ')' then some .rp else if c = ':' then some .un else if c = '#' then some .no else none

/-- OpenMC: parentheses, `|` for union, `~` for complement. -/
def openmcChar (c : Char) : Option (Sym Str) :=
  if c = '(' then some .lp else if c = ')' then some .rp else if c = '|' then some .un else if c = '~' then some .no else none

/-- SCONE: `<` and `>` for parentheses, `:` for union, `#` for complement. -/
def sconeChar (c : Char) : Option (Sym Str) :=
  if c = '<' then some .lp else if c = '>' then some .rp else if c = ':' then some .un else if c = '#' then some .no else none

def lexSerpent (s : Str) : List (Sym Str) := lexCharsGo serpentChar [] s
def lexOpenmc (s : Str) : List (Sym Str) := lexCharsGo openmcChar [] s
def lexScone (s : Str) : List (Sym Str) := lexCharsGo sconeChar [] s

/-- In FLUKA a sign stands directly before a body name or an opening parenthesis. -/
def signOk : Str → Bool
  | c :: _ => c == '(' || c.isAlpha
  | [] => false

/-- FLUKA: a name is a body, `+` before it means inside, `-` outside; the same signs before a parenthesis; `|` is union. A minus sign
is thus a complement and a plus sign changes nothing. `none` for a sign in another place. -/
def lexFlukaGo (acc : Str) : Str → Option (List (Sym Str))
  | [] => some (pending acc)
  | c :: cs =>
    if isSpace c then (lexFlukaGo [] cs).map (pending acc ++ ·)
    else if c = '(' then (lexFlukaGo [] cs).map (pending acc ++ .lp :: ·)
    else if c = ')' then (lexFlukaGo [] cs).map (pending acc ++ .rp :: ·)
    else if c = '|' then (lexFlukaGo [] cs).map (pending acc ++ .un :: ·)
    else if c = '+' then if signOk cs then (lexFlukaGo [] cs).map (pending acc ++ ·) else none
    else if c = '-' then if signOk cs then (lexFlukaGo [] cs).map (pending acc ++ .no :: ·) else none
    else lexFlukaGo (acc ++ [c]) cs

def lexFluka (s : Str) : Option (List (Sym Str)) := lexFlukaGo [] s

/-- The word of a signed surface number. -/
def SurfaceWord (w : Str) : Prop := w ≠ [] ∧ ∀ c ∈ w, isDigit c = true ∨ c = '-'

/-- A word of MCNP geometry: a surface, a facet or the complement of a cell. -/
def GeometryWord (w : Str) : Prop := w ≠ [] ∧ w ≠ c!"#" ∧ ∀ c ∈ w, isDigit c = true ∨ c = '-' ∨ c = '.' ∨ c = '#'

/-- A parenthesis. -/
def IsParen (s : Str) : Prop := s = c!"(" ∨ s = c!")"

/-- Which entry may follow which: a surface word stands after AND or an opening parenthesis; no two UNION in a row. -/
def Follows (i j : Item) : Prop :=
  (∀ s, j = .str s → ¬ IsParen s → i = .op .and ∨ i = .str c!"(") ∧ ¬ (i = .op .union ∧ j = .op .union)

/-- Every surface word is first, or stands after AND or an opening parenthesis, and no UNION follows a UNION. -/
def Spaced (is : List Item) : Prop := is.IsChain Follows

/-- The words of a description other than parentheses satisfy `P` and are at most 60 characters long. -/
def WordsAre (P : Str → Prop) (is : List Item) : Prop := ∀ s, .str s ∈ is → ¬ IsParen s → P s ∧ s.length ≤ 60

/-- One word of text of moderate length. -/
def Token (w : Str) : Prop := w ≠ [] ∧ (∀ c ∈ w, isSpace c = false) ∧ w.length ≤ 60

/-- A token without parentheses. -/
def PlainToken (w : Str) : Prop := Token w ∧ '(' ∉ w ∧ ')' ∉ w

/-- Reading the parameters of a cell card: only parentheses are symbols of their own. -/
def parenChar (c : Char) : Option (Sym Str) := if c = '(' then some .lp else if c = ')' then some .rp else none

def lexParens (s : Str) : List (Sym Str) := lexCharsGo parenChar [] s

/-- A cell whose description can be written with words of the kind `P`: spacing, word lengths, a printable number, material and density. -/
structure Writable {K : Type} (io : NumIO K) (P : Str → Prop) (c : Cell K) : Prop where
  spaced : Spaced c.interpreted
  words : WordsAre P c.interpreted
  id : Token (intStr c.id)
  material : Token c.material.text
  density : c.material ≠ .int 0 → io.Good c.density

/-- The universe, fill, offset, rotation and importance of a cell can be printed; `offs` and `rots` are the texts of the offset and the rotation, if present. -/
structure WritableParams {K : Type} (io : NumIO K) (c : Cell K) (offs rots : List Str) : Prop where
  uni : ∀ u, c.uni = some u → PlainToken u
  fill : ∀ f, c.fill = some f → PlainToken f
  offset : ∀ l, c.offset = some l → l.length = 3 ∧
    List.Forall₂ (fun e w => PlainToken w ∧ (e = .txt w ∨ ∃ x, e = .num x ∧ w = io.render x)) l offs
  rotation : ∀ l, c.rotation = some l → l.length = 9 ∧
    List.Forall₂ (fun e w => ∃ x, io.Good x ∧ w = io.render x ∧ (e = .num x ∨ ∃ t, e = .txt t ∧ io.parse t = some x)) l rots
  importance : io.Good c.importance

/-- The fill of a cell as parameters of an MCNP card: the universe, and if there is a transform, offset (zero if absent) and rotation in parentheses. -/
def fillSyms {K : Type} [DecidableEq K] (c : Cell K) (offs rots : List Str) : List (Sym Str) :=
  match c.fill with
  | none => []
  | some f => .atom (c!"fill=" ++ f) ::
    (if c.offset = none ∧ c.rotation = none then []
    else .lp :: ((if c.offset = none then [c!"0", c!"0", c!"0"] else offs) ++ (if c.rotation = none then [] else rots)).map .atom ++ [.rp])

/-- The parameters of an MCNP card for a cell: universe, fill, importance if asked for. -/
def paramSyms {K : Type} [DecidableEq K] (io : NumIO K) (c : Cell K) (offs rots : List Str) (importances : Bool) : List (Sym Str) :=
  (match c.uni with
    | none => []
    | some u => [.atom (c!"u=" ++ u)]) ++ fillSyms c offs rots ++
  (if importances then [.atom (c!"IMP:N=" ++ io.render c.importance)] else [])

end Csg.Spec
