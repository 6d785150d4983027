import Verif.Model.Cell
import Verif.Spec.Region

/-!
# Meaning of cell descriptions

How MCNP reads the geometry part of a cell card, and the meaning of the interpreted form. Both are given as symbols of region
expressions over words: a word is a signed surface number, a macrobody facet or `#` with a cell number.
-/

namespace Csg.Spec

/-- A word of the geometry part that is not a parenthesis or a colon. A lone `#` is the complement operator. -/
def wordSym (w : Str) : Sym Str := if w = c!"#" then .no else .atom w

/-- The symbols for geometry tokens. -/
def tokenSym (w : Str) : Sym Str :=
  if w = c!"(" then .lp else if w = c!")" then .rp else if w = c!":" then .un else wordSym w

def tokenSyms (ws : List Str) : List (Sym Str) := ws.map tokenSym

/-- The symbols for the entries of an interpreted description: AND is juxtaposition. -/
def itemSyms : List Item → List (Sym Str)
  | [] => []
  | .op .and :: is => itemSyms is
  | .op .union :: is => .un :: itemSyms is
  | .op .not :: is => .no :: itemSyms is
  | .str s :: is => (if s = c!"(" then .lp else if s = c!")" then .rp else .atom s) :: itemSyms is

/-- A pending word at the end of a run of characters. -/
def endWord (acc : Str) : List (Sym Str) := if acc = [] then [] else [wordSym acc]

/-- Reading geometry text character by character; a plus sign is ignored. -/
def lexGo (acc : Str) : Str → List (Sym Str)
  | [] => endWord acc
  | c :: cs =>
    if isSpace c then endWord acc ++ lexGo [] cs
    else if c = '(' then endWord acc ++ .lp :: lexGo [] cs
    else if c = ')' then endWord acc ++ .rp :: lexGo [] cs
    else if c = ':' then endWord acc ++ .un :: lexGo [] cs
    else if c = '+' then lexGo acc cs
    else lexGo (acc ++ [c]) cs

/-- The symbols of geometry text. -/
def lexGeometry (s : Str) : List (Sym Str) := lexGo [] s

/-- The words with which the parameter part of a cell card can begin. -/
def parameterWords : List Str := [c!"imp", c!"u", c!"fill", c!"*fill", c!"vol", c!"tmp"]

/-- A cell card as text: number, material, density for a material that is not 0, geometry, parameters. The part before the parameters uses
none of the letters with which parameters begin; the header no character with a meaning in geometry. `*fill` and `fill` do not both
occur. -/
structure IsCellText (text : Str) (number material : Str) (density : Option Str) (geometry : Str) : Prop where
  parts : ∃ header params, text = header ++ ' ' :: (geometry ++ params) ∧
    split header = number :: material :: density.toList ∧
    (∃ m, parseInt material = some m ∧ 0 ≤ m ∧ (m = 0 ↔ density = none)) ∧
    (∀ c ∈ header, c ∉ ['(', ')', ':', '+']) ∧
    (∀ c ∈ header ++ geometry, c ∉ ['u', 'f', 'i', 'v', 't', '*', '$']) ∧
    (params = [] ∨ ∃ w ∈ parameterWords, ∃ rest, params = w ++ rest) ∧
    '$' ∉ params ∧
    (∀ a b, params = a ++ c!"fill" ++ b → ∀ a' b', params = a' ++ c!"*fill" ++ b' → a = a' ++ c!"*")

/-- The truth value of a surface word, given the truth value of each signed surface number. -/
def wordSense (σ : Int → Prop) (w : Str) : Prop := ∃ z, parseInt w = some z ∧ σ z

end Csg.Spec
