/-!
# Python text primitives

Python `str` values are modelled as lists of characters. White space is the ASCII white space
of `str.split()` / `str.isspace()` (blank, tab, newline, vertical tab, form feed, carriage
return); the exotic Unicode separators are not modelled.
-/

namespace Csg

/-- Python `str`. -/
abbrev Str := List Char

open Lean in
/-- `c!"abc"` is the character list `['a', 'b', 'c']`. -/
macro:max "c!" s:str : term => do
  let cs := s.getString.toList.map (fun c => Syntax.mkCharLit c)
  `(([$(cs.toArray),*] : List Char))

/-- Exceptions the modelled code can raise. -/
inductive PyErr
  | indexError
  | keyError
  | valueError
  | typeError
  | attributeError
  | zeroDivision
  | unboundLocal
  | exception
  | nameError
  | sysExit
  deriving DecidableEq, Repr

/-- A Python computation that returns a value or raises. -/
abbrev Py (α : Type) := Except PyErr α

/-- `l[i]` for a non-negative index: `IndexError` when out of range. -/
def pyGet {α : Type} (l : List α) (i : Nat) : Py α :=
  match l[i]? with
  | some a => .ok a
  | none => .error .indexError

/-- `l[i]` for any index, counting from the end when negative. -/
def pyGetI {α : Type} (l : List α) (i : Int) : Py α :=
  match i with
  | .ofNat n => pyGet l n
  | .negSucc n => if n < l.length then pyGet l (l.length - 1 - n) else .error .indexError

/-- The characters `str.split()` and `str.isspace()` treat as white space. -/
def isSpace (c : Char) : Bool :=
  c == ' ' || c == '\n' || c == '\t' || c == '\r' || c == '\x0b' || c == '\x0c'

/-- `s.isspace()`: true iff the string is not empty and all characters are white space. -/
def isspace (s : Str) : Bool := !s.isEmpty && s.all isSpace

/-- A pending word is emitted only if it is not empty. -/
def flush (acc : Str) : List Str := if acc = [] then [] else [acc]

/-- `split` with the word read so far. -/
def splitGo (acc : Str) : Str → List Str
  | [] => flush acc
  | c :: cs => if isSpace c then flush acc ++ splitGo [] cs else splitGo (acc ++ [c]) cs

/-- `s.split()`: the maximal runs of non-white-space characters. -/
def split (s : Str) : List Str := splitGo [] s

/-- `s.find(c)` for a single character: the first position, or -1. -/
def findChar (c : Char) (s : Str) : Int :=
  match s.findIdx? (· == c) with
  | some i => i
  | none => -1

/-- `s.rfind(c)` for a single character: the last position, or -1. -/
def rfindChar (c : Char) : Str → Int
  | [] => -1
  | x :: xs =>
    let r := rfindChar c xs
    if 0 ≤ r then r + 1 else if x = c then 0 else -1

/-- `s.find(w)`: the position of the first occurrence of `w`, or -1. -/
def findStr (w : Str) : Str → Int
  | [] => if w = [] then 0 else -1
  | c :: s =>
    if w.isPrefixOf (c :: s) then 0
    else
      let r := findStr w s
      if 0 ≤ r then r + 1 else -1

/-- `s[:i]`, where a negative index counts from the end. -/
def sliceTo {α : Type} (s : List α) (i : Int) : List α :=
  match i with
  | .ofNat n => s.take n
  | .negSucc n => s.take (s.length - (n + 1))

/-- `s[i:]`, where a negative index counts from the end. -/
def sliceFrom {α : Type} (s : List α) (i : Int) : List α :=
  match i with
  | .ofNat n => s.drop n
  | .negSucc n => s.drop (s.length - (n + 1))

/-- `s[i:j]`, where negative indices count from the end. -/
def slice {α : Type} (s : List α) (i j : Int) : List α :=
  let norm : Int → Nat := fun k => match k with
    | .ofNat n => n
    | .negSucc n => s.length - (n + 1)
  (s.take (norm j)).drop (norm i)

/-- `s.replace(c, w)` for a single character `c`. -/
def replaceChar (c : Char) (w : Str) (s : Str) : Str :=
  s.flatMap fun x => if x = c then w else [x]

/-- `s.replace("  ", " ")` with a doubled character, from left to right. -/
def squeezePairs (c : Char) : Str → Str
  | [] => []
  | [a] => [a]
  | a :: b :: s => if a = c ∧ b = c then c :: squeezePairs c s else a :: squeezePairs c (b :: s)

/-- `s.split(c)` for a single character separator. -/
def splitOnChar (c : Char) : Str → List Str
  | [] => [[]]
  | x :: xs =>
    if x = c then [] :: splitOnChar c xs
    else match splitOnChar c xs with
      | [] => [[x]]
      | w :: ws => (x :: w) :: ws

/-- `w.join(l)`. -/
def join (w : Str) : List Str → Str
  | [] => []
  | [a] => a
  | a :: l => a ++ w ++ join w l

/-- `s.strip()`. -/
def strip (s : Str) : Str :=
  ((s.dropWhile isSpace).reverse.dropWhile isSpace).reverse

/-- Membership of a substring, `w in s`. -/
def hasInfix (w : Str) : Str → Bool
  | [] => w.isEmpty
  | c :: s => w.isPrefixOf (c :: s) || hasInfix w s

/-- The decimal digits `0`–`9`. -/
def isDigit (c : Char) : Bool :=
  c == '0' || c == '1' || c == '2' || c == '3' || c == '4' || c == '5' || c == '6' || c == '7' ||
    c == '8' || c == '9'

/-- Value of a digit. -/
def digitVal (c : Char) : Nat :=
  if c = '1' then 1 else if c = '2' then 2 else if c = '3' then 3 else if c = '4' then 4
  else if c = '5' then 5 else if c = '6' then 6 else if c = '7' then 7 else if c = '8' then 8
  else if c = '9' then 9 else 0

/-- The digit of a number below ten. -/
def digitChar (n : Nat) : Char :=
  match n with
  | 0 => '0' | 1 => '1' | 2 => '2' | 3 => '3' | 4 => '4'
  | 5 => '5' | 6 => '6' | 7 => '7' | 8 => '8' | _ => '9'

/-- Value of a digit string. -/
def natVal (s : Str) : Nat := s.foldl (fun n c => 10 * n + digitVal c) 0

/-- Decimal digits of a natural number with explicit fuel; `n < fuel` suffices. -/
def natStrGo : Nat → Nat → Str
  | 0, _ => []
  | f + 1, n => if n < 10 then [digitChar n] else natStrGo f (n / 10) ++ [digitChar (n % 10)]

/-- `str(n)` for a natural number. -/
def natStr (n : Nat) : Str := natStrGo (n + 1) n

/-- `str(z)` for an integer. -/
def intStr (z : Int) : Str :=
  match z with
  | .ofNat n => natStr n
  | .negSucc n => '-' :: natStr (n + 1)

/-- A non-empty digit string as a number. -/
def parseNat (s : Str) : Option Nat :=
  if s ≠ [] ∧ s.all isDigit then some (natVal s) else none

/-- `int(s)`: optional sign and digits (the argument carries no white space or underscores). -/
def parseInt (s : Str) : Option Int :=
  match s with
  | '-' :: t => (parseNat t).map fun n => -(n : Int)
  | '+' :: t => (parseNat t).map fun n => (n : Int)
  | t => (parseNat t).map fun n => (n : Int)

/-- `int(s)` as a Python computation: `ValueError` when it is not a number. -/
def pyInt (s : Str) : Py Int :=
  match parseInt s with
  | some z => .ok z
  | none => .error .valueError

end Csg
