import Verif.Model.Py
import Mathlib.Algebra.Field.Basic

/-!
# Numbers in text

`float(text)` and `str(float)` are a pair of functions. `decimal` is a concrete reader for the decimal literals that
Python's `float` accepts (without underscores, `inf` and `nan`), with exact values.
-/

namespace Csg

/-- Python's `float(text)` (`none` for `ValueError`) and `str(x)` for a float `x`. -/
structure NumIO (K : Type) where
  parse : Str → Option K
  render : K → Str

/-- What Python guarantees about `float` and `str` for a float `x`: reading back gives the same number, and the text is one
word of at most 24 characters made of digits, signs, the decimal point and the letter e (for finite floats). This is a statement about single numbers: only finitely many elements of `K` can satisfy it,
as there are only finitely many floats. -/
structure NumIO.Good {K : Type} (io : NumIO K) (x : K) : Prop where
  parse_render : io.parse (io.render x) = some x
  ne_nil : io.render x ≠ []
  len : (io.render x).length ≤ 24
  chars : ∀ c ∈ io.render x, isDigit c = true ∨ c = '+' ∨ c = '-' ∨ c = '.' ∨ c = 'e'

/-- `float(s)` as a Python computation. -/
def NumIO.float {K : Type} (io : NumIO K) (s : Str) : Py K :=
  match io.parse s with
  | some x => .ok x
  | none => .error .valueError

section
variable {K : Type} [Field K]

/-- Value of `digits.digits`: at least one digit in total. -/
def mantissaVal (s : Str) : Option K :=
  match splitOnChar '.' s with
  | [a] => if a ≠ [] ∧ a.all isDigit then some (natVal a : K) else none
  | [a, b] =>
    if (a ≠ [] ∨ b ≠ []) ∧ a.all isDigit ∧ b.all isDigit then
      some ((natVal (a ++ b) : K) / 10 ^ b.length)
    else none
  | _ => none

/-- An optional sign in front of a number. -/
def signedVal (f : Str → Option K) (s : Str) : Option K :=
  match s with
  | '-' :: t => (f t).map fun x => -x
  | '+' :: t => f t
  | t => f t

/-- An unsigned decimal literal with an optional exponent introduced by `e`. -/
def unsignedDecimal (s : Str) : Option K :=
  match splitOnChar 'e' s with
  | [m] => mantissaVal m
  | [m, x] =>
    match mantissaVal m, parseInt x with
    | some v, some n => some ((v : K) * (10 : K) ^ n)
    | _, _ => none
  | _ => none

/-- The decimal literals accepted by Python's `float` for lower-case text: `[sign] digits[.digits] [e [sign] digits]`. -/
def decimal (s : Str) : Option K := signedVal unsignedDecimal s

end

/-- `get_fortran_formatted_number` (MCNPFormatter.py 15-30). `lower()` is dropped: the deck is lower-cased when it is read
(Input.py 57). The test for "e-", "e+", "e" in line 23 amounts to the test for "e". -/
def fortranNumber {K : Type} (io : NumIO K) (s : Str) : Py K :=
  match splitOnChar '.' s with
  | a :: b :: _ =>
    if b.elem 'e' then io.float s
    else io.float (a ++ c!"." ++ replaceChar '+' c!"e+" (replaceChar '-' c!"e-" b))
  | _ => io.float s

end Csg
