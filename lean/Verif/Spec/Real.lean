import Verif.Model.Num
import Mathlib.Data.Nat.Digits.Defs

/-!
# Real numbers in MCNP input

Python literals write the exponent as `e` with an optional sign. Fortran also reads a bare signed exponent: `1.5-3` is `1.5e-3`. Text is lower case.
-/

namespace Csg.Spec

/-- The number written by decimal digits. -/
def digitsValue (ds : Str) : ℕ := Nat.ofDigits 10 (ds.reverse.map fun c => c.toNat - '0'.toNat)

def Digits (ds : Str) : Prop := ∀ c ∈ ds, isDigit c = true

/-- An optional sign. -/
inductive SignText : Str → Int → Prop
  | absent : SignText [] 1
  | plus : SignText c!"+" 1
  | minus : SignText c!"-" (-1)

/-- An exponent as in Python. -/
inductive Exponent : Str → Int → Prop
  | absent : Exponent [] 0
  | letter (sg ds : Str) (s : Int) : SignText sg s → ds ≠ [] → Digits ds → Exponent ('e' :: (sg ++ ds)) (s * digitsValue ds)

/-- An exponent that is only a sign and digits. -/
inductive BareExponent : Str → Int → Prop
  | plus (ds : Str) : ds ≠ [] → Digits ds → BareExponent ('+' :: ds) (digitsValue ds)
  | minus (ds : Str) : ds ≠ [] → Digits ds → BareExponent ('-' :: ds) (-digitsValue ds)

section
variable {K : Type} [Field K]

/-- `text` is sign, digits, perhaps a point and digits, and an exponent text in front of which the number is `m`. -/
inductive Mantissa (K : Type) [Field K] : Str → K → Prop
  | whole (sg ds : Str) (s : Int) : SignText sg s → ds ≠ [] → Digits ds → Mantissa K (sg ++ ds) (s * digitsValue ds)
  | point (sg a b : Str) (s : Int) : SignText sg s → a ++ b ≠ [] → Digits a → Digits b →
      Mantissa K (sg ++ a ++ '.' :: b) (s * (digitsValue (a ++ b) / 10 ^ b.length))

/-- A Python float literal and its value. -/
inductive Literal : Str → K → Prop
  | mk (m x : Str) (v : K) (n : Int) : Mantissa K m v → Exponent x n → Literal (m ++ x) (v * 10 ^ n)

/-- A Fortran real with a bare exponent and its value. -/
inductive BareReal : Str → K → Prop
  | mk (m x : Str) (v : K) (n : Int) : Mantissa K m v → BareExponent x n → BareReal (m ++ x) (v * 10 ^ n)

/-- `float` reads decimal literals exactly. -/
def ReadsLiterals (io : NumIO K) : Prop := ∀ (s : Str) (x : K), Literal s x → io.parse s = some x

end

end Csg.Spec
