import Verif.Model.Num

/-!
# Exact printing

Parts of the program pass numbers on as text. The theorems about these parts are about exact arithmetic: they assume that printing a
number and reading it gives the number. For floats this holds for every value (`repr` is exact), but floats are not a field;
rounding is not modelled.
-/

namespace Csg.Spec

/-- The shape of the text of a finite float: an optional minus sign, digits, a fraction, an exponent. -/
def FloatText (s : Str) : Prop :=
  ∃ sign digits fraction exponent, s = sign ++ digits ++ fraction ++ exponent ∧ (sign = [] ∨ sign = c!"-") ∧
    digits ≠ [] ∧ (∀ c ∈ digits, isDigit c = true) ∧
    (fraction = [] ∨ ∃ ds, fraction = '.' :: ds ∧ ∀ c ∈ ds, isDigit c = true) ∧
    (exponent = [] ∨ ∃ sg ds, exponent = 'e' :: (sg ++ ds) ∧ (sg = [] ∨ sg = c!"+" ∨ sg = c!"-") ∧ ∀ c ∈ ds, isDigit c = true)

/-- The surface types that the program prints. -/
def surfaceWords : List Str := [c!"p", c!"px", c!"py", c!"pz", c!"gq"]

/-- Printing a number and reading it gives the number, also when the plus sign of the exponent is left out; the literals in the texts of the program are
read as usual; the names of surfaces are no numbers. -/
structure Exact {K : Type} [Zero K] [One K] [Neg K] (io : NumIO K) : Prop where
  text : ∀ x, FloatText (io.render x)
  reads : ∀ x, io.parse (io.render x) = some x
  plus : ∀ x, io.parse ((io.render x).filter (· != '+')) = some x
  zero : io.parse c!"0" = some 0
  minusOne : io.parse c!"-1.0" = some (-1)
  words : ∀ w ∈ surfaceWords, io.parse w = none

end Csg.Spec
