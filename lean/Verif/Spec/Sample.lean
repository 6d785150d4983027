import Verif.Model.Num
import Mathlib.Algebra.Order.Field.Rat

/-!
# A concrete number format for examples
-/

namespace Csg.Spec

/-- Decimal literals over the rationals. Whole numbers are printed as Python prints whole floats; other numbers do not occur in examples. -/
def sampleIO : NumIO ℚ :=
  { parse := decimal
    render := fun q => if q.den = 1 then intStr q.num ++ c!".0" else intStr q.num ++ c!"/" ++ natStr q.den }

end Csg.Spec
