import Verif.Model.MaterialWriters
import Verif.Spec.Exact

/-!
# Materials that can be printed
-/

namespace Csg.Spec

section
variable {K : Type}

/-- A number that is printed as a float and read back. -/
def PrintsFloat (io : NumIO K) (x : K) : Prop := FloatText (io.render x) ∧ io.parse (io.render x) = some x

/-- A material whose number and nuclides are decimal numbers, the nuclides different from each other, at least one of them, with fractions that can be printed; its name fits on a line. -/
structure Printable (io : NumIO K) (m : Material K) : Prop where
  number : m.number ≠ [] ∧ ∀ c ∈ m.number, isDigit c = true
  name : '\n' ∉ m.name
  nonempty : m.composition ≠ []
  nodup : (m.composition.map Prod.fst).Nodup
  nuclides : ∀ e ∈ m.composition, e.1 ≠ [] ∧ ∀ c ∈ e.1, isDigit c = true
  fractions : ∀ e ∈ m.composition, PrintsFloat io e.2

/-- The same for the Serpent writer: the fractions are printed in another format, which reads as an approximation; there may be no nuclides at all. -/
structure PrintableSerpent (io : NumIO K) (sci : K → Str) (approx : K → K) (m : Material K) : Prop where
  number : m.number ≠ [] ∧ ∀ c ∈ m.number, isDigit c = true
  name : '\n' ∉ m.name
  density : PrintsFloat io m.density
  nodup : (m.composition.map Prod.fst).Nodup
  nuclides : ∀ e ∈ m.composition, e.1 ≠ [] ∧ ∀ c ∈ e.1, isDigit c = true
  fractions : ∀ e ∈ m.composition, FloatText (sci e.2) ∧ io.parse (sci e.2) = some (approx e.2)

/-- The library identifiers of all nuclides are known and made of lower-case letters and digits, such as `70c`, or empty. -/
def PrintableXs (m : Material K) : Prop := ∀ e ∈ m.composition, ∃ x, m.xsid.lookup e.1 = some x ∧ ∀ c ∈ x, isDigit c = true ∨ c.isLower = true

/-- The same composition and number. The libraries are `xsid`. -/
def SameComposition (xsid : Str → Str) (m m' : Material K) : Prop :=
  m'.number = m.number ∧ m'.composition = m.composition ∧ m'.xsid = m.composition.map fun e => (e.1, xsid e.1)

end

end Csg.Spec
