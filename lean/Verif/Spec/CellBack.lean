import Verif.Spec.Cell
import Verif.Spec.Codes
import Verif.Spec.Parameters
import Verif.Spec.MaterialText
import Verif.Model.CellWriters

/-!
# A cell written and read again
-/

namespace Csg.Spec

section
variable {K : Type}

/-- What the reader of MCNP cells needs beyond the writer: the description is an expression, the material number is 0 or a positive integer, the density is read back, also without
the plus sign of its exponent, and universe, fill, importance and the offset are written without letters; the first three have no exponent. -/
structure ReadableCell (io : NumIO K) (c : Cell K) : Prop where
  legal : Legal (itemSyms c.interpreted)
  material : c.material = .int 0 ∨ ∃ m : Int, 0 < m ∧ c.material.text = intStr m
  density : c.material ≠ .int 0 → PrintsFloat io c.density ∧ io.parse ((io.render c.density).filter (· != '+')) = some c.density
  uni : ∀ u, c.uni = some u → PlainNumber u
  fill : ∀ f, c.fill = some f → PlainNumber f
  offset : ∀ l, c.fill ≠ none → c.offset = some l → ∀ e ∈ l, ∀ ch ∈ e.text io, NumberChar ch
  importance : PlainNumber (io.render c.importance)

/-- `r` describes the same cell as `c`: number, material, density, region, universe, fill with its transform, and importance. The material numbers agree as texts,
the entries of the offset as texts and those of the rotation as numbers. A fill that is rotated but not shifted is shifted by zero; the density of void is not kept, and neither is the
transform of a cell that is not filled. -/
structure SameCell (io : NumIO K) (c r : Cell K) : Prop where
  id : r.id = c.id
  material : r.material.text = c.material.text
  density : c.material ≠ .int 0 → r.density = c.density
  region : itemSyms r.interpreted = itemSyms c.interpreted
  uni : r.uni = c.uni
  fill : r.fill = c.fill
  importance : r.importance = c.importance
  trId : r.trId = c!"0"
  still : c.fill = none ∨ (c.offset = none ∧ c.rotation = none) → r.offset = none ∧ r.rotation = none
  offset : c.fill ≠ none → ∀ l, c.offset = some l → r.offset = some (l.map fun e => .txt (e.text io))
  unshifted : c.fill ≠ none → c.offset = none → c.rotation ≠ none → r.offset = some [.txt c!"0", .txt c!"0", .txt c!"0"]
  rotation : c.fill ≠ none → ∀ l, c.rotation = some l → ∃ l', r.rotation = some l' ∧ List.Forall₂ (fun e e' => ∃ x, e.float io = .ok x ∧ e'.float io = .ok x) l l'
  unrotated : c.fill ≠ none → c.rotation = none → r.rotation = none

/-- `r` is the same surface as `s`: number, type and coefficients, and no transform is left to apply. The boundary condition is left out. -/
def SameSurface (s r : Surface K) : Prop := r.id = s.id ∧ r.type = s.type ∧ r.coeffs = s.coeffs ∧ r.transform = none

end

end Csg.Spec
