import Verif.Spec.Nested
import Verif.Spec.ConvertibleFile

/-!
# Points in nested universes of an MCNP file

The search of Spec/Nested.lean in what the cards of an MCNP file say.
-/

namespace Csg.Spec

section
variable {K : Type} [Field K]

/-- The universe of a cell. A negative number has the same meaning as a positive one, the sign tells that the cell is not cut by the cell it is in. -/
def fileUniverse (c : CellEntry K) : Option Nat := (parseInt (c.uni.getD c!"0")).map Int.natAbs

/-- The universe that fills a cell. -/
def fileFill (c : CellEntry K) : Option Nat := c.fill.bind fun v => (parseInt v).map Int.natAbs

/-- The coordinates of a point in the universe that fills the cell: without parentheses after the fill those of the cell, else by the TR card with the number in parentheses, or by 3 or 12 numbers in parentheses, as on a TR card. -/
def FileMoves (io : NumIO K) (cosDeg : K → K) (f : InputFile K) (c : CellEntry K) (p q : Point K) : Prop :=
  match c.moves with
  | none => q = p
  | some (_, [w]) => ∃ n degrees values, w = natStr n ∧ (n, degrees, values) ∈ f.transforms ∧ q = trPoint cosDeg degrees values p
  | some (degrees, ws) => ∃ values, List.Forall₂ (fun w x => io.parse w = some x) ws values ∧ (values.length = 3 ∨ values.length = 12) ∧ q = trPoint cosDeg degrees values p

variable [LinearOrder K]

/-- The point lies in this cell of the MCNP file, which is not filled. -/
def FileFinds (io : NumIO K) (cosDeg sqrt : K → K) (f : InputFile K) (p : Point K) (c : CellEntry K) : Prop :=
  Finds f.cells (fun c u => fileUniverse c = some u) fileFill (fun c => InFileCell cosDeg sqrt f c.number) (FileMoves io cosDeg f) 0 p c

/-- TR cards have positive numbers. -/
def NumberedTransforms (f : InputFile K) : Prop := ∀ t ∈ f.transforms, 0 < t.1

/-- Universes are numbers without sign and without leading zeros. -/
def PlainFile (f : InputFile K) : Prop := ∀ c ∈ f.cells, (∃ n, c.uni.getD c!"0" = natStr n) ∧ ∀ v, c.fill = some v → ∃ n, v = natStr n

/-- Universes are numbers without sign. -/
def UnsignedFile (f : InputFile K) : Prop := ∀ c ∈ f.cells, (∀ u, parseInt (c.uni.getD c!"0") = some u → 0 ≤ u) ∧ ∀ v n, c.fill = some v → parseInt v = some n → 0 ≤ n

/-- The universes that fill cells have cells, and are not universe 0. -/
def DefinedFile (f : InputFile K) : Prop := ∀ c ∈ f.cells, ∀ v, fileFill c = some v → v ≠ 0 ∧ ∃ x ∈ f.cells, fileUniverse x = some v

/-- No fill is rotated: the coordinates in the universe are those of the cell but for a displacement. -/
def UnrotatedFile (io : NumIO K) (cosDeg : K → K) (f : InputFile K) : Prop := ∀ c ∈ f.cells, c.fill ≠ none → ∃ x y z, ∀ p q, FileMoves io cosDeg f c p q ↔ q = ⟨p.x - x, p.y - y, p.z - z⟩

/-- No fill is displaced or rotated. -/
def StillFile (f : InputFile K) : Prop := ∀ c ∈ f.cells, c.moves = none

end

end Csg.Spec
