import Verif.Spec.ConvertibleFile

/-!
# The surfaces around the outside world

Cells with importance zero in an MCNP file (Spec/ConvertibleFile.lean), and the surfaces that their descriptions name.
-/

namespace Csg.Spec

section
variable {K : Type} [Field K]

/-- A cell with importance zero names the surface with this number. -/
def NamedOutside (io : NumIO K) (f : InputFile K) (n : Int) : Prop :=
  ∃ (i : Nat) (c : CellEntry K) (w : Str) (z : Int), f.cells[i]? = some c ∧ FileImportance io f i c 0 ∧ Sym.atom w ∈ lexGeometry c.geometry ∧ parseInt w = some z ∧ n = z.natAbs

/-- A cell with importance zero names the surface with this number, and not directly after an opening parenthesis. -/
def NamedApart (io : NumIO K) (f : InputFile K) (n : Int) : Prop :=
  ∃ (i : Nat) (c : CellEntry K) (a b : List (Sym Str)) (w : Str) (z : Int), f.cells[i]? = some c ∧ FileImportance io f i c 0 ∧ lexGeometry c.geometry = a ++ .atom w :: b ∧ a.getLast? ≠ some .lp ∧
    parseInt w = some z ∧ n = z.natAbs

/-- The values are proportional to the importances of the cells, up to the limit of 100000: they are in the same order, and those below the limit have the same ratios. -/
structure ProportionalTo [LinearOrder K] (io : NumIO K) (f : InputFile K) (value : Nat → K) : Prop where
  range : ∀ (i : Nat) c x, f.cells[i]? = some c → FileImportance io f i c x → 0 < x → 0 < value i ∧ value i ≤ 100000
  ratio : ∀ (i j : Nat) c c' x y, f.cells[i]? = some c → f.cells[j]? = some c' → FileImportance io f i c x → FileImportance io f j c' y → 0 < x → 0 < y →
    value i < 100000 → value j < 100000 → value i * y = value j * x
  order : ∀ (i j : Nat) c c' x y, f.cells[i]? = some c → f.cells[j]? = some c' → FileImportance io f i c x → FileImportance io f j c' y → 0 < x → x ≤ y → value i ≤ value j

end

end Csg.Spec
