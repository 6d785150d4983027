import Verif.Spec.Reordered

/-!
# Files with other numbers
-/

namespace Csg.Spec

/-- New numbers for surfaces, cells and materials. -/
structure Renumbering where
  surface : Int → Int
  cell : Int → Int
  material : Int → Int

/-- Different things have different new numbers, and the numbers of surfaces stay positive. -/
structure Renumbering.Proper (r : Renumbering) : Prop where
  surfaces : Function.Injective r.surface
  cells : Function.Injective r.cell
  materials : Function.Injective r.material
  positive : ∀ n, 0 < n → 0 < r.surface n

/-- The words of a geometry that say the same before and after: a surface number with or without sign, a facet, or `#` with a cell number. -/
inductive RenumberedWord (r : Renumbering) : Str → Str → Prop
  | pos {n : Int} : 0 < n → RenumberedWord r (intStr n) (intStr (r.surface n))
  | neg {n : Int} : 0 < n → RenumberedWord r ('-' :: intStr n) ('-' :: intStr (r.surface n))
  | facet {n : Int} (negative : Bool) (k : Nat) : 0 < n → RenumberedWord r (facetWord negative n k) (facetWord negative (r.surface n) k)
  | ref {n n' : Nat} : r.cell n = n' → RenumberedWord r (refWord n) (refWord n')

/-- The symbols of a geometry that say the same before and after. Parentheses and operators are the same. -/
inductive RenumberedSym (r : Renumbering) : Sym Str → Sym Str → Prop
  | lp : RenumberedSym r .lp .lp
  | rp : RenumberedSym r .rp .rp
  | un : RenumberedSym r .un .un
  | no : RenumberedSym r .no .no
  | atom {w w' : Str} : RenumberedWord r w w' → RenumberedSym r (.atom w) (.atom w')

variable {K : Type}

/-- The cell card `e'` says what `e` says, with the new numbers of the cell, of the material and of the surfaces and cells in the geometry. -/
structure RenumberedCell (r : Renumbering) (e e' : CellEntry K) : Prop where
  number : e'.number = r.cell e.number
  content : e'.content = e.content.map fun x => (r.material x.1, x.2)
  geometry : List.Forall₂ (RenumberedSym r) (lexGeometry e.geometry) (lexGeometry e'.geometry)
  params : e'.params = e.params

/-- The two files say the same with other numbers of surfaces, cells and materials. The numbers of TR cards and of universes are the same. -/
structure Renumbered (r : Renumbering) (f f' : InputFile K) : Prop where
  proper : r.Proper
  cells : List.Forall₂ (RenumberedCell r) f.cells f'.cells
  surfaces : List.Forall₂ (fun e e' => e' = { e with number := r.surface e.number }) f.surfaces f'.surfaces
  materials : List.Forall₂ (fun m m' => (m'.1 : Int) = r.material m.1 ∧ m'.2 = m.2) f.materials f'.materials
  transforms : f'.transforms = f.transforms
  importances : f'.importances = f.importances

end Csg.Spec
