import Verif.Spec.InputFile
import Verif.Spec.Whole

/-!
# Files that can be converted

Conditions on what an MCNP file says (Spec/InputFile.lean), and what the cells of the file are filled with.
-/

namespace Csg.Spec

section
variable {K : Type} [Field K]

/-- The universe a cell is in, the universe that fills it, and the words in the parentheses after it; the flag is for angles in degrees. -/
def CellEntry.uni (e : CellEntry K) : Option Str := e.params.findSome? fun | .uni v => some v | _ => none
def CellEntry.fill (e : CellEntry K) : Option Str := e.params.findSome? fun | .fill _ v _ => some v | _ => none
def CellEntry.moves (e : CellEntry K) : Option (Bool × List Str) := e.params.findSome? fun | .fill d _ (some t) => some (d, split t) | _ => none

/-- The importance of cell number `i`: given by the data card, if it has an entry for this cell, else by the cell card, else 1. -/
def FileImportance (io : NumIO K) (f : InputFile K) (i : Nat) (e : CellEntry K) (x : K) : Prop :=
  (∃ vs ∈ f.importances, vs[i]? = some x) ∨
  (∀ vs ∈ f.importances, vs[i]? = none) ∧ ((∃ v, .importance v ∈ e.params ∧ io.float v = .ok x) ∨ (∀ v, .importance v ∉ e.params) ∧ x = 1)

/-- The composition that a material card gives: each nuclide once, with the sum of its fractions. -/
structure CompositionOf (entries : List (Str × Str)) (fracs : List K) (comp : List (Str × K)) : Prop where
  once : (comp.map Prod.fst).Nodup
  nuclides : ∀ nuc, nuc ∈ comp.map Prod.fst ↔ ∃ e ∈ entries, nuclideOf e.1 = nuc
  fractions : ∀ nuc x, (nuc, x) ∈ comp → x = given nuc entries fracs

/-- The cell is filled as its card says, unless it is filled with a universe: with nothing, or with the substance of the material card that it names, with its density. The two arguments say what this means for a file:
the cell is void, and the cell has a material with this density and composition. -/
def FileMadeOf (f : InputFile K) (e : CellEntry K) (void : Prop) (has : K → List (Str × K) → Prop) : Prop :=
  e.fill = none → match e.content with
    | none => void
    | some (m, x) => ∃ n entries fracs comp comp', (n, entries, fracs) ∈ f.materials ∧ (n : Int) = m ∧ CompositionOf entries fracs comp ∧ SameSubstance comp comp' ∧ has x comp'

/-- The universe is part of the geometry: it is universe 0, or it fills a cell of a universe that is part of the geometry. -/
inductive FileUniverse (f : InputFile K) : Int → Prop
  | root : FileUniverse f 0
  | fill {e : CellEntry K} {u v : Int} {s : Str} : e ∈ f.cells → parseInt (e.uni.getD c!"0") = some u → FileUniverse f u → e.fill = some s → parseInt s = some v → FileUniverse f v

/-- The cell is in a universe that is part of the geometry. -/
def InFileGeometry (f : InputFile K) (e : CellEntry K) : Prop := ∃ u, parseInt (e.uni.getD c!"0") = some u ∧ FileUniverse f u

/-- A word of a geometry that can be converted: `#` with a cell number, the number of a surface or macrobody in the usual notation with or without sign, or a facet of a macrobody. Left out are the facets 2 and 3 of an RCC
(C15), and facets of a body whose number ends with that of another body. -/
def KnownEntry (f : InputFile K) (w : Str) : Prop :=
  (∃ n, w = refWord n) ∨
  (∃ s ∈ f.surfaces, w = intStr s.number ∨ w = '-' :: intStr s.number) ∨
  ∃ s ∈ f.surfaces, ∃ ty neg k, bodyType s.mn = some ty ∧ w = facetWord neg s.number k ∧ (1 ≤ k ∧ k ≤ facetCount ty) ∧ (ty = .macroRCC → k = 1) ∧
    ∀ m ∈ f.surfaces, (bodyType m.mn).isSome = true → intStr m.number <:+ intStr s.number → m.number = s.number

variable [LinearOrder K]

/-- A material card with fractions of atoms: nuclides and elements are decimal numbers, no nuclide is listed besides its element, and elements are in the table. -/
structure AtomCard (entries : List (Str × Str)) (fracs : List K) : Prop where
  nuclides : ∀ e ∈ entries, ∃ n : Nat, nuclideOf e.1 = natStr n
  apart : ∀ z, (∃ e ∈ entries, nuclideOf e.1 = natStr (1000 * z)) → natural z ≠ [] ∧ ∀ d ∈ natural z, ∀ e ∈ entries, nuclideOf e.1 ≠ natStr (d.nucid / 10000)
  positive : (∀ x ∈ fracs, 0 ≤ x) ∧ ∃ x ∈ fracs, 0 < x

/-- A file that can be converted. Surface numbers are distinct, positive and of less than 58 digits, cell numbers are distinct. Cones have both sheets, tori are proper, macrobodies are as the manual allows. Surfaces with a TR number name a TR
card; then they are macrobodies or quadrics with an equation other than that of `C03_refuted`. The words of the geometry name surfaces, facets or cells, and complements have no cycle. Cells with a material name a material card; these cards have positive
numbers of at most nine digits and give fractions of atoms. Fills with one entry in parentheses name a TR card, others have 3 or 12 numbers. The importance card has not more entries than there are cells. Cells with importance zero name no macrobodies, except
for their facets. -/
structure ConvertibleFile (io : NumIO K) (cosDeg sqrt : K → K) (rank : Int → Nat) (f : InputFile K) : Prop where
  numbers : (f.surfaces.map (·.number)).Nodup ∧ ∀ s ∈ f.surfaces, 0 < s.number ∧ s.number + 6 * f.surfaces.length < 10 ^ 58
  surfaces : ∀ s ∈ f.surfaces, (∃ m : Mn, s.mn = m.word ∧ (mcnpValue m s.values ⟨0, 0, 0⟩).isSome = true) ∨ (s.mn ∈ [c!"tx", c!"ty", c!"tz"] ∧ ∃ a, s.values[3]? = some a ∧ 0 < a) ∨
    ∃ ty, bodyType s.mn = some ty ∧ ProperBody ty s.values ∧ Roots sqrt ty s.values
  moved : ∀ s ∈ f.surfaces, ∀ n, s.tr = some n → n ∈ f.transforms.map Prod.fst ∧ (bodyType s.mn = none → ∃ m : Mn, s.mn = m.word ∧ ¬ XZOnly fun p => mcnpValue m s.values (f.place cosDeg s.tr p))
  cells : (f.cells.map (·.number)).Nodup ∧ f.materials.length + f.cells.length < 10 ^ 9
  words : ∀ c ∈ f.cells, ∀ w, Sym.atom w ∈ lexGeometry c.geometry → KnownEntry f w
  complements : ∀ c ∈ f.cells, ∀ w, Sym.atom w ∈ lexGeometry c.geometry → '#' ∈ w → ∃ n : Nat, ∃ c' ∈ f.cells, w = refWord n ∧ c'.number = n ∧ rank c'.number < rank c.number
  materials : ∀ c ∈ f.cells, ∀ m x, c.content = some (m, x) → ∃ n ∈ f.materials.map Prod.fst, (n : Int) = m
  cards : ∀ m ∈ f.materials, 0 < m.1 ∧ m.1 < 10 ^ 9 ∧ AtomCard m.2.1 m.2.2
  fills : ∀ c ∈ f.cells, ∀ d ws, c.moves = some (d, ws) → (∃ n ∈ f.transforms.map Prod.fst, ws = [natStr n]) ∨ (ws.length = 3 ∨ ws.length = 12) ∧ ∀ w ∈ ws, (∀ ch ∈ w, NumberChar ch) ∧ ∃ x, io.parse w = some x
  importances : ∀ vs ∈ f.importances, vs.length ≤ f.cells.length
  outside : ∀ (i : Nat) c, f.cells[i]? = some c → FileImportance io f i c 0 → ∀ w z, Sym.atom w ∈ lexGeometry c.geometry → parseInt w = some z → ∃ s ∈ f.surfaces, bodyType s.mn = none ∧ s.number = z.natAbs

/-- What OpenMC needs beyond this: nuclides of real elements with mass numbers below 1000, below 100 for the lightest elements; universes are numbers, some cell is in universe 0, which fills no cell, and no universe is in itself. -/
structure OpenmcFile (f : InputFile K) : Prop where
  nuclides : ∀ m ∈ f.materials, ∀ e ∈ m.2.1, ∃ z a, nuclideOf e.1 = natStr (1000 * z + a) ∧ 0 < z ∧ z ≤ 118 ∧ a < 1000 ∧ (z < 10 → a < 100)
  universes : ∀ c ∈ f.cells, (∃ u, parseInt (c.uni.getD c!"0") = some u) ∧ ∀ s, c.fill = some s → ∃ v, parseInt s = some v ∧ v ≠ 0
  root : ∃ c ∈ f.cells, parseInt (c.uni.getD c!"0") = some 0
  nested : ∃ depth : Int → Nat, ∀ c ∈ f.cells, ∀ u s v, parseInt (c.uni.getD c!"0") = some u → c.fill = some s → parseInt s = some v → depth v < depth u

/-- What the cell cards of Serpent, PHITS and MCNP need: cell numbers of at most 58 digits; numbers of universes of at most 60 characters, and in the parentheses after a fill too. -/
structure CardFile (f : InputFile K) : Prop where
  ids : ∀ c ∈ f.cells, |c.number| < 10 ^ 58
  universes : ∀ c ∈ f.cells, (∀ u, c.uni = some u → PlainNumber u ∧ u.length ≤ 60) ∧ ∀ v, c.fill = some v → PlainNumber v ∧ v.length ≤ 60
  moves : ∀ c ∈ f.cells, ∀ d ws, c.moves = some (d, ws) → ∀ w ∈ ws, w.length ≤ 60

/-- The equation is that of a cone along an axis, with both sheets. -/
def IsConeEquation (v : Point K → Option K) : Prop :=
  ∃ x y z t, (∀ p, v p = some ((p.y - y) ^ 2 + (p.z - z) ^ 2 - t * (p.x - x) ^ 2)) ∨ (∀ p, v p = some ((p.x - x) ^ 2 + (p.z - z) ^ 2 - t * (p.y - y) ^ 2)) ∨
    ∀ p, v p = some ((p.x - x) ^ 2 + (p.y - y) ^ 2 - t * (p.z - z) ^ 2)

/-- What FLUKA needs beyond `ConvertibleFile`, as in `FlukaSource`: no cones and no tori; macrobodies are not moved by a TR card, and other surfaces have points on different sides; each `#` without a number stands before a parenthesis;
cell numbers have at most nine characters; importances are zero or not tiny; the nuclides are known to FLUKA; the texts of densities have at most ten characters, and the fractions of a material, which are zero or not tiny, sum up to at most 10⁹. -/
structure FlukaFile (io : NumIO K) (cosDeg sqrt : K → K) (f : InputFile K) : Prop where
  surfaces : ∀ s ∈ f.surfaces, s.mn ∉ [c!"tx", c!"ty", c!"tz"] ∧ (∀ m : Mn, s.mn = m.word → ¬ IsConeEquation (mcnpValue m s.values)) ∧ ((bodyType s.mn).isSome = true → s.tr = none) ∧
    (bodyType s.mn = none → ∃ p q b, OnCardSide sqrt s.mn s.values (f.place cosDeg s.tr p) b ∧ ¬ OnCardSide sqrt s.mn s.values (f.place cosDeg s.tr q) b)
  hashes : ∀ c ∈ f.cells, ∀ a b, lexGeometry c.geometry = a ++ .no :: b → b.head? = some .lp
  ids : ∀ c ∈ f.cells, (intStr c.number).length ≤ 9
  importances : ∀ (i : Nat) c x, f.cells[i]? = some c → FileImportance io f i c x → x = 0 ∨ 1 / 10 ^ 40 ≤ x
  nuclides : ∀ m ∈ f.materials, ∀ e ∈ m.2.1, ∃ n, nuclideOf e.1 = natStr n ∧ (properName n).isSome
  densities : ∀ c ∈ f.cells, ∀ m x, c.content = some (m, x) → (io.render |x|).length ≤ 10
  fractions : ∀ m ∈ f.materials, ∀ comp, CompositionOf m.2.1 m.2.2 comp → (∀ e ∈ comp, e.2 = 0 ∨ 1 / 10 ^ 60 ≤ e.2) ∧ total comp ≤ 10 ^ 9

/-- What SCONE needs beyond `ConvertibleFile`, as in `SconeSource`, but for cones: surface numbers have less than 38 digits and cell numbers at most 48; no tori; the texts of densities are not longer than those of floating-point numbers;
the words of geometries have at most 40 characters; universes are numbers; fractions are positive, and if there are materials then some cell has one. -/
structure SconeFile (io : NumIO K) (f : InputFile K) : Prop where
  surfaces : ∀ s ∈ f.surfaces, s.mn ∉ [c!"tx", c!"ty", c!"tz"] ∧ s.number + 6 * f.surfaces.length < 10 ^ 38
  ids : ∀ c ∈ f.cells, |c.number| < 10 ^ 48
  densities : (io.render 0).length ≤ 24 ∧ ∀ c ∈ f.cells, ∀ m x, c.content = some (m, x) → (io.render x).length ≤ 24
  words : ∀ c ∈ f.cells, ∀ w, Sym.atom w ∈ lexGeometry c.geometry → w.length ≤ 40
  universes : ∀ c ∈ f.cells, (∃ u, parseInt (c.uni.getD c!"0") = some u ∧ |u| < 10 ^ 40) ∧ ∀ v, c.fill = some v → ∃ u, parseInt v = some u ∧ |u| < 10 ^ 40
  fractions : ∀ m ∈ f.materials, ∀ comp, CompositionOf m.2.1 m.2.2 comp → ∀ e ∈ comp, 0 < e.2
  used : f.materials = [] ∨ ∃ c ∈ f.cells, c.content ≠ none

end

end Csg.Spec
