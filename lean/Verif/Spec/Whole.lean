import Verif.Spec.OpenmcFile
import Verif.Spec.CellBack
import Verif.Spec.Substance
import Verif.Spec.Fluka
import Verif.Props.Success

/-!
# Decks that can be converted

Conditions on the deck that is read from a file, before it is processed.
-/

namespace Csg.Spec

section
variable {K : Type} [Field K] [LinearOrder K]

/-- The numbers of a TR card. -/
def trNumbers (t : Transform K) : List K := [t.shift.x, t.shift.y, t.shift.z, t.v1.x, t.v1.y, t.v1.z, t.v2.x, t.v2.y, t.v2.z, t.v3.x, t.v3.y, t.v3.z]

/-- A deck that can be processed. It is as in C84, cones have both sheets, and surface numbers have less than 58 digits. Materials in use have a card; the cards have positive numbers
of at most nine digits and give fractions of atoms; materials and cells are less than 10⁹. The TR cards that fills name are there. If there are data cards on importances there is one for neutrons, with numbers only, and not more than there are cells.
Cells with importance zero name faces of macrobodies, but no macrobodies. -/
structure Convertible (io : NumIO K) (sqrt : K → K) (rank : Int → Nat) (d : Deck K) : Prop where
  proper : ProperDeck sqrt rank d
  sheets : ∀ s ∈ d.surfaces, TwoSheet s
  size : d.last + 6 * d.surfaces.length < 10 ^ 58
  defined : Defined d.materials d.cells
  numbered : ∀ m ∈ d.materials, ∃ k : Nat, 0 < k ∧ k < 10 ^ 9 ∧ m.1 = natStr k
  few : d.materials.length + d.cells.length < 10 ^ 9
  atoms : ∀ m ∈ d.materials, AtomFractions m.2.composition
  fills : ∀ c ∈ d.cells, c.trId ≠ c!"0" → ∃ t, d.transforms.lookup c.trId = some t
  importances : d.importances = [] ∨ ∃ t, d.importances.lookup .neutron = some t ∧ (split t).length ≤ d.cells.length ∧ ∀ w ∈ split t, ∃ x, io.float w = .ok x
  outside : ∀ (i : Nat) c, d.cells[i]? = some c → ImportanceIs io d i c 0 → NumbersPlain d.surfaces c.text

/-- What OpenMC needs beyond this: nuclides of real elements with mass numbers below 1000, below 100 for the lightest elements; offsets and rotations on cell cards have three and nine numbers; universes are numbers, some
cell is in universe 0, which fills no cell, and no universe is in itself. -/
structure OpenmcInput (io : NumIO K) (d : Deck K) : Prop where
  zero : io.parse c!"0" = some 0
  nuclides : ∀ m ∈ d.materials, ∀ e ∈ m.2.composition, ∃ z a, e.1 = natStr (1000 * z + a) ∧ 0 < z ∧ z ≤ 118 ∧ a < 1000 ∧ (z < 10 → a < 100)
  transforms : ∀ c ∈ d.cells, c.trId = c!"0" → (∀ l, c.offset = some l → l.length = 3 ∧ ∀ e ∈ l, EntryPrints io e) ∧ ∀ l, c.rotation = some l → l.length = 9 ∧ ∀ e ∈ l, EntryPrints io e
  universes : (∀ c ∈ d.cells, (∃ u, parseInt (c.uni.getD c!"0") = some u) ∧ ∀ s, c.fill = some s → ∃ f, parseInt s = some f ∧ f ≠ 0) ∧
    (∃ c ∈ d.cells, parseInt (c.uni.getD c!"0") = some 0) ∧
    ∃ depth : Int → Nat, ∀ c ∈ d.cells, ∀ u s f, parseInt (c.uni.getD c!"0") = some u → c.fill = some s → parseInt s = some f → depth f < depth u

/-- What the cell cards of Serpent, PHITS and MCNP need: cell numbers of at most 58 digits; universes are plain numbers; offsets on cell cards have three entries made of characters of numbers, and rotations nine numbers. -/
structure CardInput (io : NumIO K) (d : Deck K) : Prop where
  ids : ∀ c ∈ d.cells, |c.id| < 10 ^ 58
  universes : ∀ c ∈ d.cells, (∀ u, c.uni = some u → PlainNumber u ∧ u.length ≤ 60) ∧ ∀ f, c.fill = some f → PlainNumber f ∧ f.length ≤ 60
  transforms : ∀ c ∈ d.cells, c.trId = c!"0" → (∀ l, c.offset = some l → l.length = 3 ∧ ∀ e ∈ l, e.text io ≠ [] ∧ (e.text io).length ≤ 60 ∧ ∀ ch ∈ e.text io, NumberChar ch) ∧
    ∀ l, c.rotation = some l → l.length = 9 ∧ ∀ e ∈ l, ∃ x, entryValue io e = some x

/-- The texts of the densities and importances of the input, and of the numbers in fills and on TR cards, are not longer than those of floating-point numbers. -/
structure ShortCells (io : NumIO K) (d : Deck K) : Prop where
  densities : ∀ c ∈ d.cells, (io.render c.density).length ≤ 24
  importances : ∀ (i : Nat) c x, d.cells[i]? = some c → ImportanceIs io d i c x → (io.render x).length ≤ 24
  fills : ∀ c ∈ d.cells, ∀ l, c.offset = some l ∨ c.rotation = some l → ∀ e ∈ l, ∀ x, entryValue io e = some x → (io.render x).length ≤ 24
  cards : ∀ t ∈ d.transforms, ∀ x ∈ trNumbers t.2, (io.render x).length ≤ 24

/-- The same for the numbers on surface cards of a deck. -/
def ShortSurfaces (io : NumIO K) (d : Deck K) : Prop := ∀ s ∈ d.surfaces, ∀ x ∈ s.coeffs, (io.render x).length ≤ 24

/-- The numbers on surface cards of a deck are printed such that another code reads them. -/
def PrintedSurfaces (read : Str → Option K) (io : NumIO K) (d : Deck K) : Prop := ∀ s ∈ d.surfaces, ∀ x ∈ s.coeffs, Prints read io.render x

/-- What FLUKA needs beyond `Convertible`: no cones and no tori; macrobodies are not moved by a TR card, and other surfaces have points on different sides; each `#` without a number stands before a parenthesis;
cell numbers have at most nine characters; importances are zero or not tiny; the nuclides are known to FLUKA; the texts of densities have at most ten characters, and the fractions of a material, which are zero or not tiny, sum up to at most 10⁹. -/
structure FlukaSource (io : NumIO K) (sqrt : K → K) (d : Deck K) : Prop where
  surfaces : ∀ s ∈ d.surfaces, ¬ IsCone s.type ∧ ¬ IsTorus s.type ∧ (s.isMacrobody = true → s.transform = none) ∧
    (s.isMacrobody = false → ∃ p q b, OnSide sqrt s (placeBy d.transforms s.transform p) b ∧ ¬ OnSide sqrt s (placeBy d.transforms s.transform q) b)
  hashes : ∀ c ∈ d.cells, HashOpen c.text
  ids : ∀ c ∈ d.cells, (intStr c.id).length ≤ 9
  importances : ∀ (i : Nat) c x, d.cells[i]? = some c → ImportanceIs io d i c x → x = 0 ∨ 1 / 10 ^ 40 ≤ x
  nuclides : ∀ m ∈ d.materials, ∀ e ∈ m.2.composition, ∃ n, e.1 = natStr n ∧ (properName n).isSome
  densities : ∀ c ∈ d.cells, (io.render |c.density|).length ≤ 10
  fractions : ∀ m ∈ d.materials, ∀ e ∈ m.2.composition, e.2 = 0 ∨ 1 / 10 ^ 60 ≤ e.2
  totals : ∀ m ∈ d.materials, total m.2.composition ≤ 10 ^ 9

/-- What SCONE needs beyond `Convertible`: surface numbers have less than 38 digits and cell numbers at most 48; no tori; coefficients of cones are printed such that SCONE reads them, and the angle of the cone is right;
the texts of densities are not longer than those of floating-point numbers; the words of descriptions have at most 40 characters; universes are numbers; fractions are positive, and if there are materials then some cell has one. -/
structure SconeSource (io : NumIO K) (sqrt degAtan tanSq : K → K) (read : Str → Option K) (fixed : K → Str) (d : Deck K) : Prop where
  size : d.last + 6 * d.surfaces.length < 10 ^ 38
  surfaces : ∀ s ∈ d.surfaces, ¬ IsTorus s.type ∧
    (IsCone s.type → (∀ x ∈ s.coeffs, Prints read fixed x) ∧ ∀ t, s.coeffs[3]? = some t → 0 ≤ t ∧ Prints read io.render (degAtan (sqrt t)) ∧ tanSq (degAtan (sqrt t)) = t)
  ids : ∀ c ∈ d.cells, |c.id| < 10 ^ 48
  densities : ∀ c ∈ d.cells, (io.render c.density).length ≤ 24
  words : ∀ c ∈ d.cells, ∀ w ∈ c.text, w.length ≤ 40
  universes : ∀ c ∈ d.cells, (∃ u, parseInt (c.uni.getD c!"0") = some u ∧ |u| < 10 ^ 40) ∧ ∀ f, c.fill = some f → ∃ u, parseInt f = some u ∧ |u| < 10 ^ 40
  fractions : ∀ m ∈ d.materials, ∀ e ∈ m.2.composition, 0 < e.2
  used : d.materials = [] ∨ ∃ c ∈ d.cells, c.material ≠ .int 0

end

end Csg.Spec
