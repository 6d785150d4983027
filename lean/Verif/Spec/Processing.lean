import Verif.Model.Process
import Verif.Spec.Dedupe
import Verif.Spec.Transform

/-!
# What processing has to keep

The deck as it is read: cells are descriptions over surfaces and macrobodies, some of which name a TR card.
-/

namespace Csg.Spec

section
variable {K : Type} [Field K]

/-- The point in the system of coordinates in which a surface is given: that of its TR card, if it names one. -/
def placeBy (trs : List (Str × Transform K)) (name : Option Str) (p : Point K) : Point K :=
  match name with
  | none => p
  | some n => match trs.lookup n with
    | some t => pullback t p
    | none => p

variable [LinearOrder K]

/-- A deck for which processing keeps the regions. Surface numbers are distinct and positive, and the counter is not below them. Macrobodies are as the manual allows. All other surfaces have the right
number of coefficients. A surface that names a TR card names one of the deck, and is then a macrobody or a quadric with an equation other than that of `C03_refuted`, no
torus (`C02_torus_fails`) and no one-sheet cone. The words of the cells are as in C17, and complements have no cycle. -/
structure ProperDeck (sqrt : K → K) (rank : Int → Nat) (d : Deck K) : Prop where
  ids : (d.surfaces.map Surface.id).Nodup
  range : ∀ s ∈ d.surfaces, 0 < s.id ∧ s.id ≤ d.last
  last : 0 ≤ d.last
  bodies : ∀ s ∈ d.surfaces, s.isMacrobody = true → ProperBody s.type s.coeffs ∧ Roots sqrt s.type s.coeffs
  shape : ∀ s ∈ d.surfaces, s.isMacrobody = false → WellFormed s ∧ (IsQuadric s.type ∨ ProperTorus s)
  moved : ∀ s ∈ d.surfaces, ∀ n, s.transform = some n → ∃ t, d.transforms.lookup n = some t ∧
    (s.isMacrobody = false → IsQuadric s.type ∧ TwoSheet s ∧ ¬ XZOnly (fun p => value s.type s.coeffs (pullback t p)))
  cells : ∀ c ∈ d.cells, ReadCell c ∧ ∀ w, Sym.atom w ∈ tokenSyms c.text → KnownWord d.surfaces w
  complements : Acyclic rank d.cells

/-- The point lies in the cell with this description, over surfaces in the global system of coordinates. -/
def InCell (sqrt : K → K) (surfs : List (Surface K)) (is : List Item) (p : Point K) : Prop :=
  Holds (wordSense (surfaceSense sqrt (fun _ q => q) surfs p)) (itemSyms is)

end

end Csg.Spec
