import Verif.Spec.NestedFile

/-!
# Files that are converted again

The program is given the MCNP file that it wrote, and writes MCNP again, any number of times.
-/

namespace Csg.Spec

section
variable {K : Type} [Field K] [LinearOrder K]

/-- The program finishes on the text and writes this MCNP file. -/
def WritesMcnp (e : Env K) (cosDeg : K → K) (quick : Bool) (text out : Str) : Prop := ∃ fuel₀, ∀ fuel ≥ fuel₀, Converts { e with fuel := fuel } cosDeg quick text .mcnp (.text out)

/-- The file that is left when the program is run `n` times, first on `text` and then on what it wrote itself. -/
inductive Again (e : Env K) (cosDeg : K → K) (quick : Bool) (text : Str) : Nat → Str → Prop
  | start : Again e cosDeg quick text 0 text
  | next {n : Nat} {mid out : Str} : Again e cosDeg quick text n mid → WritesMcnp e cosDeg quick mid out → Again e cosDeg quick text (n + 1) out

/-- The cell of the second deck has the number and, unless it is filled, the density and substance of the cell of the first deck. -/
def SameContent (d d2 : Deck K) (c c2 : Cell K) : Prop :=
  c2.id = c.id ∧ MadeOf d c (c2.material.text = c!"0")
    fun density comp => c2.material.text ≠ c!"0" ∧ c2.density = density ∧ ∃ m2, d2.materials.lookup c2.material.text = some m2 ∧ m2.composition = comp

/-- The decks have the same cells in the same order, with the same universes, points, densities and substances, and the same coordinates in the universes that fill them. -/
def SameCells (io : NumIO K) (sqrt : K → K) (d d2 : Deck K) : Prop :=
  List.Forall₂ (fun c c2 => c2.fill = c.fill ∧ c2.uni = c.uni ∧ (c.fill ≠ none → ∀ p q, DeckMoves io d c p q ↔ DeckMoves io d2 c2 p q) ∧ (∀ p, InDeckCell sqrt d2 c2.id p ↔ InDeckCell sqrt d c.id p) ∧
    SameContent d d2 c c2) d.cells d2.cells

/-- The numbers of surfaces, and those of materials and cells together, leave room for the surfaces and materials that the program adds. -/
def RoomyFile (f : InputFile K) : Prop :=
  (∀ s ∈ f.surfaces, 7 * (s.number + 6 * f.surfaces.length) < 10 ^ 58) ∧ 2 * (f.materials.length + f.cells.length) < 10 ^ 9

end

end Csg.Spec
