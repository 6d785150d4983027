import Verif.Model.Material
import Verif.Spec.Codes
import Verif.Spec.MaterialText
import Verif.Spec.SurfaceCodes

/-!
# How Serpent reads an input file

Written down from the Serpent manual: `%` begins a comment that ends with the line, the rest is words, and a card begins at a word that is the name of a card.
-/

namespace Csg.Spec

/-- The text without comments, which begin with `mark` and end before the end of the line. The flag says whether the text begins inside a comment. -/
def uncomment (mark : Char) : Bool → Str → Str
  | _, [] => []
  | true, c :: cs => if c = '\n' then c :: uncomment mark false cs else uncomment mark true cs
  | false, c :: cs => if c = mark then uncomment mark true cs else c :: uncomment mark false cs

/-- Words cut into cards before each word that is the name of a card; first the words before the first card. -/
def cutCards (key : Str → Bool) : List Str → List Str × List (List Str)
  | [] => ([], [])
  | w :: ws => if key w then ([], (w :: (cutCards key ws).1) :: (cutCards key ws).2) else (w :: (cutCards key ws).1, (cutCards key ws).2)

/-- The names of Serpent cards. -/
def serpentNames : List Str := [c!"branch", c!"casematrix", c!"cell", c!"coef", c!"cmap", c!"datamesh", c!"dep", c!"det", c!"disp", c!"div", c!"dtrans", c!"ene", c!"ftrans", c!"fun", c!"hisv",
  c!"ifc", c!"include", c!"lat", c!"mat", c!"mesh", c!"mflow", c!"mix", c!"nest", c!"particle", c!"pbed", c!"phb", c!"pin", c!"plot", c!"rep", c!"sample", c!"sens", c!"set", c!"solid", c!"src", c!"strans",
  c!"strawplot", c!"surf", c!"therm", c!"thermstoch", c!"tme", c!"trans", c!"transa", c!"transb", c!"transmix", c!"transv", c!"umsh", c!"usym", c!"utrans", c!"wwgen", c!"wwin"]

/-- The cards of a Serpent file. -/
def serpentCards (text : Str) : List Str × List (List Str) := cutCards (fun w => serpentNames.contains w) (split (uncomment '%' false text))

/-- A word that is neither the name of a card nor contains the mark of a comment. -/
def SerpentOrdinary (w : Str) : Prop := w ∉ serpentNames ∧ '%' ∉ w

section
variable {K : Type}

/-- What a Serpent cell card says about the content of a cell. -/
def serpentContent (c : Cell K) : List Str :=
  match c.fill with
  | some f => [c!"fill", f]
  | none => if c.material = .int 0 then [c!"void"] else [c.material.text]

/-- The card describes the surface: the number, a keyword and numbers which Serpent reads as the same half-spaces. -/
def SerpentSurfaceSays [Field K] [LinearOrder K] (sqrt : K → K) (read : Str → Option K) (s : Surface K) (card : List Str) : Prop :=
  ∃ kw ws ns, card = c!"surf" :: intStr s.id :: kw :: ws ∧ ws.map read = ns.map some ∧ ∀ p, ∃ d, serpentSide sqrt kw ns p = some d ∧ side sqrt s.type s.coeffs p = some d

/-- The cards describe the cell: number, universe, content and region, and a transform of the fill if it has an offset or a rotation. -/
def SerpentCellSays [DecidableEq K] (c : Cell K) (offs rots : List Str) (cards : List (List Str)) : Prop :=
  ∃ g trans, cards = ([c!"cell", intStr c.id, c.uni.getD c!"0"] ++ serpentContent c ++ g) :: trans ∧
    (Legal (itemSyms c.interpreted) → Legal (g.flatMap lexSerpent) ∧ ∀ σ : Str → Prop, Holds σ (g.flatMap lexSerpent) ↔ Holds σ (itemSyms c.interpreted)) ∧
    trans = if c.fill = none ∨ (c.offset = none ∧ c.rotation = none) then []
      else [[c!"trans", c!"f", intStr c.id] ++ (if c.offset = none then [c!"0", c!"0", c!"0"] else offs) ++
        (if c.rotation = none then [c!"1", c!"0", c!"0", c!"0", c!"1", c!"0", c!"0", c!"0", c!"1"] else rots) ++ [c!"1"]]

/-- The card describes the material: its number as the name, the density, and the nuclides with their fractions. -/
def SerpentMaterialSays (io : NumIO K) (approx : K → K) (m : Material K) (card : List Str) : Prop :=
  ∃ d fs, card = [c!"mat", m.number, d] ++ (m.composition.zip fs).flatMap (fun e => [e.1.1, e.2]) ∧ io.parse d = some m.density ∧
    List.Forall₂ (fun e f => io.parse f = some (approx e.2)) m.composition fs

/-- A deck that can be written for Serpent. The texts of an offset and a rotation are `offs c` and `rots c`. -/
structure SerpentDeck [Field K] [LinearOrder K] (read : Str → Option K) (io : NumIO K) (fixed sci : K → Str) (approx : K → K) (offs rots : Cell K → List Str) (cs : List (Cell K))
    (ss : List (Surface K)) (ms : List (Str × Material K)) : Prop where
  /-- The surfaces have a form of Serpent, and their coefficients are printed such that Serpent reads them. -/
  surfaces : ∀ s ∈ ss, WellFormed s ∧ (IsQuadric s.type ∨ IsTorus s.type) ∧ (∀ x ∈ s.coeffs, Prints read io.render x) ∧
    (IsCone s.type ∨ IsTorus s.type → ∀ x ∈ s.coeffs, Prints read fixed x)
  cells : ∀ c ∈ cs, Writable io SurfaceWord c ∧ WritableParams io c (offs c) (rots c)
  /-- Names of universes and materials and the texts of transforms are ordinary words. -/
  names : ∀ c ∈ cs, SerpentOrdinary c.material.text ∧ (∀ u, c.uni = some u → SerpentOrdinary u) ∧ (∀ f, c.fill = some f → SerpentOrdinary f) ∧ ∀ w ∈ offs c, SerpentOrdinary w
  /-- No material has a name that means something else in a cell card. -/
  contents : ∀ c ∈ cs, c.material.text ∉ [c!"fill", c!"void", c!"outside"]
  materials : ∀ m ∈ ms, PrintableSerpent io sci approx m.2

end

end Csg.Spec
