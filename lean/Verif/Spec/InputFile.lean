import Verif.Spec.Blocks
import Verif.Spec.Parameters
import Verif.Spec.DataCards
import Verif.Spec.PhitsFile
import Verif.Spec.Processing

/-!
# An MCNP input file

The lines of the file, the cards they form, what the cards say, and the points of the cells, after the MCNP manual. From the model only records, `split`, `natStr`
and the reading of numbers are used.
-/

namespace Csg.Spec

/-- A line without its comment. -/
def codeOf (l : Str) : Str := l.takeWhile (· ≠ '$')

/-- The text of a card: its lines without comments. -/
def cardText (g : List Str) : Str := g.flatMap codeOf

/-- The lines of a card: the first does not begin with five blanks, the others do. Each line has something before the comment. -/
def CardOf (g : List Str) : Prop :=
  ∃ first more, g = first :: more ∧ ¬ FiveBlanks first ∧ (∀ l ∈ more, FiveBlanks l) ∧ ∀ l ∈ g, ∃ ch ∈ codeOf l, isSpace ch = false

/-- The text, in lower case, is a title line, the cards of the cells, a blank line, the cards of the surfaces, a blank line and the cards of the data block. Comment lines
can stand anywhere after the title; they are the lines with a `c` in the first column. There is no message block. -/
structure Layout (text title : Str) (cells surfs data : List (List Str)) : Prop where
  lines : ∃ body blank₁ blank₂, text.map Char.toLower = (title :: body).flatten ∧ (∀ l ∈ title :: body, ∃ t, '\n' ∉ t ∧ l = t ++ c!"\n") ∧
    (∀ l ∈ body, CommentLine l ↔ l.head? = some 'c') ∧
    body.filter (fun l => l.head? ≠ some 'c') = cells.flatten ++ blank₁ :: (surfs.flatten ++ blank₂ :: data.flatten) ∧ BlankLine blank₁ ∧ BlankLine blank₂
  noMessage : ∀ a b, title ≠ a ++ c!"message" ++ b
  cards : ∀ g ∈ cells ++ surfs, CardOf g
  dataCards : DataCards data

/-- What a cell card says: number, material and density unless the cell is empty, geometry, parameters. -/
structure CellEntry (K : Type) where
  number : Int
  content : Option (Int × K)
  geometry : Str
  params : List Param
  deriving DecidableEq

/-- What a surface card says: number, number of the TR card, mnemonic, entries. -/
structure SurfaceEntry (K : Type) where
  number : Int
  tr : Option Nat
  mn : Str
  values : List K
  deriving DecidableEq

/-- What a card of the data block says. -/
inductive DataEntry (K : Type)
  | material (number : Nat) (entries : List (Str × Str)) (fractions : List K)
  | transform (number : Nat) (degrees : Bool) (values : List K)
  | importance (values : List K)
  | other
  deriving DecidableEq

/-- What the file says. -/
structure InputFile (K : Type) where
  cells : List (CellEntry K)
  surfaces : List (SurfaceEntry K)
  data : List (DataEntry K)

section
variable {K : Type}

/-- Materials, transforms and importances of the data block. -/
def InputFile.materials (f : InputFile K) : List (Nat × List (Str × Str) × List K) :=
  f.data.filterMap fun | .material n e x => some (n, e, x) | _ => none
def InputFile.transforms (f : InputFile K) : List (Nat × Bool × List K) :=
  f.data.filterMap fun | .transform n d v => some (n, d, v) | _ => none
def InputFile.importances (f : InputFile K) : List (List K) :=
  f.data.filterMap fun | .importance v => some v | _ => none

variable [Field K]

/-- The text is a card for this cell. The part before the parameters has none of the letters with which parameters begin, the header no character with a meaning in geometry. The
geometry is an expression. The numbers in the parameters can be read. -/
structure CellSays (io : NumIO K) (text : Str) (e : CellEntry K) : Prop where
  parts : ∃ header number material density, ∃ l : List (Param × Str × Str), text = header ++ ' ' :: (e.geometry ++ paramListText l) ∧ (l = [] ∨ IsParamList l) ∧ e.params = l.map Prod.fst ∧
    split header = number :: material :: density.toList ∧ parseInt number = some e.number ∧
    (match e.content with
      | none => parseInt material = some 0 ∧ density = none
      | some (m, x) => parseInt material = some m ∧ 0 < m ∧ ∃ w, density = some w ∧ fortranNumber io w = .ok x) ∧
    (∀ c ∈ header, c ∉ ['(', ')', ':', '+']) ∧ ∀ c ∈ header ++ e.geometry, c ∉ ['u', 'f', 'i', 'v', 't', '*', '$']
  legal : Legal (lexGeometry e.geometry)
  importance : ∀ v, .importance v ∈ e.params → ∃ x, io.float v = .ok x
  angles : ∀ v t, .fill true v (some t) ∈ e.params → ∀ w ∈ split t, ∃ x, io.float w = .ok x

/-- The macrobody of a mnemonic. -/
def bodyType (mn : Str) : Option SType :=
  if mn = c!"rpp" then some .macroRPP else if mn = c!"box" then some .macroBOX else if mn = c!"rcc" then some .macroRCC else none

/-- The number of entries suits the mnemonic. The sheet selector of a cone is not 0. A BOX with edges along the three axes, in this order, has edges in positive directions (see C13). -/
def EntriesSuit [LinearOrder K] (mn : Str) (vs : List K) : Prop :=
  (∃ m : Mn, mn = m.word ∧ (mcnpValue m vs ⟨0, 0, 0⟩).isSome = true) ∨
  (∃ m : Mn, mn = m.word ∧ ∃ a b c w, mcnpCone m vs ⟨0, 0, 0⟩ = some (a, b, c, w) ∧ w ≠ 0) ∨
  (mn ∈ [c!"tx", c!"ty", c!"tz"] ∧ vs.length = 6) ∨
  (mn = c!"rpp" ∧ vs.length = 6) ∨
  (mn = c!"rcc" ∧ vs.length = 7) ∨
  (mn = c!"box" ∧ ∃ x y z a1 b1 c1 a2 b2 c2 a3 b3 c3, vs = [x, y, z, a1, b1, c1, a2, b2, c2, a3, b3, c3] ∧
    (b1 = 0 → c1 = 0 → a2 = 0 → c2 = 0 → a3 = 0 → b3 = 0 → 0 < a1 ∧ 0 < b2 ∧ 0 < c3))

/-- The surface given by points, as a card with coefficients.
* The plane through three points that are not on a line. Its coefficients `A, B, C, D` are scaled to have a 1 in place of the last that is not 0, which gives the sense of the manual: the origin is on the negative side, see `PlaneSense`.
* The plane, cylinder or cone around the y or z axis through two circles, each with its place on the axis and its radius. The radius of a cone at place `u` is `r₁ + k (u - a₁)`, and the cone has the sheet of the two circles.
Surfaces around the x axis are left out (see C07). -/
inductive ByPoints [LinearOrder K] : Str → List K → Str → List K → Prop
  | plane {a b c : Point K} {A B C D : K} : ¬ Collinear a b c → (∀ p ∈ [a, b, c], A * p.x + B * p.y + C * p.z = D) → (D = 1 ∨ D = 0 ∧ (C = 1 ∨ C = 0 ∧ (B = 1 ∨ B = 0 ∧ A = 1))) →
      ByPoints c!"p" [a.x, a.y, a.z, b.x, b.y, b.z, c.x, c.y, c.z] c!"p" [A, B, C, D]
  | levelY {a r₁ r₂ : K} : ByPoints c!"y" [a, r₁, a, r₂] c!"py" [a]
  | levelZ {a r₁ r₂ : K} : ByPoints c!"z" [a, r₁, a, r₂] c!"pz" [a]
  | cylinderY {a₁ a₂ r : K} : a₁ ≠ a₂ → ByPoints c!"y" [a₁, r, a₂, r] c!"cy" [r]
  | cylinderZ {a₁ a₂ r : K} : a₁ ≠ a₂ → ByPoints c!"z" [a₁, r, a₂, r] c!"cz" [r]
  | coneY {a₁ r₁ a₂ r₂ k : K} : a₁ ≠ a₂ → k ≠ 0 → r₂ = r₁ + k * (a₂ - a₁) → ByPoints c!"y" [a₁, r₁, a₂, r₂] c!"ky" [a₁ - r₁ / k, k ^ 2, if 0 < k then 1 else -1]
  | coneZ {a₁ r₁ a₂ r₂ k : K} : a₁ ≠ a₂ → k ≠ 0 → r₂ = r₁ + k * (a₂ - a₁) → ByPoints c!"z" [a₁, r₁, a₂, r₂] c!"kz" [a₁ - r₁ / k, k ^ 2, if 0 < k then 1 else -1]

/-- The text is a card for this surface, with coefficients or points. -/
def SurfaceSays [LinearOrder K] (io : NumIO K) (text : Str) (e : SurfaceEntry K) : Prop :=
  (∃ ws, IsCard io text e.number (e.tr.map natStr) e.mn ws ∧ Reads io ws e.values ∧ EntriesSuit e.mn e.values) ∨
  ∃ mn ws vs, IsCard io text e.number (e.tr.map natStr) mn ws ∧ Reads io ws vs ∧ ByPoints mn vs e.mn e.values

/-- The lines are a card of the data block for this entry. An importance card is for neutrons and has no repetitions. Only material cards have a line with an `m` and a digit after its blanks, and it is the first; only importance cards have
`imp` in a line. -/
structure DataSays (io : NumIO K) (g : List Str) (e : DataEntry K) : Prop where
  card : match e with
    | .material n entries fractions => MaterialCardReads io g (natStr n) entries fractions
    | .transform n degrees values => TransformCardReads io g degrees (natStr n) values ∧ values.length ≠ 9
    | .importance values => ∃ body conts, g = (c!"imp:n " ++ body) :: conts ∧ (∀ w ∈ split body ++ conts.flatMap split, 'r' ∉ w ∧ 'i' ∉ w) ∧
        List.Forall₂ (fun w x => io.float w = .ok x) (split body ++ conts.flatMap split) values
    | .other => ∀ l, g.head? = some l → ∀ d t, l ≠ trName d t
  noMaterial : ∀ l ∈ (match e with | .material _ _ _ => g.tail | _ => g), ¬ LooksLikeMaterial l
  noImportance : (∀ vs, e ≠ .importance vs) → ∀ l ∈ g, ∀ a b, l ≠ a ++ c!"imp" ++ b

/-- The text is an MCNP file that says what `f` says. Numbers of material cards and of TR cards are distinct, there is at most one importance card, and the last card of the data block is neither a TR card nor an importance card (see C73). -/
structure FileSays [LinearOrder K] (io : NumIO K) (text : Str) (f : InputFile K) : Prop where
  layout : ∃ title cells surfs data, Layout text title cells surfs data ∧ List.Forall₂ (fun g e => CellSays io (cardText g) e) cells f.cells ∧
    List.Forall₂ (fun g e => SurfaceSays io (cardText g) e) surfs f.surfaces ∧ List.Forall₂ (DataSays io) data f.data
  materials : (f.materials.map Prod.fst).Nodup
  transforms : (f.transforms.map Prod.fst).Nodup
  importances : f.importances.length ≤ 1
  last : ∃ before e, f.data = before ++ [e] ∧ (∀ n d v, e ≠ .transform n d v) ∧ ∀ v, e ≠ .importance v

/-- The point in the system of coordinates of a TR card, with 3 or 12 numbers. -/
def trPoint (cosDeg : K → K) (degrees : Bool) (values : List K) (p : Point K) : Point K :=
  match values with
  | [x, y, z] => ⟨p.x - x, p.y - y, p.z - z⟩
  | [x, y, z, a1, a2, a3, b1, b2, b3, c1, c2, c3] =>
    let row (u v w : K) : K :=
      if degrees then cosDeg u * (p.x - x) + cosDeg v * (p.y - y) + cosDeg w * (p.z - z) else u * (p.x - x) + v * (p.y - y) + w * (p.z - z)
    ⟨row a1 a2 a3, row b1 b2 b3, row c1 c2 c3⟩
  | _ => p

/-- The point in the system of coordinates in which a surface is given: that of the TR card it names, if there is one. -/
def InputFile.place (cosDeg : K → K) (f : InputFile K) (tr : Option Nat) (p : Point K) : Point K :=
  match tr with
  | none => p
  | some n => match f.transforms.lookup n with
    | some (degrees, values) => trPoint cosDeg degrees values p
    | none => p

variable [LinearOrder K]

/-- The point is on the given side (`true`: positive) of the surface or macrobody with this mnemonic and these entries. -/
def OnCardSide (sqrt : K → K) (mn : Str) (vs : List K) (p : Point K) (positive : Bool) : Prop :=
  match bodyType mn with
  | some ty => if positive then Outside ty vs p else Inside ty vs p
  | none => cardSide sqrt mn vs p = some (if positive then .pos else .neg)

/-- The truth value at a point of a word in the geometry of a cell: a signed surface number, or a facet of a macrobody. -/
def entrySense (cosDeg sqrt : K → K) (f : InputFile K) (p : Point K) (w : Str) : Prop :=
  (∃ z, parseInt w = some z ∧ ∃ s ∈ f.surfaces, s.number = z.natAbs ∧ OnCardSide sqrt s.mn s.values (f.place cosDeg s.tr p) (0 < z)) ∨
  ∃ s ∈ f.surfaces, ∃ ty neg k v, bodyType s.mn = some ty ∧ w = facetWord neg s.number k ∧ 1 ≤ k ∧ facetValue ty s.values k (f.place cosDeg s.tr p) = some v ∧ (if neg then v < 0 else 0 < v)

/-- The point lies in the cell with this number of the file. -/
def InFileCell (cosDeg sqrt : K → K) (f : InputFile K) (n : Int) (p : Point K) : Prop :=
  ∃ T : Int → Prop, (∀ c ∈ f.cells, T c.number ↔ Holds (cellSense (entrySense cosDeg sqrt f p) T) (lexGeometry c.geometry)) ∧ T n

/-- The cell of the deck has what the card says. -/
structure CellAgrees (io : NumIO K) (cosDeg : K → K) (e : CellEntry K) (c : Cell K) : Prop where
  number : c.id = e.number
  content : match e.content with
    | none => c.material = .int 0 ∧ c.density = 0
    | some (m, x) => c.material = .int m ∧ c.density = x
  region : tokenSyms c.text = lexGeometry e.geometry ∧ itemSyms c.interpreted = lexGeometry e.geometry
  params : Carries io cosDeg e.params c

/-- The surface of the deck is the one of the card: number, transform, sides and facets. -/
structure SurfaceAgrees (sqrt : K → K) (e : SurfaceEntry K) (s : Surface K) : Prop where
  number : s.id = e.number
  transform : s.transform = e.tr.map natStr
  sides : ∀ q b, OnSide sqrt s q b ↔ OnCardSide sqrt e.mn e.values q b
  facets : ∀ k q, (∃ v, facetValue s.type s.coeffs k q = some v ∧ 0 < v) ↔ ∃ ty v, bodyType e.mn = some ty ∧ facetValue ty e.values k q = some v ∧ 0 < v
  facets' : ∀ k q, (∃ v, facetValue s.type s.coeffs k q = some v ∧ v < 0) ↔ ∃ ty v, bodyType e.mn = some ty ∧ facetValue ty e.values k q = some v ∧ v < 0

/-- The deck has what the file says. -/
structure DeckAgrees (io : NumIO K) (cosDeg sqrt : K → K) (f : InputFile K) (d : Deck K) : Prop where
  cells : List.Forall₂ (CellAgrees io cosDeg) f.cells d.cells
  surfaces : List.Forall₂ (SurfaceAgrees sqrt) f.surfaces d.surfaces
  materials : ∀ n, n ∈ d.materials.map Prod.fst ↔ ∃ m ∈ f.materials, n = natStr m.1
  material : ∀ m ∈ f.materials, ∃ x, d.materials.lookup (natStr m.1) = some x ∧ MaterialOf (natStr m.1) m.2.1 m.2.2 x
  transforms : ∀ n, n ∈ d.transforms.map Prod.fst ↔ ∃ t ∈ f.transforms, n = natStr t.1
  place : ∀ tr p, placeBy d.transforms (tr.map natStr) p = f.place cosDeg tr p
  noImportances : f.importances = [] → d.importances = []
  importances : ∀ vs ∈ f.importances, ∃ t, d.importances = [(.neutron, t)] ∧ List.Forall₂ (fun w x => io.float w = .ok x) (split t) vs

end

end Csg.Spec
