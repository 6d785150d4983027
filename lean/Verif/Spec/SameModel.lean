import Verif.Spec.Reordered
import Verif.Spec.ConvertedMaterials

/-!
# Written files with the same cells

Two written files have cells with the same numbers and fillings, and a point `p` is in a cell of the second exactly if `φ p` is in the cell of the first. The cells are those on the cell cards `cells` of the input.
-/

namespace Csg.Spec

section
variable {K : Type} [Field K] [LinearOrder K]

/-- For OpenMC, where cells in universes that are not used are not written. -/
def SameOpenmc (e : Env K) (φ : Point K → Point K) (cells : List (CellEntry K)) (out out' : OutFile) : Prop :=
  ∃ g m g' m' xs es ys xs' es' ys', out = .xml g m ∧ out' = .xml g' m' ∧
    openmcGeometry g = some (xs, es) ∧ openmcMaterials m = some ys ∧ openmcGeometry g' = some (xs', es') ∧ openmcMaterials m' = some ys' ∧
    (∀ x ∈ es, ∃ c ∈ cells, x.id = intStr c.number) ∧ (∀ x' ∈ es', ∃ c ∈ cells, x'.id = intStr c.number) ∧
    ∀ c ∈ cells, (intStr c.number ∈ es.map (·.id) ↔ intStr c.number ∈ es'.map (·.id)) ∧
      ∀ x ∈ es, ∀ x' ∈ es', x.id = intStr c.number → x'.id = intStr c.number → (∀ p, InOpenmc e.sqrt e.io xs x (φ p) ↔ InOpenmc e.sqrt e.io xs' x' p) ∧
        SameFilling c (x.material = some c!"void") (x'.material = some c!"void") (fun density comp => x.material ≠ some c!"void" ∧ OpenmcHas e.io ys x density comp)
          (fun density comp => x'.material ≠ some c!"void" ∧ OpenmcHas e.io ys' x' density comp)

/-- For Serpent. -/
def SameSerpent (e : Env K) (read : Str → Option K) (approx : K → K) (φ : Point K → Point K) (cells : List (CellEntry K)) (out out' : Str) : Prop :=
  ∃ cards cards', serpentCards out = ([], cards) ∧ serpentCards out' = ([], cards') ∧ (serpentRegions cards).length = cells.length ∧ (serpentRegions cards').length = cells.length ∧
    ∀ c ∈ cells, (∃ g g', some (intStr c.number, g) ∈ serpentRegions cards ∧ some (intStr c.number, g') ∈ serpentRegions cards' ∧ ∀ p, InSerpent e.sqrt read cards g (φ p) ↔ InSerpent e.sqrt read cards' g' p) ∧
      ∃ x ∈ serpentFillings cards, ∃ x' ∈ serpentFillings cards', SameFilling c (x = some (intStr c.number, c!"void")) (x' = some (intStr c.number, c!"void"))
        (fun density comp => ∃ name, name ≠ c!"void" ∧ name ≠ c!"outside" ∧ x = some (intStr c.number, name) ∧ SerpentHas e.io approx cards name density comp)
        (fun density comp => ∃ name, name ≠ c!"void" ∧ name ≠ c!"outside" ∧ x' = some (intStr c.number, name) ∧ SerpentHas e.io approx cards' name density comp)

/-- For PHITS. -/
def SamePhits (e : Env K) (φ : Point K → Point K) (cells : List (CellEntry K)) (out out' : Str) : Prop :=
  ∃ secs sl cl ml scards ccards mcards secs' sl' cl' ml' scards' ccards' mcards',
    (phitsSections (readlines out) = ([], secs) ∧ secs.lookup c!"surface" = some sl ∧ secs.lookup c!"cell" = some cl ∧ secs.lookup c!"material" = some ml ∧ phitsCards sl = ([], scards) ∧
      phitsCards cl = ([], ccards) ∧ phitsCards ml = ([], mcards)) ∧
    (phitsSections (readlines out') = ([], secs') ∧ secs'.lookup c!"surface" = some sl' ∧ secs'.lookup c!"cell" = some cl' ∧ secs'.lookup c!"material" = some ml' ∧ phitsCards sl' = ([], scards') ∧
      phitsCards cl' = ([], ccards') ∧ phitsCards ml' = ([], mcards')) ∧
    ccards.length = cells.length ∧ ccards'.length = cells.length ∧
    ∀ c ∈ cells, (∃ card ∈ ccards, ∃ card' ∈ ccards', ∃ g g', phitsRegion card = some (intStr c.number, g) ∧ phitsRegion card' = some (intStr c.number, g') ∧
        ∀ p, InPhits e.sqrt e.io scards g (φ p) ↔ InPhits e.sqrt e.io scards' g' p) ∧
      ∃ card ∈ ccards, ∃ card' ∈ ccards', SameFilling c (phitsFilling card = some (intStr c.number, c!"0", none)) (phitsFilling card' = some (intStr c.number, c!"0", none))
        (fun density comp => ∃ name dw, name ≠ c!"0" ∧ phitsFilling card = some (intStr c.number, name, some dw) ∧ e.io.parse dw = some density ∧ PhitsHas e.io mcards name comp)
        (fun density comp => ∃ name dw, name ≠ c!"0" ∧ phitsFilling card' = some (intStr c.number, name, some dw) ∧ e.io.parse dw = some density ∧ PhitsHas e.io mcards' name comp)

/-- For MCNP. The written files are read again. -/
def SameMcnp (e : Env K) (cosDeg : K → K) (φ : Point K → Point K) (cells : List (CellEntry K)) (out out' : Str) : Prop :=
  ∃ d2 d2', readDeck e.io cosDeg (readText out) = .ok d2 ∧ readDeck e.io cosDeg (readText out') = .ok d2' ∧ d2.cells.length = cells.length ∧ d2'.cells.length = cells.length ∧
    ∀ c ∈ cells, ∃ c2 ∈ d2.cells, ∃ c2' ∈ d2'.cells, c2.id = c.number ∧ c2'.id = c.number ∧ (∀ p, InDeckCell e.sqrt d2 c2.id (φ p) ↔ InDeckCell e.sqrt d2' c2'.id p) ∧
      SameFilling c (c2.material.text = c!"0") (c2'.material.text = c!"0")
        (fun density comp => c2.material.text ≠ c!"0" ∧ c2.density = density ∧ ∃ m2, d2.materials.lookup c2.material.text = some m2 ∧ m2.composition = comp)
        (fun density comp => c2'.material.text ≠ c!"0" ∧ c2'.density = density ∧ ∃ m2, d2'.materials.lookup c2'.material.text = some m2 ∧ m2.composition = comp)

/-- For FLUKA. The points are on none of these surfaces. -/
def SameFluka (e : Env K) (φ : Point K → Point K) (surfs surfs' : List (Surface K)) (cells : List (CellEntry K)) (out out' : Str) : Prop :=
  ∃ input input', flukaRead out = some input ∧ flukaRead out' = some input' ∧ input.regions.length = cells.length ∧ input'.regions.length = cells.length ∧
    ∀ c ∈ cells, (∃ g ∈ input.regions, ∃ g' ∈ input'.regions, g.1 = c!"C" ++ intStr c.number ∧ g'.1 = c!"C" ++ intStr c.number ∧
        ∀ p, (∀ s ∈ surfs, side e.sqrt s.type s.coeffs (φ p) ≠ some .on) → (∀ s ∈ surfs', side e.sqrt s.type s.coeffs p ≠ some .on) →
          (InFluka e.io input.bodies g.2 (φ p) ↔ InFluka e.io input'.bodies g'.2 p)) ∧
      ∃ l ∈ input.cards, ∃ l' ∈ input'.cards, field l 0 = c!"ASSIGNMA" ∧ field l' 0 = c!"ASSIGNMA" ∧ field l 2 = c!"C" ++ intStr c.number ∧ field l' 2 = c!"C" ++ intStr c.number ∧
        SameFilling c (field l 1 = c!"BLCKHOLE" ∨ field l 1 = c!"VACUUM") (field l' 1 = c!"BLCKHOLE" ∨ field l' 1 = c!"VACUUM")
          (fun density comp => FlukaHas e.io e.sci3 input.cards (field l 1) density comp) (fun density comp => FlukaHas e.io e.sci3 input'.cards (field l' 1) density comp)

/-- For SCONE. The points are not too far from the tips of cones among these surfaces. -/
def SameSconeCells (e : Env K) (tanSq : K → K) (read : Str → Option K) (φ : Point K → Point K) (surfs surfs' : List (Surface K)) (cells : List (CellEntry K)) (out out' : Str) : Prop :=
  ∃ gs ns ses ces mes gs' ns' ses' ces' mes',
    (sconeRead out = some [.dict c!"geometry" gs, .dict c!"nuclearData" ns] ∧ .dict c!"surfaces" ses ∈ gs ∧ .dict c!"cells" ces ∈ gs ∧ .dict c!"materials" mes ∈ ns) ∧
    (sconeRead out' = some [.dict c!"geometry" gs', .dict c!"nuclearData" ns'] ∧ .dict c!"surfaces" ses' ∈ gs' ∧ .dict c!"cells" ces' ∈ gs' ∧ .dict c!"materials" mes' ∈ ns') ∧
    ces.length = cells.length ∧ ces'.length = cells.length ∧
    ∀ c ∈ cells, (∃ x ∈ ces, ∃ x' ∈ ces', ∃ g g', sconeRegion x = some (intStr c.number, g) ∧ sconeRegion x' = some (intStr c.number, g') ∧
        ∀ p, (∀ s ∈ surfs, ∀ u, coneOffset s.type s.coeffs (φ p) = some u → |u| < 10 ^ 10) → (∀ s ∈ surfs', ∀ u, coneOffset s.type s.coeffs p = some u → |u| < 10 ^ 10) →
          (InScone tanSq read ses g (φ p) ↔ InScone tanSq read ses' g' p)) ∧
      ∃ x ∈ ces, ∃ x' ∈ ces', SameFilling c (sconeMaterialOf x = some (intStr c.number, c!"void")) (sconeMaterialOf x' = some (intStr c.number, c!"void"))
        (fun density comp => ∃ name, name ≠ c!"void" ∧ sconeMaterialOf x = some (intStr c.number, name) ∧ SconeHas e.sci mes name density comp)
        (fun density comp => ∃ name, name ≠ c!"void" ∧ sconeMaterialOf x' = some (intStr c.number, name) ∧ SconeHas e.sci mes' name density comp)

/-! ## Texts of numbers that the written files can have -/

def SerpentTexts (e : Env K) (cosDeg : K → K) (quick : Bool) (read : Str → Option K) (text : Str) : Prop :=
  ∀ d fuel d', readDeck e.io cosDeg (readText text) = .ok d → finishDeck fuel e.io cosDeg e.sqrt quick d = some (.ok d') →
    ShortCells e.io d ∧ PrintedSurfaces read e.io d' ∧ ∀ s ∈ d.surfaces, IsCone s.type ∨ IsTorus s.type → ∀ x ∈ s.coeffs, Prints read e.fixed x

def PhitsTexts (e : Env K) (cosDeg : K → K) (quick : Bool) (text : Str) : Prop :=
  ∀ d fuel d', readDeck e.io cosDeg (readText text) = .ok d → finishDeck fuel e.io cosDeg e.sqrt quick d = some (.ok d') →
    ShortCells e.io d ∧ ShortSurfaces e.io d' ∧ ∀ m ∈ d.materials, PrintableXs m.2

def McnpTexts (e : Env K) (cosDeg : K → K) (quick : Bool) (text : Str) : Prop :=
  ∀ d fuel d', readDeck e.io cosDeg (readText text) = .ok d → finishDeck fuel e.io cosDeg e.sqrt quick d = some (.ok d') → ShortCells e.io d ∧ ShortSurfaces e.io d'

def SconeTexts (e : Env K) (cosDeg tanSq : K → K) (quick : Bool) (read : Str → Option K) (text : Str) : Prop :=
  ∀ d fuel d', readDeck e.io cosDeg (readText text) = .ok d → finishDeck fuel e.io cosDeg e.sqrt quick d = some (.ok d') → PrintedSurfaces read e.io d' ∧
    ∀ s ∈ d.surfaces, IsCone s.type → (∀ x ∈ s.coeffs, Prints read e.fixed x) ∧ ∀ t, s.coeffs[3]? = some t → 0 ≤ t ∧ Prints read e.io.render (e.degAtan (e.sqrt t)) ∧ tanSq (e.degAtan (e.sqrt t)) = t

/-- Numbers are written for FLUKA in fields of ten columns. -/
structure FlukaNumbers (e : Env K) : Prop where
  zero : e.io.parse c!"0." = some 0 ∧ e.io.parse c!"0.0" = some 0 ∧ (e.io.render 0).length ≤ 10
  three : ∀ x, x = 0 ∨ 1 / 10 ^ 99 ≤ x → x ≤ 10 ^ 9 → (e.sci3 x).length = 10 ∧ '\n' ∉ e.sci3 x
  four : ∀ x, 1 / 10 ^ 99 ≤ x → x ≤ 100000 → (e.sci4 x).length ≤ 10 ∧ ' ' ∉ e.sci4 x ∧ '\n' ∉ e.sci4 x
  order : ∀ l, (e.orderStr l).Perm l

/-! ## Changes of the input -/

/-- The second file has on all surfaces the TR number `n`, where the first has none, and the TR card with this number. Everything else is the same. -/
structure MovedFile (n : Nat) (degrees : Bool) (values : List K) (f f' : InputFile K) : Prop where
  cells : f'.cells = f.cells
  before : ∀ s ∈ f.surfaces, s.tr = none
  surfaces : f'.surfaces = f.surfaces.map fun s => { s with tr := some n }
  card : f'.transforms.lookup n = some (degrees, values)
  transforms : f'.transforms.filter (fun t => decide (t.1 ≠ n)) = f.transforms
  materials : f'.materials = f.materials
  importances : f'.importances = f.importances

/-- The second file has for each cell another expression, which is true for the same truth values of its words. Everything else is the same. -/
structure RewrittenFile (f f' : InputFile K) : Prop where
  cells : List.Forall₂ (fun c c' => c'.number = c.number ∧ c'.content = c.content ∧ c'.params = c.params ∧ ∀ σ : Str → Prop, Holds σ (lexGeometry c.geometry) ↔ Holds σ (lexGeometry c'.geometry)) f.cells f'.cells
  surfaces : f'.surfaces = f.surfaces
  transforms : f'.transforms = f.transforms
  materials : f'.materials = f.materials
  importances : f'.importances = f.importances

end

end Csg.Spec
