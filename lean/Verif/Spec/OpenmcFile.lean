import Verif.Model.CellWriters
import Verif.Spec.Codes
import Verif.Spec.DataCards
import Verif.Spec.OtherMaterials
import Verif.Spec.SurfaceCodes
import Verif.Spec.Xml

/-!
# How OpenMC reads its xml files

Written down from the OpenMC manual. `geometry.xml` holds surfaces and cells, `materials.xml` holds materials. The values of the attributes are kept as texts; what they mean is said below.
-/

namespace Csg.Spec

/-- A surface or a cell in the geometry. A cell has either a material or a fill. Surfaces, cells, universes and materials are known by numbers. -/
def openmcElement : XmlNode → Option (Sum OpenmcSurface OpenMCCellElem)
  | .node tag as xs =>
    if xs.isEmpty = false then none
    else if tag = c!"surface" then do
      let id ← as.lookup c!"id"
      let type ← as.lookup c!"type"
      let coeffs ← as.lookup c!"coeffs"
      if parseInt id = none then none else some (.inl { id, type, coeffs, boundary := (as.lookup c!"boundary").getD c!"transmission" })
    else if tag = c!"cell" then do
      let id ← as.lookup c!"id"
      let region ← as.lookup c!"region"
      let uni := (as.lookup c!"universe").getD c!"0"
      if parseInt id = none ∨ parseInt uni = none then none
      else match as.lookup c!"fill", as.lookup c!"material" with
      | some f, none => if parseInt f = none then none else some (.inr { id, material := none, region, uni, filled := some (f, (as.lookup c!"rotation").getD c!"0 0 0", (as.lookup c!"translation").getD c!"0 0 0") })
      | none, some m => if m ≠ c!"void" ∧ parseInt m = none then none else some (.inr { id, material := some m, region, uni, filled := none })
      | _, _ => none
    else none

/-- The surfaces and the cells of `geometry.xml`. No number may be used twice. -/
def openmcGeometry (text : Str) : Option (List OpenmcSurface × List OpenMCCellElem) := do
  match ← xmlRead text with
  | .node tag _ xs =>
    if tag = c!"geometry" then
      let es ← xs.mapM openmcElement
      let ss := es.filterMap Sum.getLeft?
      let cs := es.filterMap Sum.getRight?
      if (ss.map (·.id)).Nodup ∧ (cs.map (·.id)).Nodup then some (ss, cs) else none
    else none

/-- The density with its unit, or a nuclide with a fraction of atoms or of mass. -/
def openmcPart : XmlNode → Option (Sum (Str × Str) OpenmcNuclide)
  | .node tag as xs =>
    if xs.isEmpty = false then none
    else if tag = c!"density" then do
      let value ← as.lookup c!"value"
      let units ← as.lookup c!"units"
      some (.inl (value, units))
    else if tag = c!"nuclide" then do
      let name ← as.lookup c!"name"
      match as.lookup c!"ao", as.lookup c!"wo" with
      | some x, none => some (.inr { name, mass := false, frac := x })
      | none, some x => some (.inr { name, mass := true, frac := x })
      | _, _ => none
    else none

/-- A material. It has one density. -/
def openmcMaterial : XmlNode → Option OpenmcMaterial
  | .node tag as xs =>
    if tag = c!"material" then do
      let id ← as.lookup c!"id"
      let ps ← xs.mapM openmcPart
      if parseInt id = none then none
      else match ps.filterMap Sum.getLeft? with
      | [(density, units)] => some { id, name := (as.lookup c!"name").getD [], density, units, nuclides := ps.filterMap Sum.getRight? }
      | _ => none
    else none

/-- The materials of `materials.xml`. No number may be used twice. -/
def openmcMaterials (text : Str) : Option (List OpenmcMaterial) := do
  match ← xmlRead text with
  | .node tag _ xs =>
    if tag = c!"materials" then
      let ms ← xs.mapM openmcMaterial
      if (ms.map (·.id)).Nodup then some ms else none
    else none

section
variable {K : Type} [Field K] [LinearOrder K]

/-- The element describes the surface: number, boundary, and the same sense of all points. -/
def OpenmcSurfaceSays (sqrt : K → K) (io : NumIO K) (s : Surface K) (e : OpenmcSurface) : Prop :=
  e.id = intStr s.id ∧ openmcBoundaryMeaning.lookup e.boundary = some s.bc ∧
    ∃ ns, (split e.coeffs).map io.parse = ns.map some ∧ ∀ p, ∃ d, openmcSide sqrt e.type ns p = some d ∧ side sqrt s.type s.coeffs p = some d

/-- The transform with this displacement and these rotation rows. -/
def transformOf : List K → List K → Option (Transform K)
  | [x, y, z], [a, b, c, d, e, f, g, h, i] => some { shift := ⟨x, y, z⟩, v1 := ⟨a, b, c⟩, v2 := ⟨d, e, f⟩, v3 := ⟨g, h, i⟩ }
  | _, _ => none

/-- The rows of no rotation. -/
def noRotation : List K := [1, 0, 0, 0, 1, 0, 0, 0, 1]

/-- The transform of the fill of a cell. -/
def fillTransform (io : NumIO K) (c : Cell K) : Option (Transform K) := do
  let offset ← (match c.offset with | none => some [0, 0, 0] | some l => l.mapM (entryValue io) : Option (List K))
  let rotation ← (match c.rotation with | none => some noRotation | some l => l.mapM (entryValue io) : Option (List K))
  transformOf offset rotation

/-- The transform of a filled cell in OpenMC: first the translation is subtracted, then the rotation is applied. A rotation is given by nine numbers, the rows of the matrix, or by three angles, of which only zeros
are treated here. -/
def openmcTransform (io : NumIO K) (rotation translation : Str) : Option (Transform K) := do
  let t ← (split translation).mapM io.parse
  let r ← (split rotation).mapM io.parse
  transformOf t (if r = [0, 0, 0] then noRotation else r)

/-- The element describes the cell: number, region, universe, and material or fill with its transform. -/
def OpenmcCellSays (io : NumIO K) (c : Cell K) (e : OpenMCCellElem) : Prop :=
  e.id = intStr c.id ∧ e.uni = c.uni.getD c!"0" ∧ (Legal (lexOpenmc e.region) ↔ Legal (itemSyms c.interpreted)) ∧ (∀ σ : Str → Prop, Holds σ (lexOpenmc e.region) ↔ Holds σ (itemSyms c.interpreted)) ∧
    match c.fill with
    | none => e.filled = none ∧ e.material = some (if c.material.text = c!"0" then c!"void" else c.material.text)
    | some f => e.material = none ∧ ∃ rotation translation t, e.filled = some (f, rotation, translation) ∧ openmcTransform io rotation translation = some t ∧ fillTransform io c = some t

/-- The element describes the material: number, name, density and nuclides. -/
def OpenmcMaterialSays (io : NumIO K) (m : Material K) (e : OpenmcMaterial) : Prop :=
  e.id = m.number ∧ e.name = m.name ∧ DensityMeans io m.density e ∧ ∃ l, m.composition = compositionOf l ∧ List.Forall₂ (NuclideMeans io) l e.nuclides

/-- The universe is part of the geometry: it is universe 0, or it fills a cell of a universe that is part of the geometry. -/
inductive DeckUniverse (cs : List (Cell K)) : Int → Prop
  | root : DeckUniverse cs 0
  | fill {c : Cell K} {u f : Int} {s : Str} : c ∈ cs → parseInt (c.uni.getD c!"0") = some u → DeckUniverse cs u → c.fill = some s → parseInt s = some f → DeckUniverse cs f

/-- The cell is in a universe that is part of the geometry. -/
def InGeometry (cs : List (Cell K)) (c : Cell K) : Prop := ∃ u, parseInt (c.uni.getD c!"0") = some u ∧ DeckUniverse cs u

/-- Characters that can be written in an attribute. -/
def AttrText (s : Str) : Prop := ∀ c ∈ s, xmlChar c = true ∧ c ≠ '\r'

/-- The entry of a transform is printed as one word that is read as the same number. -/
def EntryPrints (io : NumIO K) (e : Entry K) : Prop :=
  e.text io ≠ [] ∧ (∀ c ∈ e.text io, isSpace c = false) ∧ AttrText (e.text io) ∧ ∃ x, entryValue io e = some x ∧ io.parse (e.text io) = some x

/-- A deck that can be written for OpenMC. -/
structure OpenmcDeck (io : NumIO K) (nucs : Material K → List (Nuc K)) (cs : List (Cell K)) (ss : List (Surface K)) (ms : List (Str × Material K)) : Prop where
  /-- Numbers are different from each other. -/
  ids : (cs.map (·.id)).Nodup ∧ (ss.map (·.id)).Nodup ∧ (ms.map (·.2.number)).Nodup
  /-- Surfaces have a form of OpenMC. -/
  surfaces : ∀ s ∈ ss, WellFormed s ∧ (IsQuadric s.type ∨ IsTorus s.type) ∧ TwoSheet s ∧ (s.bc = .transmission ∨ s.bc = .vacuum ∨ s.bc = .reflecting) ∧ ∀ x ∈ s.coeffs, Prints io.parse io.render x
  /-- Descriptions consist of surfaces, materials are numbers. -/
  cells : ∀ c ∈ cs, Spaced c.interpreted ∧ WordsAre SurfaceWord c.interpreted ∧ ∃ n, parseInt c.material.text = some n
  /-- Offsets and rotations have three and nine entries, which are printed as numbers. -/
  transforms : io.parse c!"0" = some 0 ∧ ∀ c ∈ cs, (∀ l, c.offset = some l → l.length = 3 ∧ ∀ e ∈ l, EntryPrints io e) ∧ ∀ l, c.rotation = some l → l.length = 9 ∧ ∀ e ∈ l, EntryPrints io e
  /-- Universes are numbers. Some cell is in universe 0, which fills no cell, and no universe is in itself. -/
  universes : (∀ c ∈ cs, (∃ u, parseInt (c.uni.getD c!"0") = some u) ∧ ∀ s, c.fill = some s → ∃ f, parseInt s = some f ∧ f ≠ 0) ∧
    (∃ c ∈ cs, parseInt (c.uni.getD c!"0") = some 0) ∧
    ∃ depth : Int → Nat, ∀ c ∈ cs, ∀ u s f, parseInt (c.uni.getD c!"0") = some u → c.fill = some s → parseInt s = some f → depth f < depth u
  /-- Nuclides of real elements with mass numbers below 1000, below 100 for the lightest elements. The names of materials have no characters that xml does not have, and no carriage return. -/
  materials : ∀ m ∈ ms, m.2.composition = compositionOf (nucs m.2) ∧ (∀ p ∈ nucs m.2, 0 < p.1 ∧ p.1 ≤ 118 ∧ p.2.1 < 1000 ∧ (p.1 < 10 → p.2.1 < 100) ∧ Prints io.parse io.render |p.2.2|) ∧
    Prints io.parse io.render |m.2.density| ∧ (∃ n, parseInt m.2.number = some n) ∧ AttrText m.2.name

end

end Csg.Spec
