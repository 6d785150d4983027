import Verif.Spec.Codes
import Verif.Spec.OtherMaterials
import Verif.Spec.Real
import Verif.Spec.SerpentFile
import Verif.Spec.SurfaceCodes
import Verif.Spec.Universes
import Verif.Model.Scone

/-!
# How SCONE reads an input file

Written down from the SCONE manual: `!` begins a comment that ends with the line; a file is a dictionary; entries of a dictionary are words up to a semicolon, or a name with a dictionary in braces.
-/

namespace Csg.Spec

/-- An entry of a dictionary. -/
inductive SconeItem
  | value (ws : List Str)
  | dict (name : Str) (items : List SconeItem)

/-- Reading words. `stack` are the dictionaries that are open, innermost first, each with the name of the dictionary that it is waiting for and the entries before; `cur` are the entries of the innermost
dictionary so far and `words` the words since the last entry. -/
def sconeParse : List (Str × List SconeItem) → List SconeItem → List Str → List Str → Option (List SconeItem)
  | stack, cur, words, [] => if stack.isEmpty ∧ words.isEmpty then some cur else none
  | stack, cur, words, t :: ts =>
    if t = c!"{" then
      match words with
      | [name] => sconeParse ((name, cur) :: stack) [] [] ts
      | _ => none
    else if t = c!"}" then
      match words, stack with
      | [], (name, before) :: stack => sconeParse stack (before ++ [.dict name cur]) [] ts
      | _, _ => none
    else if t = c!";" then
      if words.length < 2 then none else sconeParse stack (cur ++ [.value words]) [] ts
    else sconeParse stack cur (words ++ [t]) ts

/-- The entries of a SCONE file. -/
def sconeRead (text : Str) : Option (List SconeItem) := sconeParse [] [] [] (sconeWords (uncomment '!' false text))

section
variable {K : Type}

/-- A word for the lexer of SCONE that begins no comment. -/
def SconeOrdinary (w : Str) : Prop := w ≠ [] ∧ ∀ c ∈ w, isSpace c = false ∧ isSconeMark c = false ∧ c ≠ '!'

/-- The entry describes the surface: it has its number as name and as `id`, and SCONE reads the same half-spaces; for cones this holds close to the apex. -/
def SconeSurfaceSays [Field K] [LinearOrder K] (sqrt tanSq : K → K) (read : Str → Option K) (s : Surface K) (item : SconeItem) : Prop :=
  ∃ (es : List (List Str)) (ds : List (Str × List Str)), item = .dict (intStr s.id) (es.map .value) ∧ es.mapM sconeEntry = some ds ∧ ds.lookup c!"id" = some [intStr s.id] ∧
    ∀ p, (∀ u, coneOffset s.type s.coeffs p = some u → |u| < 10 ^ 10) → ∃ d, sconeSide read tanSq ds p = some d ∧ side sqrt s.type s.coeffs p = some d

/-- The content of a cell: a universe, whose number is one more than in MCNP, or a material. -/
def sconeFilling (c : Cell K) : List SconeItem :=
  match c.fill with
  | some f => [.value [c!"filltype", c!"uni"], .value [c!"universe", intStr ((parseInt f).getD 0 + 1)]]
  | none => [.value [c!"filltype", c!"mat"], .value [c!"material", if c.material = .int 0 then c!"void" else c!"m" ++ c.material.text]]

/-- The entry describes the cell: number, content and region. -/
def SconeCellSays (c : Cell K) (item : SconeItem) : Prop :=
  ∃ g, item = .dict (intStr c.id) ([.value [c!"type", c!"unionCell"], .value [c!"id", intStr c.id]] ++ sconeFilling c ++ [.value ([c!"surfaces", c!"["] ++ g ++ [c!"]"])]) ∧
    (Legal (g.flatMap lexScone) ↔ Legal (itemSyms c.interpreted)) ∧ ∀ σ : Str → Prop, Holds σ (g.flatMap lexScone) ↔ Holds σ (itemSyms c.interpreted)

/-- The entry describes the universe. The root has a border and is filled with a universe, the other universes list their cells. -/
def SconeUniverseSays (u : UniverseCard K) (item : SconeItem) : Prop :=
  if u.isRoot then
    ∃ new, u.fill = some new ∧ item = .dict c!"root" [.value [c!"type", c!"rootUniverse"], .value [c!"border", intStr u.border], .value [c!"fill", c!"u<" ++ intStr (new + 1) ++ c!">"],
      .value [c!"id", intStr (u.id + 1)]]
  else item = .dict (intStr (u.id + 1)) [.value [c!"type", c!"cellUniverse"], .value ([c!"cells", c!"("] ++ u.cells.map intStr ++ [c!")"]), .value [c!"id", intStr (u.id + 1)]]

/-- The universes of a deck: one for each universe number of a cell other than 0, holding the cells with this number, and if there are cells in universe 0 a root and a universe with a new number that
fills it and holds these cells. The border of the root is the surface of the last cell that lies outside of a single surface. -/
def SconeUniverses (cells : List (Cell K)) (us : List (UniverseCard K)) : Prop :=
  ∃ (ids : List Int) (new : Int), ids.Nodup ∧ (∀ u, u ∈ ids ↔ ∃ c ∈ cells, parseInt (c.uni.getD c!"0") = some u) ∧ (0 ∈ ids → ∀ u ∈ ids, u < new) ∧
    List.Perm (us.map fun w => (w.id, w.isRoot, w.cells, w.fill))
      ((ids.filter (· ≠ 0)).map (fun u => (u, false, (cells.filter fun c => decide (parseInt (c.uni.getD c!"0") = some u)).map Cell.id, none)) ++
        (if 0 ∈ ids then [(0, true, [], some new), (new, false, (cells.filter fun c => decide (parseInt (c.uni.getD c!"0") = some 0)).map Cell.id, none)] else [])) ∧
    ∀ w ∈ us, w.isRoot = true → w.border = ((cells.filterMap outerSide).getLast?).getD 0

/-- The entry describes the material: named by its number, and densities `N` of the nuclides that have the ratios of the fractions and the right sum, see C79. -/
def SconeMaterialSays [Field K] [LinearOrder K] (sci : K → Str) (m : Material K) (l : List (Nuc K)) (item : SconeItem) : Prop :=
  ∃ N : Nuc K → K, item = .dict (c!"m" ++ m.number) [.dict c!"composition" (l.map fun p => .value [natStr (1000 * p.1 + p.2.1) ++ c!".03", sci (N p)])] ∧
    (∀ p ∈ l, ∀ q ∈ l, N p * q.2.2 = N q * p.2.2) ∧ (0 < m.density → (l.map fun p => p.2.2).sum = 1 → (l.map N).sum = m.density) ∧
    (m.density ≤ 0 → (l.map fun p => N p * (p.2.1 : K)).sum = -m.density * (602214 / 1000000))

/-- A deck that can be written for SCONE. The nuclides of a material are `nucs m`. -/
structure SconeDeck [Field K] [LinearOrder K] (sqrt degAtan tanSq : K → K) (read : Str → Option K) (io : NumIO K) (fixed sci : K → Str) (nucs : Material K → List (Nuc K)) (cs : List (Cell K))
    (ss : List (Surface K)) (ms : List (Str × Material K)) : Prop where
  /-- The surfaces have a form of SCONE, and their coefficients are printed such that SCONE reads them. -/
  surfaces : ∀ s ∈ ss, WellFormed s ∧ IsQuadric s.type ∧ (∀ x ∈ s.coeffs, Prints read io.render x) ∧
    (IsCone s.type → (∀ x ∈ s.coeffs, Prints read fixed x) ∧ ∀ t, s.coeffs[3]? = some t → 0 ≤ t ∧ Prints read io.render (degAtan (sqrt t)) ∧ tanSq (degAtan (sqrt t)) = t)
  /-- Descriptions and names are made of words of moderate length. -/
  cells : ∀ c ∈ cs, Writable io SurfaceWord c ∧ (intStr c.id).length ≤ 50 ∧ SconeOrdinary c.material.text ∧ ∀ w ∈ c.text, w.length ≤ 40 ∧ ∀ t, w ≠ '-' :: '-' :: t
  /-- Universes are numbers. -/
  universes : ∀ c ∈ cs, (∃ u, parseInt (c.uni.getD c!"0") = some u ∧ |u| < 10 ^ 40) ∧ ∀ f, c.fill = some f → ∃ u, parseInt f = some u ∧ |u| < 10 ^ 40
  /-- Only fills have transforms. -/
  plain : ∀ c ∈ cs, c.fill = none → c.offset = none ∧ c.rotation = none
  /-- The fractions of materials count atoms. -/
  materials : ∀ m ∈ ms, m.2.composition = compositionOf (nucs m.2) ∧ (∀ p ∈ nucs m.2, p.2.1 < 1000 ∧ 0 < p.2.1 ∧ 0 < p.2.2) ∧ nucs m.2 ≠ [] ∧ (∀ c ∈ m.2.number, isDigit c = true) ∧
    '\n' ∉ m.2.name
  numbers : ∀ x, SconeOrdinary (sci x)
  literals : ∀ w x, Literal w x → read w = some x

end

end Csg.Spec
