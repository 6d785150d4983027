import Verif.Model.Process
import Verif.Model.Outputs
import Verif.Props.FlukaCellText
import Verif.Props.FlukaSurfaceText
import Verif.Spec.Fluka

/-!
# How FLUKA reads an input file

Written down from the FLUKA manual. Lines with `*` in the first column are comments. The file begins with a TITLE card and the line of the title. A GEOBEGIN card with the name COMBNAME is followed by the line
of the geometry title, the bodies up to END, the regions up to END, and GEOEND; bodies and regions are in free format. All other cards have eight fields of ten columns, and STOP ends the input.
-/

namespace Csg.Spec

/-- The lines that are not comments, without the ends of lines. -/
def flukaLines (text : Str) : List Str := ((readlines text).filter fun l => l.head? ≠ some '*').map fun l => l.filter (· ≠ '\n')

/-- The lines before the first one that satisfies the condition, and those after it. -/
def cutAt (p : Str → Bool) : List Str → Option (List Str × List Str)
  | [] => none
  | l :: ls => if p l then some ([], ls) else (cutAt p ls).map fun r => (l :: r.1, r.2)

/-- The bodies in a sequence of words: keyword, name, and numbers. `none` for an unknown keyword, or if words are missing. -/
def flukaBodies : List Str → Option (List (Str × Str × List Str))
  | [] => some []
  | [_] => none
  | kw :: name :: ws =>
    match flukaArity.lookup kw with
    | none => none
    | some n => if ws.length < n then none else (flukaBodies (ws.drop n)).map ((kw, name, ws.take n) :: ·)
termination_by ws => ws.length

/-- The text behind the first word. -/
def afterWord (s : Str) : Str := (s.dropWhile isSpace).dropWhile fun c => !isSpace c

/-- The text before the first region, and the regions: name and expression. A region begins with a line whose first character is a letter, and whose second word is a number; other lines continue it. -/
def flukaRegions : List Str → Option (Str × List (Str × Str))
  | [] => some ([], [])
  | l :: ls =>
    (flukaRegions ls).bind fun r =>
      match split l with
      | [] => some r
      | name :: ws =>
        if (name.head?.map Char.isAlpha).getD false then
          match ws with
          | n :: _ => if n.all isDigit then some ([], (name, afterWord (afterWord l) ++ c!" " ++ r.1) :: r.2) else none
          | [] => none
        else some (l ++ c!" " ++ r.1, r.2)

/-- A FLUKA input. -/
structure FlukaInput where
  title : Str
  bodies : List (Str × Str × List Str)
  regions : List (Str × Str)
  cards : List Str

/-- The input of a file. -/
def flukaRead (text : Str) : Option FlukaInput := do
  match flukaLines text with
  | t :: title :: g :: _ :: ls =>
    if field t 0 = c!"TITLE" ∧ field g 0 = c!"GEOBEGIN" ∧ field g 7 = c!"COMBNAME" then
      let (bs, ls) ← cutAt (fun l => decide (split l = [c!"END"])) ls
      let bodies ← flukaBodies (bs.flatMap split)
      let (rs, ls) ← cutAt (fun l => decide (split l = [c!"END"])) ls
      let (before, regions) ← flukaRegions rs
      match ls with
      | e :: ls =>
        if field e 0 = c!"GEOEND" ∧ before = [] then
          let (cards, _) ← cutAt (fun l => decide (field l 0 = c!"STOP")) ls
          some ⟨title, bodies, regions, cards⟩
        else none
      | [] => none
    else none
  | _ => none

section
variable {K : Type} [Field K] [LinearOrder K]

/-- The body describes the surface: its name, and inside is the negative side; for cones, in the box of the geometry. -/
def FlukaBodySays (sqrt : K → K) (io : NumIO K) (s : Surface K) (b : Str × Str × List Str) : Prop :=
  b.2.1 = 'S' :: intStr s.id ∧ ∃ ns, List.Forall₂ (NumberWord io) b.2.2 ns ∧
    ∀ p, (IsCone s.type → InsideBox s.bbox p) → ∃ d, flukaSide b.1 ns p = some d ∧ side sqrt s.type s.coeffs p = some d

/-- The region describes the cell: its name, and the same points. -/
def FlukaRegionSays (c : Cell K) (r : Str × Str) : Prop :=
  r.1 = c!"C" ++ intStr c.id ∧ ∃ syms, lexFluka r.2 = some syms ∧ Legal syms ∧
    ∀ σ : Int → Prop, (∀ z ∈ numbers c.interpreted, z ≠ 0 → (σ (-z) ↔ ¬ σ z)) → (Holds (bodySense σ) syms ↔ Holds (wordSense σ) (itemSyms c.interpreted))

/-- The card sets the importance of low-energy neutrons in the region of the cell to this value. -/
def FlukaBiasSays (sci4 : K → Str) (value : Cell K → K) (c : Cell K) (l : Str) : Prop :=
  field l 0 = c!"BIASING" ∧ field l 1 = c!"3.0" ∧ field l 2 = c!"1.0" ∧ field l 3 = sci4 (value c) ∧ field l 4 = c!"C" ++ intStr c.id ∧ field l 5 = [] ∧ field l 6 = [] ∧ field l 7 = c!"PRINT"

/-- The card assigns its material to the region of the cell. -/
def FlukaAssignSays (c : Cell K) (l : Str) : Prop :=
  field l 0 = c!"ASSIGNMA" ∧ field l 2 = c!"C" ++ intStr c.id ∧ (∀ i, 3 ≤ i → field l i = []) ∧
    (c.material ≠ .int 0 → field l 1 = c!"M" ++ c.material.text) ∧
    (c.material = .int 0 → c.importance = 0 → field l 1 = c!"BLCKHOLE") ∧
    (c.material = .int 0 → c.importance ≠ 0 → field l 1 = c!"VACUUM")

/-- The fraction of a FLUKA material in a list of nuclides with fractions. -/
def fractionOf (l : List (Nat × K)) (name : Str) : K := ((l.filter fun p => properName p.1 = some name).map Prod.snd).sum

/-- The cards describe the material with these nuclides: name, size of the density, and every FLUKA material once with the sum of the fractions that belong to it. -/
def FlukaMaterialSays (io : NumIO K) (sci : K → Str) (m : Material K) (l : List (Nat × K)) (cards : List Str) : Prop :=
  ∃ first compound, cards = first :: compound ∧ field first 0 = c!"MATERIAL" ∧ field first 1 = [] ∧ field first 2 = [] ∧ field first 3 = io.render |m.density| ∧ field first 4 = [] ∧ field first 5 = [] ∧
    field first 6 = [] ∧ field first 7 = c!"M" ++ m.number ∧
    (∀ c ∈ compound, field c 0 = c!"COMPOUND" ∧ field c 7 = c!"M" ++ m.number) ∧
    ∃ names : List Str, names.Nodup ∧ (∀ name, name ∈ names ↔ ∃ p ∈ l, properName p.1 = some name) ∧
      (compound.flatMap compoundPairs).Perm (names.map fun name => ((sci (fractionOf l name)).filter (· ≠ ' '), name))

/-- The cards define the elements and isotopes that FLUKA does not know by itself: each once, with its atomic number. -/
def FlukaElementsSay (comps : List (List (Nat × K))) (cards : List Str) : Prop :=
  (cards.map (field · 7)).Nodup ∧
    (∀ name, name ∈ cards.map (field · 7) ↔ name ∉ flukaPredefined ∧ ∃ l ∈ comps, ∃ p ∈ l, properName p.1 = some name) ∧
    ∀ l ∈ cards, field l 0 = c!"MATERIAL" ∧ ∃ n, properName n = some (field l 7) ∧ field l 1 = natStr (n / 1000) ++ c!".0"

/-- Values with the ratios of the importances, as far as the limit allows. -/
def BiasValues (cells : List (Cell K)) (value : Cell K → K) : Prop :=
  (∀ c ∈ cells, 0 < c.importance → 0 < value c ∧ value c ≤ 100000) ∧
    (∀ c ∈ cells, ∀ c' ∈ cells, 0 < c.importance → 0 < c'.importance → value c < 100000 → value c' < 100000 → value c * c'.importance = value c' * c.importance) ∧
    ∀ c ∈ cells, ∀ c' ∈ cells, 0 < c.importance → c.importance ≤ c'.importance → value c ≤ value c'

/-- A deck that can be written for FLUKA; `comps` are the nuclides of the materials as numbers. -/
structure FlukaDeck (e : Env K) (cs : List (Cell K)) (ss : List (Surface K)) (ms : List (Str × Material K)) (comps : List (List (Nat × K))) : Prop where
  /-- Numbers are printed as words, and importances and fractions in ten columns. -/
  numbers : ∀ x, e.io.render x ≠ [] ∧ ∀ c ∈ e.io.render x, isSpace c = false
  importances : ∀ x, 1 / 10 ^ 99 ≤ x → x ≤ 100000 → (e.sci4 x).length ≤ 10 ∧ ' ' ∉ e.sci4 x ∧ '\n' ∉ e.sci4 x
  fractions : ∀ l ∈ comps, ∀ name, (e.sci3 (fractionOf l name)).length = 10 ∧ '\n' ∉ e.sci3 (fractionOf l name)
  /-- A Python set is visited in some order. -/
  order : ∀ l, (e.orderStr l).Perm l
  surfaces : ∀ s ∈ ss, WellFormed s ∧ FlukaReady s ∧ (IsCone s.type → ∀ t, s.coeffs[3]? = some t → e.sqrt t ^ 2 = t)
  /-- Complements stand before parentheses, words are surface numbers, and the region is well formed. -/
  cells : ∀ c ∈ cs, NotsOpen c.interpreted ∧ (∀ s, .str s ∈ c.interpreted → ¬ IsParen s → ∃ z, z ≠ 0 ∧ pyInt s = .ok z) ∧ Legal (itemSyms c.interpreted) ∧
    (intStr c.id).length ≤ 9 ∧ (c.importance = 0 ∨ 1 / 10 ^ 40 ≤ c.importance) ∧ c.material.text.length ≤ 9 ∧ ' ' ∉ c.material.text ∧ '\n' ∉ c.material.text
  /-- Nuclides are known to FLUKA, and numbers and densities fit in a field. -/
  nuclides : List.Forall₂ (fun m l => m.2.composition = l.map (fun p => (natStr p.1, p.2)) ∧ (l.map Prod.fst).Nodup ∧ ∀ p ∈ l, (properName p.1).isSome) ms comps
  materials : ∀ m ∈ ms, m.2.number.length ≤ 9 ∧ ' ' ∉ m.2.number ∧ '\n' ∉ m.2.number ∧ (e.io.render |m.2.density|).length ≤ 10
  fuel : ∀ m ∈ ms, m.2.composition.length ≤ e.fuel

end

end Csg.Spec
