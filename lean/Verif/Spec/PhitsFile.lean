import Verif.Spec.Codes
import Verif.Spec.MaterialText
import Verif.Spec.Mnemonic

/-!
# How PHITS reads an input file

Written down from the PHITS manual: the file is a sequence of sections, each of which begins with a title in brackets, where blanks do not count; the cards of a section are lines, which are continued by lines
with five blanks in front; text behind `$`, `!` or `%` and lines that begin with the word `c` are comments. Cell, surface and material cards have the form of MCNP.
-/

namespace Csg.Spec

/-- The name of the section, if the line is a title. -/
def phitsTitle (line : Str) : Option Str :=
  match line.filter (fun c => !isSpace c) with
  | '[' :: r => if r.getLast? = some ']' then some (r.dropLast.map Char.toLower) else none
  | _ => none

/-- The lines before the first title, and the sections. -/
def phitsSections : List Str → List Str × List (Str × List Str)
  | [] => ([], [])
  | l :: ls =>
    match phitsTitle l with
    | some name => ([], (name, (phitsSections ls).1) :: (phitsSections ls).2)
    | none => (l :: (phitsSections ls).1, (phitsSections ls).2)

/-- The words of a line before a comment. -/
def phitsWords (line : Str) : List Str := split (line.takeWhile fun c => !(['$', '!', '%'].contains c))

/-- The words before the first card, and the cards of a section. -/
def phitsCards : List Str → List Str × List (List Str)
  | [] => ([], [])
  | l :: ls =>
    if phitsWords l = [] then phitsCards ls
    else if l.take 5 = c!"     " then (phitsWords l ++ (phitsCards ls).1, (phitsCards ls).2)
    else if (phitsWords l).head? = some c!"c" ∨ (phitsWords l).head? = some c!"C" then phitsCards ls
    else ([], (phitsWords l ++ (phitsCards ls).1) :: (phitsCards ls).2)

/-- The rows of a table: the lines that are not blank. -/
def phitsRows (ls : List Str) : List (List Str) := (ls.map phitsWords).filter (· ≠ [])

/-- No character that begins a comment or a title. -/
def PhitsQuiet (w : Str) : Prop := ∀ c ∈ w, c ∉ ['[', '$', '!', '%']

section
variable {K : Type}

/-- All mnemonics of polynomial surfaces. -/
def allMnemonics : List Mn :=
  [.p, .px, .py, .pz, .so, .s, .sph, .sx, .sy, .sz, .cpx, .cpy, .cpz, .cx, .cy, .cz, .kpx, .kpy, .kpz, .kx, .ky, .kz, .sq, .gq]

/-- The sense of a point with respect to a card with this mnemonic and these entries. -/
def cardSide [Field K] [LinearOrder K] (sqrt : K → K) (mn : Str) (cs : List K) (p : Point K) : Option Side :=
  if mn = c!"tx" then (torusValue sqrt .torusX cs p).map sideOf
  else if mn = c!"ty" then (torusValue sqrt .torusY cs p).map sideOf
  else if mn = c!"tz" then (torusValue sqrt .torusZ cs p).map sideOf
  else
    match allMnemonics.find? fun m => m.word == mn with
    | none => none
    | some m =>
      match mcnpCone m cs p with
      | some (apex, at_, v, w) => some (nappeSide (w * (at_ - apex)) v)
      | none => (mcnpValue m cs p).map sideOf

/-- The mark in front of the number of a surface: `*` if particles are reflected, `+` for a white boundary. -/
def boundaryMark : BC → Str
  | .reflecting => c!"*"
  | .white => c!"+"
  | _ => []

/-- The card describes the surface: number with the mark for the boundary, and the same sense of all points. -/
def PhitsSurfaceSays [Field K] [LinearOrder K] (sqrt : K → K) (io : NumIO K) (s : Surface K) (card : List Str) : Prop :=
  ∃ mn ns vals, card = (boundaryMark s.bc ++ intStr s.id) :: mn :: ns ∧ Reads io ns vals ∧ ∀ p, ∃ d, cardSide sqrt mn vals p = some d ∧ side sqrt s.type s.coeffs p = some d

/-- The card describes the cell: number, material, density unless the cell is empty, region, universe and fill with offset and rotation. -/
def PhitsCellSays [DecidableEq K] (io : NumIO K) (c : Cell K) (card : List Str) : Prop :=
  ∃ d g p offs rots, card = (intStr c.id :: c.material.text :: (if c.material = .int 0 then [] else [d])) ++ g ++ p ∧ (c.material ≠ .int 0 → io.parse d = some c.density) ∧
    (∀ w ∈ g, ∀ ch ∈ w, ch.isAlpha = false) ∧ (∀ w, p.head? = some w → ∃ ch t, w = ch :: t ∧ ch.isAlpha = true) ∧
    (Legal (g.flatMap lexGeometry) ↔ Legal (itemSyms c.interpreted)) ∧ (∀ σ : Str → Prop, Holds σ (g.flatMap lexGeometry) ↔ Holds σ (itemSyms c.interpreted)) ∧
    WritableParams io c offs rots ∧ p.flatMap lexParens = paramSyms io c offs rots false

/-- The card describes the material: number, nuclides with their libraries, fractions. -/
def PhitsMaterialSays (io : NumIO K) (m : Material K) (card : List Str) : Prop :=
  ∃ ns : List (Str × Str), card = (c!"M" ++ m.number) :: ns.flatMap (fun n => [n.1, n.2]) ∧
    List.Forall₂ (fun e n => ∃ x, m.xsid.lookup e.1 = some x ∧ n.1 = e.1 ++ c!"." ++ x ∧ io.parse n.2 = some e.2) m.composition ns

/-- The row gives the importance of the cell. -/
def PhitsImportanceSays (io : NumIO K) (c : Cell K) (row : List Str) : Prop := ∃ t, row = [intStr c.id, t] ∧ io.parse t = some c.importance

/-- A deck that can be written for PHITS. -/
structure PhitsDeck [Field K] [LinearOrder K] (io : NumIO K) (cs : List (Cell K)) (ss : List (Surface K)) (ms : List (Str × Material K)) : Prop where
  /-- Surfaces have a mnemonic, cones have both sheets, and the coefficients are printed as decimal numbers. -/
  surfaces : ∀ s ∈ ss, Expressible s ∧ s.bc ≠ .periodic ∧ (intStr s.id).length ≤ 60 ∧ ∀ x ∈ s.coeffs, io.Good x
  /-- Descriptions are made of words of moderate length, none of which begins a comment. -/
  cells : ∀ c ∈ cs, ∃ offs rots, Writable io GeometryWord c ∧ WritableParams io c offs rots ∧ PhitsQuiet c.material.text ∧ (∀ u, c.uni = some u → PhitsQuiet u) ∧
    (∀ f, c.fill = some f → PhitsQuiet f) ∧ ∀ w ∈ offs, PhitsQuiet w
  /-- The name 0 stands for no material. -/
  void : ∀ c ∈ cs, c.material.text = c!"0" → c.material = .int 0
  importances : ∀ c ∈ cs, PrintsFloat io c.importance
  materials : ∀ m ∈ ms, Printable io m.2 ∧ PrintableXs m.2

end

end Csg.Spec
