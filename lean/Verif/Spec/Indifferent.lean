import Verif.Spec.Outputs
import Verif.Spec.InputFile

/-!
# Files that differ in importances

Which places of a written file show the importances of the cells.
-/

namespace Csg.Spec

/-- The texts are the same except for places where the first one has `x` and the second one `y` with `H x y`. -/
inductive Differ (H : Str → Str → Prop) : Str → Str → Prop
  | nil : Differ H [] []
  | same (c : Char) {s t : Str} : Differ H s t → Differ H (c :: s) (c :: t)
  | place {x y s t : Str} : H x y → Differ H s t → Differ H (x ++ s) (y ++ t)

section
variable {K : Type}

/-- The decks differ at most in importances: those of the cells and those on the data cards. -/
structure OtherImportances (d d' : Deck K) : Prop where
  cells : List.Forall₂ (fun c c' => c' = { c with importance := c'.importance }) d.cells d'.cells
  rest : d' = { d with cells := d'.cells, importances := d'.importances }

/-- The places in a file that may differ. In OpenMC files these are the boundaries of surfaces, in PHITS files the lines of the table of importances, in FLUKA files the values on BIASING cards
and the material of cells without material, in MCNP files the ends of cell cards, which are wrapped afterwards; in Serpent and SCONE files there are none. -/
def ImportancePlace (e : Env K) : Code → Str → Str → Prop
  | .openmc, x, y => ∃ a ∈ [c!"vacuum", c!"transmission"], ∃ b ∈ [c!"vacuum", c!"transmission"], x = c!" boundary=\"" ++ a ++ c!"\"" ∧ y = c!" boundary=\"" ++ b ++ c!"\""
  | .phits, x, y => ∃ (n : Int) (a b : K), x = c!"    " ++ intStr n ++ c!"        " ++ e.io.render a ++ c!"\n" ∧ y = c!"    " ++ intStr n ++ c!"        " ++ e.io.render b ++ c!"\n"
  | .fluka, x, y =>
    (∃ (n : Int) (a b : K), let card v := c!"BIASING   " ++ c!"       3.0" ++ c!"       1.0" ++ rjust 10 (e.sci4 v) ++ rjust 10 (c!"C" ++ intStr n) ++ c!"          " ++ c!"          " ++ c!"     PRINT" ++ c!"\n"
      x = card a ∧ y = card b) ∨
    ∃ n : Int, ∃ a ∈ [c!"BLCKHOLE", c!"VACUUM"], ∃ b ∈ [c!"BLCKHOLE", c!"VACUUM"], let card v := c!"ASSIGNMA  " ++ rjust 10 v ++ rjust 10 (c!"C" ++ intStr n) ++ c!"\n"
      x = card a ∧ y = card b
  | .mcnp, x, y => ∃ (t : Str) (a b : K), lineFormatter e.fuel (t ++ c!" IMP:N=" ++ e.io.render a ++ c!"\n") = some x ∧ lineFormatter e.fuel (t ++ c!" IMP:N=" ++ e.io.render b ++ c!"\n") = some y
  | .serpent, _, _ => False
  | .scone, _, _ => False

/-- The files are the same except for these places; the file with the materials for OpenMC has none. -/
def SameButImportances (e : Env K) (c : Code) : OutFile → OutFile → Prop
  | .text s, .text t => Differ (ImportancePlace e c) s t
  | .xml g m, .xml g' m' => Differ (ImportancePlace e c) g g' ∧ m' = m
  | _, _ => False

/-- The texts of two cell cards are the same except for the importance among the parameters: each can have it anywhere after the geometry, with any number, or not at all. The part before the parameters has none of the letters
with which parameters begin. Importances and angles are numbers; the transform of a fill has one entry or at least three. -/
def CardAlike (io : NumIO K) (t t' : Str) : Prop :=
  t' = t ∨ ∃ pre l l', t = pre ++ paramListText l ∧ t' = pre ++ paramListText l' ∧ pre ≠ [] ∧ (∀ x ∈ pre, x ∉ ['u', 'f', 'i', 'v', 't', '*', '$']) ∧ IsParamList l ∧ IsParamList l' ∧
    (∀ p : Param, p.kind ≠ 2 → (p ∈ l.map Prod.fst ↔ p ∈ l'.map Prod.fst)) ∧ (∀ v, .importance v ∈ l.map Prod.fst ++ l'.map Prod.fst → ∃ x, io.float v = .ok x) ∧
    ∀ d v t, .fill d v (some t) ∈ l.map Prod.fst → ((split t).length = 1 ∨ 3 ≤ (split t).length) ∧ (d = true → ∀ w ∈ split t, ∃ x, io.float w = .ok x)

/-- The second text comes from the first by changes of importances on cell cards. Lines that begin with `c` are comments. -/
def ImportancesEdited (io : NumIO K) (text text' : Str) : Prop :=
  ∃ title body body' cells cells' blank rest, text.map Char.toLower = (title :: body).flatten ∧ text'.map Char.toLower = (title :: body').flatten ∧
    (∀ l ∈ title :: (body ++ body'), ∃ t, '\n' ∉ t ∧ l = t ++ c!"\n") ∧ (∀ a b, title ≠ a ++ c!"message" ++ b) ∧ BlankLine blank ∧
    body.filter (fun l => l.head? ≠ some 'c') = cells.flatten ++ blank :: rest ∧ body'.filter (fun l => l.head? ≠ some 'c') = cells'.flatten ++ blank :: rest ∧
    (∀ g ∈ cells ++ cells', CardOf g) ∧ List.Forall₂ (fun g g' => CardAlike io (cardText g) (cardText g')) cells cells'

end

end Csg.Spec
