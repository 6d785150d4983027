import Verif.Spec.InputFile
import Verif.Spec.Parameters
import Verif.Spec.Real

/-!
# Cell cards that say the same
-/

namespace Csg.Spec

/-- The same universe, the same fill with the same words between parentheses, and an importance of the same value. Volume and temperature are not compared. -/
structure SameParameters {K : Type} [Field K] (io : NumIO K) (ps ps' : List Param) : Prop where
  uni : ∀ v, .uni v ∈ ps ↔ .uni v ∈ ps'
  fill : ∀ d v words, (∃ t, .fill d v t ∈ ps ∧ t.map split = words) ↔ ∃ t, .fill d v t ∈ ps' ∧ t.map split = words
  importance : ∀ x, (∃ v, .importance v ∈ ps ∧ io.float v = .ok x) ↔ ∃ v, .importance v ∈ ps' ∧ io.float v = .ok x

/-- Importances and angles are numbers, and between parentheses is the number of a TR card or at least a displacement. -/
structure ReadableParameters {K : Type} [Field K] (io : NumIO K) (ps : List Param) : Prop where
  importance : ∀ v, .importance v ∈ ps → ∃ x, io.float v = .ok x
  angles : ∀ v t, .fill true v (some t) ∈ ps → ∀ w ∈ split t, ∃ x, io.float w = .ok x
  words : ∀ d v t, .fill d v (some t) ∈ ps → (split t).length = 1 ∨ 3 ≤ (split t).length

/-- The words of a text in which each parenthesis and colon is a word and plus signs are left out. -/
def cellWords (s : Str) : List Str :=
  split (s.flatMap fun ch => if ch = '(' ∨ ch = ')' ∨ ch = ':' then [' ', ch, ' '] else if ch = '+' then [] else [ch])

/-- The same words up to the parameters, but the density of a cell with a material may be another word for the same number. -/
def SameHead {K : Type} [Field K] (io : NumIO K) (pre pre' : Str) : Prop :=
  cellWords pre = cellWords pre' ∨ ∃ number material density density' geometry x, cellWords pre = number :: natStr material :: density :: geometry ∧
    cellWords pre' = number :: natStr material :: density' :: geometry ∧ 0 < material ∧ Literal density x ∧ io.parse density = some x ∧ Literal density' x ∧ io.parse density' = some x

/-- The lines say the same: the same number, material, density and geometry, and then parameters that say the same, in any order, on any lines and with any comments. -/
def SameCellCard {K : Type} [Field K] (io : NumIO K) (g g' : List Str) : Prop :=
  ∃ pre pre' l l', cardText g = pre ++ paramListText l ∧ cardText g' = pre' ++ paramListText l' ∧ SameHead io pre pre' ∧ pre ≠ [] ∧ pre' ≠ [] ∧
    (∀ x ∈ pre ++ pre', x ∉ ['u', 'f', 'i', 'v', 't', '*', '$']) ∧ IsParamList l ∧ IsParamList l' ∧
    SameParameters io (l.map Prod.fst) (l'.map Prod.fst) ∧ ReadableParameters io (l.map Prod.fst) ∧ ReadableParameters io (l'.map Prod.fst)

end Csg.Spec
