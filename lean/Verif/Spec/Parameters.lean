import Verif.Spec.Cell
import Verif.Model.Cell

/-!
# Parameters of a cell card

The parameters that may follow the geometry of a cell card, as text and as values. From the model only the fields of a cell and `split`, the words of a text, are used.
-/

namespace Csg.Spec

/-- A parameter: universe, fill (with angles in degrees or not, and the text between parentheses), importance for neutrons, volume, temperature. -/
inductive Param
  | uni (v : Str)
  | fill (degrees : Bool) (v : Str) (tr : Option Str)
  | importance (v : Str)
  | volume (v : Str)
  | temperature (v : Str)
  deriving DecidableEq, Repr

/-- An equals sign with at most one blank on either side. -/
def EqualsSign (s : Str) : Prop := s = c!"=" ∨ s = c!" =" ∨ s = c!"= " ∨ s = c!" = "

/-- A number without exponent. -/
inductive PlainNumber : Str → Prop
  | whole (sg a : Str) : sg ∈ [[], c!"+", c!"-"] → a ≠ [] → (∀ c ∈ a, isDigit c = true) → PlainNumber (sg ++ a)
  | point (sg a b : Str) : sg ∈ [[], c!"+", c!"-"] → a ≠ [] → (∀ c ∈ a, isDigit c = true) → b ≠ [] → (∀ c ∈ b, isDigit c = true) → PlainNumber (sg ++ a ++ '.' :: b)

/-- Characters of numbers. -/
def NumberChar (c : Char) : Prop := isDigit c = true ∨ c = '+' ∨ c = '-' ∨ c = '.' ∨ c = 'e'

/-- A parameter as text. -/
inductive ParamText : Param → Str → Prop
  | uni (v eq : Str) : EqualsSign eq → PlainNumber v → ParamText (.uni v) (c!"u" ++ eq ++ v)
  | fill (d : Bool) (v eq : Str) : EqualsSign eq → PlainNumber v → ParamText (.fill d v none) ((if d then c!"*" else []) ++ c!"fill" ++ eq ++ v)
  | filled (d : Bool) (v eq sp t : Str) : EqualsSign eq → PlainNumber v → (∀ c ∈ sp, isSpace c = true) → (∀ c ∈ t, isSpace c = true ∨ NumberChar c) →
      ParamText (.fill d v (some t)) ((if d then c!"*" else []) ++ c!"fill" ++ eq ++ v ++ sp ++ c!"(" ++ t ++ c!")")
  | importance (v eq : Str) : EqualsSign eq → PlainNumber v → ParamText (.importance v) (c!"imp:n" ++ eq ++ v)
  | volume (v eq : Str) : EqualsSign eq → v ≠ [] → (∀ c ∈ v, NumberChar c) → ParamText (.volume v) (c!"vol" ++ eq ++ v)
  | temperature (v eq : Str) : EqualsSign eq → v ≠ [] → (∀ c ∈ v, NumberChar c) → ParamText (.temperature v) (c!"tmp" ++ eq ++ v)

/-- Kinds of parameters: a card has at most one of each. -/
def Param.kind : Param → Nat
  | .uni _ => 0
  | .fill _ _ _ => 1
  | .importance _ => 2
  | .volume _ => 3
  | .temperature _ => 4

/-- Parameters, their texts and the blanks that follow them. Only the last parameter can have none. -/
structure IsParamList (l : List (Param × Str × Str)) : Prop where
  texts : ∀ e ∈ l, ParamText e.1 e.2.1 ∧ ∀ c ∈ e.2.2, isSpace c = true
  apart : ∀ e ∈ l.dropLast, e.2.2 ≠ []
  kinds : (l.map fun e => e.1.kind).Nodup
  ne_nil : l ≠ []

/-- The text of a list of parameters. -/
def paramListText (l : List (Param × Str × Str)) : Str := l.flatMap fun e => e.2.1 ++ e.2.2

section
variable {K : Type} [Field K]

/-- The cell has the universe, the filling universe, its transform and the importance given by the parameters `ps`; a parameter that is absent is 0, but the importance 1. -/
structure Carries (io : NumIO K) (cosDeg : K → K) (ps : List Param) (c : Cell K) : Prop where
  uni : ∀ v, c.uni = some v ↔ .uni v ∈ ps
  fill : ∀ v, c.fill = some v ↔ ∃ d tr, .fill d v tr ∈ ps
  importance : ∀ v, .importance v ∈ ps → io.float v = .ok c.importance
  noImportance : (∀ v, .importance v ∉ ps) → c.importance = 1
  noTransform : (∀ d v t, .fill d v (some t) ∉ ps) → c.trId = c!"0" ∧ c.offset = none ∧ c.rotation = none
  card : ∀ d v t w, .fill d v (some t) ∈ ps → split t = [w] → c.trId = w ∧ c.offset = none ∧ c.rotation = none
  shift : ∀ d v t x y z rest, .fill d v (some t) ∈ ps → split t = x :: y :: z :: rest → c.trId = c!"0" ∧ c.offset = some [.txt x, .txt y, .txt z] ∧
    (rest.length < 9 → c.rotation = none) ∧ (d = false → 9 ≤ rest.length → c.rotation = some ((rest.take 9).map .txt)) ∧
    (d = true → 9 ≤ rest.length → ∃ xs, (rest.take 9).mapM io.float = .ok xs ∧ c.rotation = some (xs.map fun x => .num (cosDeg x)))

end

end Csg.Spec
