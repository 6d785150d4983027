import Verif.Model.Py

/-!
# What a wrapped MCNP card must look like

Lines, the continuation rule and the column limit of MCNP input, stated without reference to the
formatter.
-/

namespace Csg.Spec

/-- The lines of a text: the pieces between newline characters. A text that ends in a newline has an
empty last piece. -/
def lines (s : Str) : List Str := splitOnChar '\n' s

/-- Every run of characters without a blank is at most `n` long. -/
def MaxRun (n : Nat) (s : Str) : Prop :=
  ∀ a w b : Str, s = a ++ w ++ b → ' ' ∉ w → w.length ≤ n

/-- One card per text: the only newline, if any, is the last character. -/
def OneLine (s : Str) : Prop := '\n' ∉ s.dropLast

/-- A physical line continues the previous card iff its first five columns are blank. -/
def Continues (l : Str) : Prop := l.take 5 = c!"     "

/-- The wrapped text of one card: at most 80 columns, and every line but the first continues the card
(or is the empty piece behind the final newline). -/
def WellWrapped (s : Str) : Prop :=
  (∀ l ∈ lines s, l.length ≤ 80) ∧ ∀ l ∈ (lines s).tail, Continues l ∨ l = []

/-- The words of a card: what stands before the first `$`, cut at white space. -/
def Words (text : Str) (ws : List Str) : Prop :=
  ∃ body comment, (text = body ∨ text = body ++ '$' :: comment) ∧ '$' ∉ body ∧ split body = ws

end Csg.Spec
