import Verif.Model.Py

/-!
# Blocks of cards and repeated entries, as in the MCNP manual
-/

namespace Csg.Spec

/-- A blank line. -/
def BlankLine (l : Str) : Prop := l ≠ [] ∧ ∀ c ∈ l, isSpace c = true

/-- A line that continues a card: not blank, with five blanks at its start. -/
def Continuation (l : Str) : Prop := ¬ BlankLine l ∧ ∃ t, l = c!"     " ++ t

/-- The lines of a card: a line that is not blank and its continuations. -/
def CardLines (g : List Str) : Prop := ∃ first more, g = first :: more ∧ ¬ BlankLine first ∧ ∀ l ∈ more, Continuation l

/-- Lines grouped into cards. The first line of the block begins a card in any case, every other first line is no continuation. -/
def Grouped (gs : List (List Str)) : Prop :=
  (∀ g ∈ gs, CardLines g) ∧ ∀ g ∈ gs.tail, ∀ l, g.head? = some l → ¬ Continuation l

/-- The same line with another comment, or the same line. -/
def OtherComment (l l' : Str) : Prop := l = l' ∨ ∃ code a b, '$' ∉ code ∧ l = code ++ '$' :: a ∧ l' = code ++ '$' :: b

/-- A comment added to a line that is not empty, or the same line. -/
def AddedComment (l l' : Str) : Prop := l = l' ∨ ∃ code a, '$' ∉ code ∧ code ≠ [] ∧ l = code ++ c!"\n" ∧ l' = code ++ '$' :: a

/-- An entry of an importance card is a repetition if it is a count followed by `r`. -/
def IsRepeat (w : Str) (n : Nat) : Prop := ∃ ds, w = ds ++ c!"r" ∧ parseNat ds = some n

/-- `Repeats k last ws es`: after the entry `last` the entries `ws` stand for the list `es`, where `nr` repeats the entry before it `k n` more times. The
manual has `k n = n`. -/
inductive Repeats (k : Nat → Nat) : Option Str → List Str → List Str → Prop
  | nil (last : Option Str) : Repeats k last [] []
  | entry {ws es : List Str} (last : Option Str) (w : Str) : 'r' ∉ w → Repeats k (some w) ws es → Repeats k last (w :: ws) (w :: es)
  | again {ws es : List Str} (e w : Str) (n : Nat) : IsRepeat w n → Repeats k (some e) ws es →
      Repeats k (some e) (w :: ws) (List.replicate (k n) e ++ es)

/-- A comment line: after at most four blanks the letter c, then a blank or the end of the line. -/
def CommentLine (l : Str) : Prop := ∃ n t, n ≤ 4 ∧ l = List.replicate n ' ' ++ 'c' :: t ∧ ∀ x, t.head? = some x → isSpace x = true

end Csg.Spec
