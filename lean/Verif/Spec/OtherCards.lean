import Verif.Spec.InputFile

/-!
# The lines of an input file, block by block
-/

namespace Csg.Spec

/-- The text, in lower case, is a title line, the lines of the cells, a blank line, the lines of the surfaces, a blank line and the lines after it. Lines with a `c` in the first column, which can stand anywhere
after the title, are left out. There is no message block, and each line of the cells and surfaces has something before the comment. -/
structure Blocks (text title : Str) (cells surfs data : List Str) : Prop where
  lines : ∃ body blank₁ blank₂, text.map Char.toLower = (title :: body).flatten ∧ (∀ l ∈ title :: body, ∃ t, '\n' ∉ t ∧ l = t ++ c!"\n") ∧
    body.filter (fun l => l.head? ≠ some 'c') = cells ++ blank₁ :: (surfs ++ blank₂ :: data) ∧ BlankLine blank₁ ∧ BlankLine blank₂
  noMessage : ∀ a b, title ≠ a ++ c!"message" ++ b
  cards : ∀ l ∈ cells ++ surfs, ∃ ch ∈ codeOf l, isSpace ch = false

/-- The line is not part of a card that the program looks for: it does not begin like a material card or a TR card, and the letters `imp` are nowhere in it. -/
structure OtherLine (l : Str) : Prop where
  material : ¬ LooksLikeMaterial l
  transform : ∀ d t, l ≠ trName d t
  importance : ∀ a b, l ≠ a ++ c!"imp" ++ b

/-- The lines begin with a card, if there are any. -/
def BeginCard (ls : List Str) : Prop := ∀ l, ls.head? = some l → ¬ FiveBlanks l

/-- The lines do not end within a TR card or a card with importances. -/
def EndOther (ls : List Str) : Prop := ls = [] ∨ ∃ before l more, ls = before ++ l :: more ∧ ¬ FiveBlanks l ∧ (∀ d t, l ≠ trName d t) ∧ (∀ a b, l ≠ a ++ c!"imp" ++ b) ∧
  ∀ x ∈ more, FiveBlanks x ∧ ∀ a b, x ≠ a ++ c!"imp" ++ b

end Csg.Spec
