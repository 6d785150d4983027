import Verif.Spec.Blocks

/-!
# Titles and message blocks

After the MCNP manual: an input file can begin with a message block. Its first line begins with `message:`, and a blank line ends it. Then come the title, which is one line
of any text, and the blocks of the cells, surfaces and data, as in a file without a message block. Capital letters mean the same as small ones.
-/

namespace Csg.Spec

/-- The lines of a message block, in small letters, with the blank line that ends it. -/
def MessageBlock (m : List Str) : Prop :=
  ∃ t more blank, m = (c!"message:" ++ t) :: more ++ [blank] ∧ (∀ l ∈ more, ¬ BlankLine l) ∧ BlankLine blank

/-- The first character that is not a blank is a letter. -/
def LetterFirst (l : Str) : Prop := ∃ b ch t, l = b ++ ch :: t ∧ (∀ x ∈ b, isSpace x = true) ∧ ch.isLower = true

/-- The text in small letters consists of these lines. -/
def HasLines (text : Str) (ls : List Str) : Prop := text.map Char.toLower = ls.flatten ∧ ∀ l ∈ ls, ∃ t, '\n' ∉ t ∧ l = t ++ c!"\n"

/-- The word `message` stands in the line, in large or small letters. -/
def SaysMessage (l : Str) : Prop := ∃ a b, l.map Char.toLower = a ++ c!"message" ++ b

end Csg.Spec
