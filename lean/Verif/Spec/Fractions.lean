import Verif.Spec.DataCards

/-!
# Material cards with proportional fractions
-/

namespace Csg.Spec

/-- Two cards for material `n` with the same nuclides, where each fraction on the second is that on the first times `factor`. The letters `imp` are on none of their lines, and no line that continues a card begins like a material card. -/
structure ProportionalCards {K : Type} [Field K] (io : NumIO K) (n : Str) (factor : K) (g g' : List Str) : Prop where
  cards : DataCards [g, g']
  importance : ∀ l ∈ g ++ g', ∀ a b, l ≠ a ++ c!"imp" ++ b
  material : ∀ l ∈ g.tail ++ g'.tail, ¬ LooksLikeMaterial l
  reads : ∃ entries entries' fracs, MaterialCardReads io g n entries fracs ∧ MaterialCardReads io g' n entries' (fracs.map (factor * ·)) ∧ entries'.map Prod.fst = entries.map Prod.fst

/-- Two cards for material `n` that say the same: with the same nuclides and fractions, but other line breaks, comments after `$`, keywords such as `nlib=70c`, or other ways to write the numbers. The letters `imp` are on none of their lines, and no line that
continues a card begins like a material card. -/
structure EqualCards {K : Type} [Field K] (io : NumIO K) (n : Str) (g g' : List Str) : Prop where
  cards : DataCards [g, g']
  importance : ∀ l ∈ g ++ g', ∀ a b, l ≠ a ++ c!"imp" ++ b
  material : ∀ l ∈ g.tail ++ g'.tail, ¬ LooksLikeMaterial l
  reads : ∃ entries entries' fracs, MaterialCardReads io g n entries fracs ∧ MaterialCardReads io g' n entries' fracs ∧ entries'.map Prod.fst = entries.map Prod.fst

end Csg.Spec
