import Verif.Spec.DataCards

/-!
# TR cards that give the same motion
-/

namespace Csg.Spec

/-- The numbers of a TR card with cosines in place of angles: with an asterisk, all numbers after the first three are angles. -/
def cosines {K : Type} (cosDeg : K → K) (degrees : Bool) (values : List K) : List K := values.take 3 ++ (values.drop 3).map fun x => if degrees then cosDeg x else x

/-- Two TR cards with number `n` that give the same displacement and the same cosines, with angles or with cosines, on any lines. The letters `imp` are on none of their lines, and no line begins like a material card. -/
structure SameMotion {K : Type} [Field K] (io : NumIO K) (cosDeg : K → K) (n : Str) (g g' : List Str) : Prop where
  cards : DataCards [g, g']
  importance : ∀ l ∈ g ++ g', ∀ a b, l ≠ a ++ c!"imp" ++ b
  material : ∀ l ∈ g ++ g', ¬ LooksLikeMaterial l
  reads : ∃ degrees degrees' values values', TransformCardReads io g degrees n values ∧ TransformCardReads io g' degrees' n values' ∧ cosines cosDeg degrees' values' = cosines cosDeg degrees values

end Csg.Spec
