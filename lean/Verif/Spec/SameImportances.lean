import Verif.Spec.InputFile

/-!
# Importance cards that say the same
-/

namespace Csg.Spec

/-- The text after `imp:n ` and the lines that continue the card, written without repetition and interpolation, and its numbers. -/
structure SaysImportances {K : Type} [Field K] (io : NumIO K) (body : Str) (conts : List Str) (values : List K) : Prop where
  lines : ∀ l ∈ conts, FiveBlanks l ∧ ¬ LooksLikeMaterial l
  plain : ∀ w ∈ split body ++ conts.flatMap split, 'r' ∉ w ∧ 'i' ∉ w
  values : List.Forall₂ (fun w v => io.float w = .ok v) (split body ++ conts.flatMap split) values

end Csg.Spec
