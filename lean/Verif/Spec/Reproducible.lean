import Verif.Model.SerpentRun
import Verif.Spec.Fluka

/-!
# Two runs of Python

Python visits a set of texts in an order that depends on their hashes, and hashes of texts are different in every run (`PYTHONHASHSEED`). Sets of integers are visited in the same order.
-/

namespace Csg.Spec

section
variable {K : Type}

/-- Two runs: everything is the same but the order in which sets of texts are visited. -/
def OtherRun (e e' : Env K) : Prop := (∃ order, e' = { e with orderStr := order }) ∧ ∀ l, (e.orderStr l).Perm l ∧ (e'.orderStr l).Perm l

/-- The cards of two materials: a first card that is the same, and COMPOUND cards with the same constituents and fractions in another order. -/
def SameCompound (b b' : List Str) : Prop :=
  ∃ first c c', b = first :: c ∧ b' = first :: c' ∧ (c.flatMap compoundPairs).Perm (c'.flatMap compoundPairs)

/-- Two FLUKA files: the same cards for elements and isotopes in another order, then the cards of each material, with the constituents in another order; all the rest is the same. -/
def SameButOrder (t t' : Str) : Prop :=
  ∃ (before after : Str) (elems elems' : List Str) (blocks blocks' : List (List Str)),
    t = before ++ elems.flatten ++ blocks.flatten.flatten ++ after ∧ t' = before ++ elems'.flatten ++ blocks'.flatten.flatten ++ after ∧ elems.Perm elems' ∧ List.Forall₂ SameCompound blocks blocks'

/-- Two SCONE files: the lines with the constituents of each material in another order; all the rest is the same. -/
def SameScone (t t' : Str) : Prop :=
  ∃ (before after : Str) (blocks blocks' : List Str), t = before ++ blocks.flatten ++ after ∧ t' = before ++ blocks'.flatten ++ after ∧
    List.Forall₂ (fun b b' => ∃ (first last : Str) (lines lines' : List Str), b = first ++ lines.flatten ++ last ∧ b' = first ++ lines'.flatten ++ last ∧ lines.Perm lines') blocks blocks'

end

end Csg.Spec
