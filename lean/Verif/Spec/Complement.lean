import Verif.Spec.Cell

/-!
# Complements of cells

The word `#n` in a cell description is the complement of cell `n`.
-/

namespace Csg.Spec

/-- The word for the complement of cell `n`. -/
def refWord (n : Nat) : Str := '#' :: natStr n

/-- The truth value of a word, given that of surface words and that of cells. -/
def cellSense (σ : Str → Prop) (T : Int → Prop) (w : Str) : Prop :=
  if '#' ∈ w then ∃ n : Nat, w = refWord n ∧ ¬ T n else σ w

/-- `T` says, for each cell number, whether the point lies in the cell. -/
def IsCellTruth {K : Type} (σ : Str → Prop) (T : Int → Prop) (cells : List (Cell K)) : Prop :=
  ∀ c ∈ cells, (T c.id ↔ Holds (cellSense σ T) (itemSyms c.interpreted))

/-- The words of a cell description. -/
def words (is : List Item) : List Str := is.filterMap fun i => match i with
  | .op _ => none
  | .str s => some s

/-- Cell numbers are distinct, descriptions are expressions, and every word with `#` is the complement of an existing cell of
smaller rank: the references have no cycle. -/
structure Acyclic {K : Type} (rank : Int → Nat) (cells : List (Cell K)) : Prop where
  ids : (cells.map Cell.id).Nodup
  legal : ∀ c ∈ cells, Legal (itemSyms c.interpreted)
  refs : ∀ c ∈ cells, ∀ w ∈ words c.interpreted, '#' ∈ w → ∃ n : Nat, ∃ d ∈ cells, w = refWord n ∧ d.id = n ∧ rank d.id < rank c.id

end Csg.Spec
