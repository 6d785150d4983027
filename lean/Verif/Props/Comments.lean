import Verif.Model.Process
import Verif.Spec.Blocks
import Verif.Spec.Sample

/-!
# C71: comment lines
-/

namespace Csg

open Spec

private theorem drop_comment (t : Str) : ∀ a b : List Str, dropComments (a ++ ('c' :: t) :: b) = dropComments (a ++ b)
  | [], b => by
    simp only [List.nil_append, dropComments, if_true]
    cases dropComments b <;> rfl
  | [] :: a, b => rfl
  | (x :: l) :: a, b => by
    simp only [List.cons_append, dropComments]
    rw [drop_comment t a b]

section
variable {K : Type} [Field K] [LinearOrder K]

/-- **C71** (partial: the letter c stands in the first column). A comment line after the title does not change what is read. After a message line the title is the second line. -/
theorem C71_comment_line_partial (io : NumIO K) (cosDeg : K → K) (first : Str) (a b : List Str) {l : Str} (hl : CommentLine l) (hc : l.head? = some 'c')
    (ha : hasInfix c!"message" first = true → a ≠ []) : readDeck io cosDeg (first :: a ++ l :: b) = readDeck io cosDeg (first :: a ++ b) := by
  obtain ⟨n, t, -, rfl, -⟩ := hl
  have hn : n = 0 := by
    cases n with
    | zero => rfl
    | succ n => simp [List.replicate_succ] at hc
  subst hn
  have hok : ∀ {α β : Type} (a : α) (k : α → Py β), ((.ok a : Py α) >>= k) = k a := fun _ _ => rfl
  unfold readDeck
  by_cases hm : hasInfix c!"message" first = true
  · cases a with
    | nil => exact absurd rfl (ha hm)
    | cons s a =>
      have h1 : ∀ r : List Str, setTitle (first :: s :: a ++ r) = .ok (s, a ++ r) := by
        intro r
        show (if hasInfix c!"message" first = true then _ else _) = _
        rw [if_pos hm]; rfl
      rw [h1, h1, hok, hok]
      simp only [List.replicate_zero, List.nil_append]
      rw [drop_comment]
  · have h1 : ∀ r : List Str, setTitle (first :: a ++ r) = .ok (first, a ++ r) := by
      intro r
      show (if hasInfix c!"message" first = true then _ else _) = _
      rw [if_neg hm]; rfl
    rw [h1, h1, hok, hok]
    simp only [List.replicate_zero, List.nil_append]
    rw [drop_comment]

end

/-- No other line is left out: what does not begin with c stays, in the same order. -/
theorem C71_other_lines (ls : List Str) (h : ∀ l ∈ ls, l ≠ []) (hc : ∀ l ∈ ls, l.head? ≠ some 'c') : dropComments ls = .ok ls := by
  induction ls with
  | nil => rfl
  | cons l ls ih =>
    cases l with
    | nil => exact absurd rfl (h [] (by simp))
    | cons x l =>
      simp only [dropComments]
      rw [ih (fun l hl => h l (by simp [hl])) fun l hl => hc l (by simp [hl])]
      exact if_neg fun e => hc (x :: l) (by simp) (by rw [e]; rfl)

private def sampleLines (comment : List Str) : List Str :=
  [c!"title\n", c!"1 0 -1\n"] ++ comment ++ [c!"2 0 1\n", c!"\n", c!"1 so 5\n", c!"\n", c!"imp:n 1 0\n", c!"nps 1\n"]

/-- A comment line that begins with a blank is read as a cell card. -/
theorem C71_refuted : CommentLine c!" c the outside\n" ∧ (readDeck sampleIO id (sampleLines [])).isOk = true ∧
    (readDeck sampleIO id (sampleLines [c!" c the outside\n"])).isOk = false :=
  ⟨⟨1, c!" the outside\n", by decide, rfl, by decide⟩, by decide +kernel, by decide +kernel⟩

/-- A comment between two cells of a file that is read. -/
example : (readDeck sampleIO id (sampleLines [c!"c the outside\n"])).isOk = true := by
  have : readDeck sampleIO id (sampleLines [c!"c the outside\n"]) = readDeck sampleIO id (sampleLines []) :=
    C71_comment_line_partial sampleIO id c!"title\n" [c!"1 0 -1\n"] [c!"2 0 1\n", c!"\n", c!"1 so 5\n", c!"\n", c!"imp:n 1 0\n", c!"nps 1\n"]
      ⟨0, c!" the outside\n", by decide, rfl, by decide⟩ rfl (by decide)
  rw [this]
  decide +kernel

end Csg
