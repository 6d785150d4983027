import Verif.Model.Process

/-!
# Lemmas about lines of a text
-/

namespace Csg

theorem readlines_line : ∀ (t s : Str), '\n' ∉ t → readlines (t ++ '\n' :: s) = (t ++ ['\n']) :: readlines s := by
  intro t
  induction t with
  | nil => intro s _; simp [readlines]
  | cons c t ih =>
    intro s h
    have hc : c ≠ '\n' := by rintro rfl; exact h (by simp)
    rw [List.cons_append, readlines, if_neg hc, ih s fun hh => h (by simp [hh])]
    rfl

/-- A text made of complete lines. -/
theorem readlines_lines : ∀ (ls : List Str) (s : Str), (∀ l ∈ ls, ∃ t, '\n' ∉ t ∧ l = t ++ ['\n']) → readlines (ls.flatten ++ s) = ls ++ readlines s := by
  intro ls
  induction ls with
  | nil => intro s _; rfl
  | cons l ls ih =>
    intro s h
    obtain ⟨t, ht, rfl⟩ := h l (by simp)
    rw [List.flatten_cons, List.append_assoc, List.append_assoc, List.singleton_append, readlines_line _ _ ht, ih s fun l hl => h l (by simp [hl])]
    rfl

theorem readText_lines (ls : List Str) (s : Str) (h : ∀ l ∈ ls, ∃ t, '\n' ∉ t ∧ l = t ++ ['\n']) : readText (ls.flatten ++ s) = ls.map lower ++ readText s := by
  unfold readText
  rw [readlines_lines _ _ h, List.map_append]

theorem lower_append (a b : Str) : lower (a ++ b) = lower a ++ lower b := List.map_append

theorem dropComments_append : ∀ {a b a' b' : List Str}, dropComments a = .ok a' → dropComments b = .ok b' → dropComments (a ++ b) = .ok (a' ++ b') := by
  intro a
  induction a with
  | nil => intro b a' b' h h'; cases h; exact h'
  | cons l a ih =>
    intro b a' b' h h'
    cases l with
    | nil => cases h
    | cons c l =>
      rw [dropComments] at h
      cases hr : dropComments a with
      | error e => rw [hr] at h; cases h
      | ok r =>
        rw [hr] at h
        have h2 := ih hr h'
        rw [List.cons_append, dropComments, h2]
        by_cases hc : c = 'c'
        · simp only [bind, Except.bind, if_pos hc] at h ⊢
          cases h
          rfl
        · simp only [bind, Except.bind, if_neg hc] at h ⊢
          cases h
          rfl

end Csg
