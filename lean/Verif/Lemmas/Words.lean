import Verif.Lemmas.Formatter
import Verif.Lemmas.Py

/-!
# Texts made of words separated by single blanks
-/

namespace Csg

open Spec

/-- Words separated by single blanks and ended by a newline. -/
def joinLine : List Str → Str
  | [] => c!"\n"
  | [w] => w ++ c!"\n"
  | w :: ws => w ++ ' ' :: joinLine ws

theorem MaxRun.cons_word {n : Nat} {w t : Str} (hw : w.length ≤ n) (ht : MaxRun n t) : MaxRun n (w ++ ' ' :: t) := by
  intro a v b h hv
  rw [List.append_assoc] at h
  rcases List.append_eq_append_iff.1 h with ⟨a', h1, h2⟩ | ⟨c, h1, h2⟩
  · cases a' with
    | nil =>
      rcases v with _ | ⟨d, v⟩
      · simp
      · simp at h2; exact absurd (List.mem_cons.2 (Or.inl h2.1)) hv
    | cons d a' =>
      simp at h2
      exact ht a' v b (by simp [h2.2]) hv
  · rcases List.append_eq_append_iff.1 h2 with ⟨v', h3, h4⟩ | ⟨c', h3, h4⟩
    · subst h3
      subst h1
      simp at hw; omega
    · cases c' with
      | nil => simp at h3; subst h3; subst h1; simp at hw; omega
      | cons d c' =>
        simp at h4
        exact absurd (by rw [h3, h4.1]; simp) hv

theorem MaxRun.word {n : Nat} {w : Str} (hw : w.length ≤ n) : MaxRun n w := by
  intro a v b h _
  have := congrArg List.length h
  simp at this; omega

theorem maxRun_joinLine {n : Nat} (ws : List Str) (hn : 1 ≤ n) (h : ∀ w ∈ ws, w.length + 1 ≤ n) : MaxRun n (joinLine ws) := by
  induction ws with
  | nil => exact MaxRun.word (by simpa [joinLine] using hn)
  | cons w ws ih =>
    cases ws with
    | nil => exact MaxRun.word (by have := h w (by simp); simpa [joinLine] using this)
    | cons v ws =>
      exact MaxRun.cons_word (by have := h w (by simp); omega) (ih fun x hx => h x (List.mem_cons_of_mem _ hx))

theorem joinLine_eq (ws : List Str) : ∃ t, joinLine ws = t ++ c!"\n" ∧ ∀ c ∈ t, c = ' ' ∨ ∃ w ∈ ws, c ∈ w := by
  induction ws with
  | nil => exact ⟨[], rfl, by simp⟩
  | cons w ws ih =>
    cases ws with
    | nil => exact ⟨w, rfl, fun c hc => Or.inr ⟨w, by simp, hc⟩⟩
    | cons v ws =>
      obtain ⟨t, ht, hc⟩ := ih
      refine ⟨w ++ ' ' :: t, by simp [joinLine, ht], ?_⟩
      intro c h
      simp only [List.mem_append, List.mem_cons] at h
      rcases h with h | h | h
      · exact Or.inr ⟨w, by simp, h⟩
      · exact Or.inl h
      · rcases hc c h with h | ⟨x, hx, hx'⟩
        · exact Or.inl h
        · exact Or.inr ⟨x, List.mem_cons_of_mem _ hx, hx'⟩

theorem oneLine_joinLine (ws : List Str) (h : ∀ w ∈ ws, NoSpace w) : OneLine (joinLine ws) := by
  obtain ⟨t, ht, hc⟩ := joinLine_eq ws
  unfold OneLine
  rw [ht]
  have : (t ++ c!"\n").dropLast = t := List.dropLast_concat
  rw [this]
  intro hm
  rcases hc _ hm with h1 | ⟨w, hw, hm'⟩
  · exact absurd h1 (by decide)
  · exact absurd (h w hw _ hm') (by decide)

theorem split_joinLine (ws : List Str) (h : ∀ w ∈ ws, w ≠ [] ∧ NoSpace w) : split (joinLine ws) = ws := by
  induction ws with
  | nil => rfl
  | cons w ws ih =>
    have hw := h w (by simp)
    cases ws with
    | nil =>
      show split (w ++ '\n' :: []) = _
      rw [split_word_space w [] '\n' (by decide) hw.2 hw.1]; rfl
    | cons v ws =>
      show split (w ++ ' ' :: joinLine (v :: ws)) = _
      rw [split_word_space w _ ' ' (by decide) hw.2 hw.1, ih fun x hx => h x (List.mem_cons_of_mem _ hx)]

end Csg
