import Verif.Model.Py
import Mathlib.Tactic.Linarith

/-!
# Lemmas on the text primitives
-/

namespace Csg

theorem splitGo_append_space (acc s t : Str) (c : Char) (hc : isSpace c = true) :
    splitGo acc (s ++ c :: t) = splitGo acc s ++ split t := by
  induction s generalizing acc with
  | nil => simp [splitGo, hc, split]
  | cons x s ih =>
    by_cases hx : isSpace x = true
    · simp [splitGo, hx, ih]
    · simp [splitGo, hx, ih]

theorem split_append_space (s t : Str) (c : Char) (hc : isSpace c = true) :
    split (s ++ c :: t) = split s ++ split t := splitGo_append_space [] s t c hc

theorem split_nil : split [] = [] := rfl

theorem split_space_cons (c : Char) (s : Str) (hc : isSpace c = true) :
    split (c :: s) = split s := by
  simp [split, splitGo, hc, flush]

theorem split_spaces_append (w s : Str) (hw : w.all isSpace = true) :
    split (w ++ s) = split s := by
  induction w with
  | nil => rfl
  | cons c w ih =>
    simp only [List.all_cons, Bool.and_eq_true] at hw
    rw [List.cons_append, split_space_cons _ _ hw.1, ih hw.2]

theorem split_all_space (w : Str) (hw : w.all isSpace = true) : split w = [] := by
  have := split_spaces_append w [] hw
  simpa [split_nil] using this

theorem splitGo_append_spaces (acc s w : Str) (hw : w.all isSpace = true) :
    splitGo acc (s ++ w) = splitGo acc s := by
  cases w with
  | nil => simp
  | cons c w =>
    simp only [List.all_cons, Bool.and_eq_true] at hw
    rw [splitGo_append_space _ _ _ _ hw.1, split_all_space w hw.2, List.append_nil]

theorem split_append_spaces (s w : Str) (hw : w.all isSpace = true) :
    split (s ++ w) = split s := splitGo_append_spaces [] s w hw

/-- A string without white space. -/
def NoSpace (s : Str) : Prop := ∀ c ∈ s, isSpace c = false

theorem splitGo_word (acc w s : Str) (hw : NoSpace w) :
    splitGo acc (w ++ s) = splitGo (acc ++ w) s := by
  induction w generalizing acc with
  | nil => simp
  | cons c w ih =>
    have hc : isSpace c = false := hw c (by simp)
    have hw' : NoSpace w := fun d hd => hw d (by simp [hd])
    simp [splitGo, hc, ih _ hw']

theorem split_word (w : Str) (hw : NoSpace w) (hne : w ≠ []) : split w = [w] := by
  have := splitGo_word [] w [] hw
  simp only [List.append_nil, List.nil_append] at this
  simp [split, this, splitGo, flush, hne]

theorem split_word_space (w s : Str) (c : Char) (hc : isSpace c = true) (hw : NoSpace w) (hne : w ≠ []) :
    split (w ++ c :: s) = w :: split s := by
  rw [split_append_space _ _ _ hc, split_word w hw hne]; rfl

/-- Every word of `split` is non-empty and free of white space. -/
theorem splitGo_words (acc s : Str) (hacc : NoSpace acc) :
    ∀ w ∈ splitGo acc s, w ≠ [] ∧ NoSpace w := by
  induction s generalizing acc with
  | nil =>
    intro w hw
    simp only [splitGo, flush] at hw
    split at hw
    · simp at hw
    · simp only [List.mem_singleton] at hw; subst hw; exact ⟨by assumption, hacc⟩
  | cons c s ih =>
    intro w hw
    simp only [splitGo] at hw
    split at hw
    · rw [List.mem_append] at hw
      rcases hw with hw | hw
      · simp only [flush] at hw
        split at hw
        · simp at hw
        · simp only [List.mem_singleton] at hw; subst hw; exact ⟨by assumption, hacc⟩
      · exact ih [] (by intro d hd; simp at hd) w hw
    · rename_i hc
      refine ih (acc ++ [c]) ?_ w hw
      intro d hd
      simp only [List.mem_append, List.mem_singleton] at hd
      rcases hd with hd | hd
      · exact hacc d hd
      · subst hd; simpa using hc

theorem split_words (s : Str) : ∀ w ∈ split s, w ≠ [] ∧ NoSpace w :=
  splitGo_words [] s (by intro d hd; simp at hd)

theorem rfindChar_ge (c : Char) (s : Str) : -1 ≤ rfindChar c s := by
  induction s with
  | nil => simp [rfindChar]
  | cons x s ih =>
    simp only [rfindChar]
    split
    · omega
    · split <;> omega

theorem rfindChar_neg_iff (c : Char) (s : Str) : rfindChar c s < 0 ↔ c ∉ s := by
  induction s with
  | nil => simp [rfindChar]
  | cons x s ih =>
    simp only [rfindChar]
    split
    · rename_i h
      have h2 : c ∈ s := by
        by_contra hn
        have := ih.2 hn
        omega
      constructor
      · intro h3; omega
      · intro h3; simp [h2] at h3
    · rename_i h
      have hs : c ∉ s := ih.1 (by omega)
      split
      · rename_i hx; subst hx; simp
      · rename_i hx; simp [hs]; exact fun h => hx h.symm

/-- A non-negative `rfind` splits the string at the last occurrence. -/
theorem rfindChar_spec (c : Char) (s : Str) (h : 0 ≤ rfindChar c s) :
    ∃ n : Nat, rfindChar c s = n ∧ n < s.length ∧ s.drop n = c :: s.drop (n + 1) ∧
      c ∉ s.drop (n + 1) := by
  induction s with
  | nil => simp [rfindChar] at h
  | cons x s ih =>
    simp only [rfindChar] at h ⊢
    split
    · rename_i hr
      obtain ⟨n, h1, h2, h3, h4⟩ := ih hr
      refine ⟨n + 1, by omega, by simp; omega, ?_, ?_⟩
      · simpa using h3
      · simpa using h4
    · rename_i hr
      rw [if_neg hr] at h
      split at h
      · rename_i hx
        refine ⟨0, by simp [hx], by simp, by simp [hx], ?_⟩
        have := (rfindChar_neg_iff c s).1 (by omega)
        simpa using this
      · omega

theorem splitOnChar_ne_nil (c : Char) (s : Str) : splitOnChar c s ≠ [] := by
  cases s with
  | nil => simp [splitOnChar]
  | cons x s =>
    simp only [splitOnChar]
    split
    · simp
    · split <;> simp

theorem splitOnChar_not_mem (c : Char) (s : Str) (h : c ∉ s) : splitOnChar c s = [s] := by
  induction s with
  | nil => rfl
  | cons x s ih =>
    simp only [List.mem_cons, not_or] at h
    simp only [splitOnChar, ih h.2]
    rw [if_neg (fun e => h.1 e.symm)]

theorem splitOnChar_append (c : Char) (s t : Str) (h : c ∉ s) :
    splitOnChar c (s ++ c :: t) = s :: splitOnChar c t := by
  induction s with
  | nil => simp [splitOnChar]
  | cons x s ih =>
    simp only [List.mem_cons, not_or] at h
    simp only [List.cons_append, splitOnChar, ih h.2]
    rw [if_neg (fun e => h.1 e.symm)]

/-- Text put in front of the first line. -/
theorem splitOnChar_prefix (c : Char) (s t : Str) (h : c ∉ s) :
    ∃ l ls, splitOnChar c t = l :: ls ∧ splitOnChar c (s ++ t) = (s ++ l) :: ls := by
  induction s with
  | nil =>
    cases hs : splitOnChar c t with
    | nil => exact absurd hs (splitOnChar_ne_nil c t)
    | cons l ls => exact ⟨l, ls, rfl, by simpa using hs⟩
  | cons x s ih =>
    simp only [List.mem_cons, not_or] at h
    obtain ⟨l, ls, h1, h2⟩ := ih h.2
    refine ⟨l, ls, h1, ?_⟩
    simp only [List.cons_append, splitOnChar, h2]
    rw [if_neg (fun e => h.1 e.symm)]

/-- Every character that is not white space is in a word. -/
theorem splitGo_mem (acc s : Str) (c : Char) (hc : isSpace c = false) (h : c ∈ acc ∨ c ∈ s) :
    ∃ w ∈ splitGo acc s, c ∈ w := by
  induction s generalizing acc with
  | nil =>
    rcases h with h | h
    · refine ⟨acc, ?_, h⟩
      simp only [splitGo, flush]
      rw [if_neg (by rintro rfl; simp at h)]; simp
    · simp at h
  | cons x s ih =>
    simp only [splitGo]
    split
    · rename_i hx
      rcases h with h | h
      · refine ⟨acc, ?_, h⟩
        simp only [flush]
        rw [if_neg (by rintro rfl; simp at h)]; simp
      · rcases List.mem_cons.1 h with rfl | h
        · rw [hc] at hx; cases hx
        · obtain ⟨w, hw, hcw⟩ := ih [] (Or.inr h)
          exact ⟨w, List.mem_append_right _ hw, hcw⟩
    · apply ih
      rcases h with h | h
      · left; simp [h]
      · rcases List.mem_cons.1 h with rfl | h
        · left; simp
        · right; exact h

theorem split_mem (s : Str) (c : Char) (hc : isSpace c = false) (h : c ∈ s) : ∃ w ∈ split s, c ∈ w :=
  splitGo_mem [] s c hc (Or.inr h)

theorem findChar_not_mem (c : Char) (s : Str) (h : c ∉ s) : findChar c s = -1 := by
  unfold findChar
  rw [List.findIdx?_eq_none_iff.2]
  intro x hx
  simp only [beq_eq_false_iff_ne]
  rintro rfl; exact h hx

theorem findChar_append (c : Char) (s t : Str) (h : c ∉ s) : findChar c (s ++ c :: t) = s.length := by
  unfold findChar
  have : (s ++ c :: t).findIdx? (· == c) = some s.length := by
    induction s with
    | nil => simp [List.findIdx?_cons]
    | cons x s ih =>
      simp only [List.mem_cons, not_or] at h
      have hx : (x == c) = false := by simp [Ne.symm h.1]
      simp [List.findIdx?_cons, hx, ih h.2]
  rw [this]

end Csg
