import Verif.Model.Formatter
import Verif.Spec.Text
import Verif.Lemmas.Py

namespace Csg

open Spec

theorem MaxRun.of_append_right {n : Nat} {a s : Str} (h : MaxRun n (a ++ s)) : MaxRun n s := by
  intro x w b e hw
  refine h (a ++ x) w b ?_ hw
  simp [e]

theorem OneLine.of_append_right {a s : Str} (h : OneLine (a ++ s)) : OneLine s := by
  intro hm
  apply h
  cases s with
  | nil => simp at hm
  | cons c s => rw [List.dropLast_append_of_ne_nil (by simp)]; simp [hm]

theorem OneLine.left {a s : Str} (h : OneLine (a ++ s)) (hs : s ≠ []) : '\n' ∉ a := by
  intro hm
  apply h
  rw [List.dropLast_append_of_ne_nil hs]
  simp [hm]

/-- The lines of a text whose only newline is the last character. -/
theorem lines_oneLine {s : Str} (h : OneLine s) :
    lines s = [s] ∨ ∃ t, s = t ++ c!"\n" ∧ '\n' ∉ t ∧ lines s = [t, []] := by
  rcases List.eq_nil_or_concat s with rfl | ⟨t, c, rfl⟩
  · left; rfl
  · simp only [OneLine, List.dropLast_concat, List.concat_eq_append] at h
    by_cases hc : c = '\n'
    · right
      subst hc
      refine ⟨t, by simp, h, ?_⟩
      simp only [lines, List.concat_eq_append]
      rw [splitOnChar_append _ _ _ h]; rfl
    · left
      apply splitOnChar_not_mem
      simp [h, Ne.symm hc]

/-- One round of the loop for text with short words: the cut is at a blank, inside the window and not at the
first character. -/
theorem cut_spec (tmp : Str) (hr : MaxRun 70 tmp) (hl : 72 < tmp.length) :
    ∃ p : Nat, rfindChar ' ' (tmp.take 72) = (p : Int) ∧ 0 < p ∧ p < 72 ∧
      tmp.drop p = ' ' :: tmp.drop (p + 1) := by
  have hlen : (tmp.take 72).length = 72 := by simp; omega
  have hpos : 0 ≤ rfindChar ' ' (tmp.take 72) := by
    by_contra hn
    have hmem := (rfindChar_neg_iff ' ' (tmp.take 72)).1 (by omega)
    have := hr [] (tmp.take 72) (tmp.drop 72) (by simp) hmem
    omega
  obtain ⟨p, h1, h2, h3, h4⟩ := rfindChar_spec ' ' (tmp.take 72) hpos
  refine ⟨p, h1, ?_, by omega, ?_⟩
  · rcases Nat.eq_zero_or_pos p with h0 | h0
    · subst h0
      have hd : (tmp.take 72).drop 1 ++ tmp.drop 72 = tmp.drop 1 := by
        rw [← List.drop_append_of_le_length (by omega), List.take_append_drop]
      have := hr (tmp.take 1) ((tmp.take 72).drop 1) (tmp.drop 72) (by
        rw [List.append_assoc, hd, List.take_append_drop]) h4
      simp at this
      omega
    · exact h0
  · have e1 : (tmp.take 72).drop p ++ tmp.drop 72 = tmp.drop p := by
      rw [← List.drop_append_of_le_length (by omega), List.take_append_drop]
    have e2 : (tmp.take 72).drop (p+1) ++ tmp.drop 72 = tmp.drop (p+1) := by
      rw [← List.drop_append_of_le_length (by omega), List.take_append_drop]
    rw [← e1, ← e2, h3]; rfl

/-- What one call of the loop appends. -/
structure LoopPost (tmp body : Str) : Prop where
  words : split body = split tmp
  first : ∀ l ls, lines body = l :: ls → l.length ≤ 72
  others : ∀ l ls, lines body = l :: ls → ∀ m ∈ ls, m.length ≤ 77 ∧ (Continues m ∨ m = [])

theorem isspace_all {s : Str} (h : isspace s = true) : s.all isSpace = true := by
  simp only [isspace, Bool.and_eq_true] at h
  exact h.2

theorem fmtLoop_post (n : Nat) : ∀ (fuel : Nat) (new tmp : Str), tmp.length ≤ n → n < fuel →
    MaxRun 70 tmp → OneLine tmp →
    ∃ body, fmtLoop fuel new tmp = some (new ++ body) ∧ LoopPost tmp body := by
  induction n with
  | zero =>
    intro fuel new tmp hn hf _ _
    obtain ⟨f, rfl⟩ : ∃ f, fuel = f + 1 := ⟨fuel - 1, by omega⟩
    have : tmp = [] := List.length_eq_zero_iff.1 (by omega)
    subst this
    refine ⟨[], by simp [fmtLoop], ⟨rfl, ?_, ?_⟩⟩
    · intro l ls h; simp [lines, splitOnChar] at h; simp [h]
    · intro l ls h; simp only [lines, splitOnChar, List.cons.injEq] at h; simp [← h.2]
  | succ n ih =>
    intro fuel new tmp hn hf hr ho
    obtain ⟨f, rfl⟩ : ∃ f, fuel = f + 1 := ⟨fuel - 1, by omega⟩
    by_cases hl : tmp.length ≤ 72
    · by_cases hs : isspace tmp = true
      · refine ⟨[], by simp [fmtLoop, hl, hs], ⟨?_, ?_, ?_⟩⟩
        · rw [split_nil, split_all_space tmp (isspace_all hs)]
        · intro l ls h; simp [lines, splitOnChar] at h; simp [h]
        · intro l ls h; simp only [lines, splitOnChar, List.cons.injEq] at h; simp [← h.2]
      · refine ⟨tmp, by simp [fmtLoop, hl, hs], ⟨rfl, ?_, ?_⟩⟩
        · intro l ls h
          rcases lines_oneLine ho with h' | ⟨t, rfl, _, h'⟩
          · rw [h'] at h; simp only [List.cons.injEq] at h; rw [← h.1]; exact hl
          · rw [h'] at h; simp only [List.cons.injEq] at h; rw [← h.1]; simp at hl; omega
        · intro l ls h m hm
          rcases lines_oneLine ho with h' | ⟨t, rfl, _, h'⟩
          · rw [h'] at h; simp only [List.cons.injEq] at h; rw [← h.2] at hm; simp at hm
          · rw [h'] at h; simp only [List.cons.injEq] at h; rw [← h.2] at hm
            simp at hm; subst hm; simp
    · obtain ⟨p, hp, hp0, hp72, hd⟩ := cut_spec tmp hr (by omega)
      have htd : tmp = tmp.take p ++ tmp.drop p := (List.take_append_drop p tmp).symm
      have hne : tmp.drop p ≠ [] := by rw [hd]; simp
      have hnl : '\n' ∉ tmp.take p := by rw [htd] at ho; exact OneLine.left ho hne
      have hol : OneLine (tmp.drop p) := by rw [htd] at ho; exact OneLine.of_append_right ho
      have hrr : MaxRun 70 (tmp.drop p) := by rw [htd] at hr; exact MaxRun.of_append_right hr
      have hsp : split tmp = split (tmp.take p) ++ split (tmp.drop p) := by
        conv => lhs; rw [htd, hd]
        rw [split_append_space _ _ _ (by decide), hd, split_space_cons _ _ (by decide)]
      have hlen : (tmp.take p).length ≤ 72 := by simp; omega
      by_cases hs : isspace (tmp.drop p) = true
      · refine ⟨tmp.take p ++ c!"\n", ?_, ⟨?_, ?_, ?_⟩⟩
        · simp only [fmtLoop, if_neg hl, hp]
          simp [sliceTo, sliceFrom, hs]
        · rw [hsp, split_all_space _ (isspace_all hs), split_append_spaces _ _ (by decide)]; simp
        · intro l ls h
          simp only [lines, splitOnChar_append _ _ _ hnl, List.cons.injEq] at h
          rw [← h.1]; exact hlen
        · intro l ls h m hm
          simp only [lines, splitOnChar_append _ _ _ hnl, List.cons.injEq] at h
          rw [← h.2] at hm
          simp [splitOnChar] at hm; subst hm; simp
      · obtain ⟨body, hb, hpost⟩ := ih f (new ++ tmp.take p ++ c!"\n" ++ c!"     ") (tmp.drop p)
          (by simp; omega) (by omega) hrr hol
        refine ⟨tmp.take p ++ c!"\n" ++ (c!"     " ++ body), ?_, ⟨?_, ?_, ?_⟩⟩
        · simp only [fmtLoop, if_neg hl, hp]
          simp only [sliceTo, sliceFrom, hs]
          simp only [Bool.false_eq_true, if_false]
          rw [hb]; simp
        · have e1 : tmp.take p ++ c!"\n" ++ (c!"     " ++ body) =
              tmp.take p ++ '\n' :: (c!"     " ++ body) := by simp
          rw [e1, split_append_space _ _ _ (by decide), split_spaces_append _ _ (by decide), hpost.words, hsp]
        · intro l ls h
          have e1 : tmp.take p ++ c!"\n" ++ (c!"     " ++ body) =
              tmp.take p ++ '\n' :: (c!"     " ++ body) := by simp
          rw [e1] at h
          simp only [lines, splitOnChar_append _ _ _ hnl, List.cons.injEq] at h
          rw [← h.1]; exact hlen
        · intro l ls h m hm
          have e1 : tmp.take p ++ c!"\n" ++ (c!"     " ++ body) =
              tmp.take p ++ '\n' :: (c!"     " ++ body) := by simp
          rw [e1] at h
          simp only [lines, splitOnChar_append _ _ _ hnl, List.cons.injEq] at h
          obtain ⟨b, bs, hb1, hb2⟩ := splitOnChar_prefix '\n' c!"     " body (by decide)
          rw [hb2] at h
          rw [← h.2] at hm
          have hf := hpost.first b bs hb1
          have hot := hpost.others b bs hb1
          rcases List.mem_cons.1 hm with rfl | hm
          · refine ⟨by simp; omega, Or.inl ?_⟩
            simp [Continues]
          · exact hot m hm

/-- A blank followed by a word that fills the rest of the window: the loop never gets past it. -/
theorem fmtLoop_stuck (w t : Str) (hw : ' ' ∉ w) (hns : ∃ c ∈ w, isSpace c = false) (hl : w.length = 71)
    (ht : t ≠ []) : ∀ (fuel : Nat) (new : Str), fmtLoop fuel new (' ' :: (w ++ t)) = none := by
  intro fuel
  induction fuel with
  | zero => intro new; rfl
  | succ f ih =>
    intro new
    have h1 : ¬ (' ' :: (w ++ t)).length ≤ 72 := by
      have : 0 < t.length := List.length_pos_iff.2 ht
      simp; omega
    have h2 : (' ' :: (w ++ t)).take 72 = ' ' :: w := by
      simp [hl]
    have h3 : rfindChar ' ' (' ' :: w) = 0 := by
      have := (rfindChar_neg_iff ' ' w).2 hw
      simp only [rfindChar]
      rw [if_neg (by omega)]; simp
    have h4 : isspace (' ' :: (w ++ t)) = false := by
      obtain ⟨c, hc, hc2⟩ := hns
      simp only [isspace, List.isEmpty_cons, Bool.not_false, Bool.true_and, List.all_eq_false]
      exact ⟨c, by simp [hc], by simp [hc2]⟩
    simp only [fmtLoop, if_neg h1, h2, h3]
    simp only [sliceFrom, sliceTo]
    simp only [List.drop_zero, h4]
    simpa using ih _

end Csg
