import Verif.Lemmas.Update
import Verif.Lemmas.CellWriters
import Verif.Lemmas.Lines
import Verif.Lemmas.MaterialText

/-!
# Texts with given words
-/

namespace Csg

open Spec

/-- The first word of a text. -/
theorem split_cons_parts {s w : Str} {ws : List Str} (h : split s = w :: ws) :
    ∃ a b, s = a ++ w ++ b ∧ (∀ c ∈ a, isSpace c = true) ∧ (b = [] ∨ ∃ c t, b = c :: t ∧ isSpace c = true) ∧ split b = ws := by
  have e := (List.takeWhile_append_dropWhile (p := isSpace) (l := s)).symm
  have hsp : ∀ c ∈ s.takeWhile isSpace, isSpace c = true := List.all_eq_true.1 (List.all_takeWhile (l := s) (p := isSpace))
  generalize s.takeWhile isSpace = a at e hsp
  generalize hr : s.dropWhile isSpace = r at e
  have hhead : ∀ c t, r = c :: t → isSpace c = false := by
    intro c t hrc
    rw [hrc] at hr
    by_contra hh
    have := List.head?_dropWhile_not (p := isSpace) s
    rw [hr] at this
    simp at this
    exact hh this
  have hs : split r = w :: ws := by
    rw [← h, e, split_spaces_append _ _ (by rw [List.all_eq_true]; exact hsp)]
  have e2 := (List.takeWhile_append_dropWhile (p := fun c => !isSpace c) (l := r)).symm
  have hns : ∀ c ∈ r.takeWhile fun c => !isSpace c, isSpace c = false := by
    intro c hc
    have := List.all_eq_true.1 (List.all_takeWhile (l := r) (p := fun c => !isSpace c)) c hc
    simpa using this
  cases hr0 : r with
  | nil => rw [hr0, split_nil] at hs; cases hs
  | cons c0 t0 =>
    have hne : (r.takeWhile fun c => !isSpace c) ≠ [] := by
      rw [hr0, List.takeWhile_cons, if_pos (by simp [hhead c0 t0 hr0])]
      simp
    generalize hv : (r.takeWhile fun c => !isSpace c) = v at e2 hns hne
    generalize hb : (r.dropWhile fun c => !isSpace c) = b at e2
    have hbs : b = [] ∨ ∃ c t, b = c :: t ∧ isSpace c = true := by
      cases b with
      | nil => exact Or.inl rfl
      | cons c t =>
        right
        refine ⟨c, t, rfl, ?_⟩
        have := List.head?_dropWhile_not (p := fun c => !isSpace c) r
        rw [hb] at this
        simpa using this
    have hsplit : split r = v :: split b := by
      rw [e2]
      rcases hbs with rfl | ⟨c, t, rfl, hc⟩
      · rw [List.append_nil, split_word v hns hne, split_nil]
      · rw [split_word_space v t c hc hns hne, split_space_cons c t hc]
    rw [hsplit] at hs
    obtain ⟨rfl, hws⟩ := List.cons.inj hs
    exact ⟨a, b, by rw [e, e2, List.append_assoc], hsp, hbs, hws⟩

/-- A text cut between two words. -/
theorem split_append_parts {s : Str} : ∀ {us vs : List Str}, split s = us ++ vs → vs ≠ [] →
    ∃ a b, s = a ++ b ∧ split a = us ∧ split b = vs ∧ (∃ c t, b = c :: t ∧ isSpace c = false) ∧ (us ≠ [] → ∃ a' c, a = a' ++ [c] ∧ isSpace c = true) := by
  intro us
  induction us generalizing s with
  | nil =>
    intro vs h hv
    obtain ⟨w, ws, rfl⟩ := List.exists_cons_of_ne_nil hv
    obtain ⟨a, b, rfl, ha, hb, hw⟩ := split_cons_parts (show split s = w :: ws from h)
    have hws := split_words (a ++ w ++ b) w (by rw [h]; simp)
    obtain ⟨c, t, hct⟩ := List.exists_cons_of_ne_nil hws.1
    refine ⟨a, w ++ b, by simp, split_all_space _ (by rw [List.all_eq_true]; exact ha), ?_, ⟨c, t ++ b, by simp [hct], hws.2 c (by simp [hct])⟩, fun hh => absurd rfl hh⟩
    rw [← split_spaces_append a (w ++ b) (by rw [List.all_eq_true]; exact ha), ← List.append_assoc]
    exact h
  | cons u us ih =>
    intro vs h hv
    obtain ⟨a, b, rfl, ha, hb, hw⟩ := split_cons_parts (show split s = u :: (us ++ vs) from h)
    obtain ⟨a', b', rfl, h1, h2, h3, h4⟩ := ih hw hv
    have hws := split_words (a ++ u ++ (a' ++ b')) u (by rw [h]; simp)
    have hne : a' ++ b' ≠ [] := by obtain ⟨c, t, rfl, -⟩ := h3; simp
    obtain ⟨c, t, hct, hc⟩ : ∃ c t, a' = c :: t ∧ isSpace c = true := by
      rcases hb with hb | ⟨c, t, hb, hc⟩
      · exact absurd hb hne
      · cases a' with
        | nil =>
          obtain ⟨d, t', hd, hdf⟩ := h3
          rw [hd, List.nil_append] at hb
          obtain ⟨rfl, -⟩ := List.cons.inj hb
          rw [hc] at hdf; cases hdf
        | cons x t' =>
          rw [List.cons_append] at hb
          obtain ⟨rfl, -⟩ := List.cons.inj hb
          exact ⟨x, t', rfl, hc⟩
    refine ⟨a ++ u ++ a', b', by simp, ?_, h2, h3, fun _ => ?_⟩
    · rw [List.append_assoc, split_spaces_append _ _ (by rw [List.all_eq_true]; exact ha), hct, split_word_space u t c hc hws.2 hws.1, ← h1, hct, split_space_cons c t hc]
    · by_cases hus : us = []
      · subst hus
        rcases List.eq_nil_or_concat a' with rfl | ⟨p, x, rfl⟩
        · cases hct
        · refine ⟨a ++ u ++ p, x, by simp, ?_⟩
          by_contra hx
          obtain ⟨w, hw', -⟩ := split_mem (p.concat x) x (by simpa using hx) (by simp)
          rw [h1] at hw'
          simp at hw'
      · obtain ⟨p, x, rfl, hx⟩ := h4 hus
        exact ⟨a ++ u ++ p, x, by simp, hx⟩

theorem expandText_space {c : Char} (hc : isSpace c = true) (s : Str) : expandText (c :: s) = c :: expandText s := by
  have : c ∉ ['(', ')', ':', '+'] := by
    intro h
    simp only [List.mem_cons, List.not_mem_nil, or_false] at h
    rcases h with rfl | rfl | rfl | rfl <;> revert hc <;> decide
  have e : expandText (c :: s) = expandText [c] ++ expandText s := expandText_append [c] s
  rw [e, expandText_id (by simpa using this)]
  rfl

/-- The words after the expansion, word by word. -/
theorem split_expandText (s : Str) : split (expandText s) = (split s).flatMap fun w => split (expandText w) := by
  generalize hws : split s = ws
  induction ws generalizing s with
  | nil =>
    have hall : ∀ c ∈ s, isSpace c = true := by
      intro c hc
      by_contra hh
      obtain ⟨w, hw, -⟩ := split_mem s c (by simpa using hh) hc
      rw [hws] at hw; cases hw
    have : expandText s = s := by
      clear hws
      induction s with
      | nil => rfl
      | cons c s ih => rw [expandText_space (hall c (by simp)), ih fun d hd => hall d (List.mem_cons_of_mem _ hd)]
    rw [this, hws]
    rfl
  | cons w ws ih =>
    obtain ⟨a, b, rfl, ha, hb, hw⟩ := split_cons_parts hws
    have hea : expandText a = a := by
      clear hws
      induction a with
      | nil => rfl
      | cons c s ih => rw [expandText_space (ha c (by simp)), ih fun d hd => ha d (List.mem_cons_of_mem _ hd)]
    rw [expandText_append, expandText_append, hea, List.append_assoc, split_spaces_append _ _ (by rw [List.all_eq_true]; exact ha), List.flatMap_cons, ← ih b hw]
    rcases hb with rfl | ⟨c, t, rfl, hc⟩
    · have : expandText [] = [] := rfl
      rw [this, List.append_nil, split_nil, List.append_nil]
    · rw [expandText_space hc, split_append_space _ _ _ hc, split_space_cons c _ hc]

theorem isSpace_toLower (c : Char) : isSpace c.toLower = isSpace c := by
  by_cases h : c.isUpper = true
  · have h2 : 65 ≤ c.val ∧ c.val ≤ 90 := by
      simp only [Char.isUpper, ge_iff_le, decide_eq_true_eq] at h
      exact h
    obtain ⟨n, hn⟩ : ∃ n, c.toNat = n := ⟨_, rfl⟩
    have h3 : 65 ≤ n ∧ n ≤ 90 := by
      have a := UInt32.le_iff_toNat_le.1 h2.1
      have b := UInt32.le_iff_toNat_le.1 h2.2
      rw [← hn]
      exact ⟨a, b⟩
    have hc : c = Char.ofNat n := by rw [← hn, Char.ofNat_toNat]
    rw [hc]
    obtain ⟨h4, h5⟩ := h3
    interval_cases n <;> decide
  · rw [toLower_of_not_upper (by simpa using h)]

theorem split_lower (s : Str) : split (lower s) = (split s).map lower := by
  have key : ∀ (s acc : Str), splitGo (lower acc) (lower s) = (splitGo acc s).map lower := by
    intro s
    induction s with
    | nil =>
      intro acc
      show splitGo (lower acc) [] = _
      unfold splitGo flush
      cases acc <;> simp [lower]
    | cons c s ih =>
      intro acc
      show splitGo (lower acc) (c.toLower :: lower s) = _
      unfold splitGo
      rw [isSpace_toLower]
      split
      · rw [List.map_append, ← ih []]
        congr 1
        unfold flush
        cases acc <;> simp [lower]
      · have := ih (acc ++ [c])
        rw [lower_append] at this
        exact this
  exact key s []

end Csg
