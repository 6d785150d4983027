import Verif.Lemmas.CellWriters
import Verif.Lemmas.Material
import Verif.Lemmas.Py
import Verif.Model.MaterialWriters
import Verif.Spec.SerpentMaterials

/-!
# Lemmas about Serpent materials
-/

namespace Csg

open Spec

theorem cutPercent_eq (l : Str) : (if l.elem '%' then sliceTo l (findChar '%' l) else l) = l.takeWhile (· ≠ '%') := by
  have self : ∀ {s : Str}, '%' ∉ s → s.takeWhile (· ≠ '%') = s := fun {s} h => by
    have := List.takeWhile_append_of_pos (p := fun c : Char => decide (c ≠ '%')) (l₁ := s) (l₂ := []) fun c hc => by
      simp only [ne_eq, decide_not, Bool.not_eq_eq_eq_not, Bool.not_true, decide_eq_false_iff_not]; rintro rfl; exact h hc
    simpa using this
  by_cases h : '%' ∈ l
  · obtain ⟨a, b, rfl, ha⟩ := List.eq_append_cons_of_mem h
    rw [if_pos (List.elem_iff.2 h), findChar_append _ _ _ ha,
      List.takeWhile_append_of_pos fun x hx => by simp only [ne_eq, decide_not, Bool.not_eq_eq_eq_not, Bool.not_true, decide_eq_false_iff_not]; rintro rfl; exact ha hx]
    simp [sliceTo]
  · rw [if_neg fun hh => h (List.elem_iff.1 hh), self h]

theorem split_newlines (s : Str) : split (replaceChar '\n' c!" " s) = split s := by
  have gen : ∀ (s acc : Str), splitGo acc (replaceChar '\n' c!" " s) = splitGo acc s := by
    intro s
    induction s with
    | nil => intro acc; rfl
    | cons c s ih =>
      intro acc
      by_cases hc : c = '\n'
      · subst hc
        have : replaceChar '\n' c!" " ('\n' :: s) = ' ' :: replaceChar '\n' c!" " s := rfl
        rw [this]
        simp only [splitGo, show isSpace ' ' = true from rfl, show isSpace '\n' = true from rfl, if_true, ih]
      · have : replaceChar '\n' c!" " (c :: s) = c :: replaceChar '\n' c!" " s := by
          unfold replaceChar
          rw [List.flatMap_cons, if_neg hc]
          rfl
        rw [this]
        simp only [splitGo, ih]
  exact gen s []

/-- The text before the comment keeps apart from what follows. -/
theorem cut_split {l : Str} (h1 : ∃ t, l = t ++ c!"\n") (h2 : Separated l) (t : Str) : split (l.takeWhile (· ≠ '%') ++ t) = split (l.takeWhile (· ≠ '%')) ++ split t := by
  have key : l.takeWhile (· ≠ '%') = [] ∨ ∃ a c, l.takeWhile (· ≠ '%') = a ++ [c] ∧ isSpace c = true := by
    rcases List.eq_nil_or_concat (l.takeWhile (· ≠ '%')) with h | ⟨a, c, h⟩
    · exact .inl h
    · rw [List.concat_eq_append] at h
      refine .inr ⟨a, c, h, ?_⟩
      have hnot : '%' ∉ a ++ [c] := by
        rw [← h]
        intro hm
        have := List.all_eq_true.1 (List.all_takeWhile (l := l) (p := fun c : Char => decide (c ≠ '%'))) _ hm
        simp at this
      have hd := List.takeWhile_append_dropWhile (p := fun c : Char => decide (c ≠ '%')) (l := l)
      cases hdrop : l.dropWhile (fun c : Char => decide (c ≠ '%')) with
      | nil =>
        rw [hdrop, List.append_nil] at hd
        obtain ⟨t, ht⟩ := h1
        rw [← hd, h] at ht
        have := List.append_inj_right' ht rfl
        cases this
        rfl
      | cons x b =>
        have hx : x = '%' := by
          have := List.head?_dropWhile_not (fun c : Char => decide (c ≠ '%')) l
          rw [hdrop] at this
          simpa using this
        subst hx
        refine h2 a c b ?_ hnot
        rw [← hd, hdrop, h]
        simp
  rcases key with h | ⟨a, c, h, hc⟩
  · rw [h]; rfl
  · rw [h, List.append_assoc, List.singleton_append, split_append_space _ _ _ hc, split_append_spaces _ _ (by simp [hc])]

theorem cut_flatten : ∀ (ls : List Str), (∀ l ∈ ls, (∃ t, l = t ++ c!"\n") ∧ Separated l) → split (ls.map fun l => l.takeWhile (· ≠ '%')).flatten = serpentWords ls := by
  intro ls
  induction ls with
  | nil => intro _; rfl
  | cons l ls ih =>
    intro h
    obtain ⟨h1, h2⟩ := h l (by simp)
    rw [List.map_cons, List.flatten_cons, cut_split h1 h2, ih fun l hl => h l (by simp [hl])]
    rfl

/-- The lines that `process` keeps. -/
def serpentKeep (l : Str) : Bool := decide (¬ isspace l ∧ ¬ (strip l).take 1 = c!"%")

theorem serpentKeep_word {l : Str} (h : ∃ t, l = t ++ c!"\n") (hk : serpentKeep l = true) : ∃ w ws, split l = w :: ws := by
  unfold serpentKeep at hk
  rw [decide_eq_true_eq] at hk
  have hs : ¬ l.all isSpace = true := by
    intro ha
    apply hk.1
    unfold isspace
    rw [ha, Bool.and_true]
    obtain ⟨t, rfl⟩ := h
    cases t <;> rfl
  rw [List.all_eq_true] at hs
  push Not at hs
  obtain ⟨c, hc, hcs⟩ := hs
  obtain ⟨w, hw, -⟩ := split_mem l c (by simpa using hcs) hc
  cases he : split l with
  | nil => rw [he] at hw; cases hw
  | cons a b => exact ⟨a, b, rfl⟩

theorem serpentKeep_drop {l : Str} (hk : serpentKeep l = false) : split (l.takeWhile (· ≠ '%')) = [] := by
  unfold serpentKeep at hk
  rw [decide_eq_false_iff_not] at hk
  have hk : isspace l = true ∨ (strip l).take 1 = c!"%" := by
    by_contra hh
    push Not at hh
    exact hk hh
  rcases hk with h | h
  · apply split_all_space
    have := isspace_all h
    rw [List.all_eq_true] at this ⊢
    exact fun c hc => this c ((List.takeWhile_prefix _).subset hc)
  · obtain ⟨a, b, hl, ha, hb⟩ := strip_spec l
    cases hs : strip l with
    | nil => rw [hs] at h; cases h
    | cons x r =>
      rw [hs] at h
      have hx : x = '%' := by simpa using h
      subst hx
      rw [hs] at hl
      rw [hl, List.append_assoc, List.cons_append, List.takeWhile_append_of_pos fun c hc => ?_]
      · simp only [ne_eq, not_true_eq_false, decide_false, Bool.false_eq_true, not_false_eq_true, List.takeWhile_cons_of_neg, List.append_nil]
        exact split_all_space _ ha
      · have := List.all_eq_true.1 ha c hc
        simp only [ne_eq, decide_not, Bool.not_eq_eq_eq_not, Bool.not_true, decide_eq_false_iff_not]
        rintro rfl
        cases this

theorem serpentKeep_mat (k : Nat) (t : Str) : serpentKeep (List.replicate k ' ' ++ c!"mat " ++ t) = true := by
  have hd : (List.replicate k ' ' ++ c!"mat " ++ t).dropWhile isSpace = c!"mat " ++ t := by
    rw [List.append_assoc]
    induction k with
    | zero => rfl
    | succ k ih => rw [List.replicate_succ, List.cons_append, List.dropWhile_cons_of_pos (by decide), ih]
  unfold serpentKeep
  rw [decide_eq_true_eq]
  constructor
  · intro h
    have := isspace_all h
    rw [List.all_eq_true] at this
    exact absurd (this 'm' (by simp)) (by decide)
  · unfold strip
    rw [hd]
    intro h
    have hp : ((c!"mat " ++ t).reverse.dropWhile isSpace).reverse <+: c!"mat " ++ t := by
      have := List.reverse_prefix.2 (List.dropWhile_suffix (l := (c!"mat " ++ t).reverse) isSpace)
      rwa [List.reverse_reverse] at this
    obtain ⟨r, hr⟩ := hp
    generalize ((c!"mat " ++ t).reverse.dropWhile isSpace).reverse = s at h hr
    cases s with
    | nil => cases h
    | cons x s =>
      have hx : x = '%' := by simpa using h
      subst hx
      cases hr

theorem serpentWords_filter (ls : List Str) : serpentWords (ls.filter serpentKeep) = serpentWords ls := by
  induction ls with
  | nil => rfl
  | cons l ls ih =>
    unfold serpentWords at ih ⊢
    by_cases h : serpentKeep l = true
    · rw [List.filter_cons_of_pos h, List.flatMap_cons, List.flatMap_cons, ih]
    · rw [List.filter_cons_of_neg h, List.flatMap_cons, ih, serpentKeep_drop (by simpa using h), List.nil_append]

theorem isSerpentMaterial_mat (k : Nat) (t : Str) : isSerpentMaterial (List.replicate k ' ' ++ c!"mat " ++ t) = true := by
  unfold isSerpentMaterial
  have hd : (List.replicate k ' ' ++ c!"mat " ++ t).dropWhile (· = ' ') = c!"mat " ++ t := by
    rw [List.append_assoc]
    induction k with
    | zero => rfl
    | succ k ih => rw [List.replicate_succ, List.cons_append, List.dropWhile_cons_of_pos (by decide), ih]
  rw [hd]
  rfl

theorem not_serpentMaterial {l : Str} (h : (split l).head? ≠ some c!"mat") : isSerpentMaterial l = false := by
  by_contra hh
  rw [Bool.not_eq_false] at hh
  unfold isSerpentMaterial at hh
  rw [beq_iff_eq] at hh
  apply h
  have hd := List.takeWhile_append_dropWhile (p := fun c : Char => decide (c = ' ')) (l := l)
  have hs : (l.takeWhile fun c => decide (c = ' ')).all isSpace = true := by
    rw [List.all_eq_true]
    intro c hc
    have := List.all_eq_true.1 (List.all_takeWhile (l := l) (p := fun c : Char => decide (c = ' '))) _ hc
    simp only [decide_eq_true_eq] at this
    subst this
    rfl
  rw [← hd, split_spaces_append _ _ hs, ← List.take_append_drop 4 (l.dropWhile fun c => decide (c = ' ')), hh]
  have : c!"mat " ++ List.drop 4 (l.dropWhile fun c => decide (c = ' ')) = c!"mat" ++ ' ' :: List.drop 4 (l.dropWhile fun c => decide (c = ' ')) := rfl
  rw [this, split_word_space _ _ _ (by decide) (by unfold NoSpace; decide) (by decide)]
  rfl

section
variable {K : Type}

theorem serpentMaterials_skip (io : NumIO K) (n : Nat) {ls : List Str} (h : ∀ l ∈ ls, (split l).head? ≠ some c!"mat") (rest : List Str) :
    getSerpentMaterials io n (ls ++ rest) = getSerpentMaterials io n rest := by
  induction ls with
  | nil => rfl
  | cons l ls ih =>
    rw [List.cons_append, getSerpentMaterials, if_neg (by rw [not_serpentMaterial (h l (by simp))]; simp), ih fun x hx => h x (by simp [hx])]

theorem splitOnChar_head (s : Str) : ∃ ws, splitOnChar '.' s = nuclideOf s :: ws := by
  by_cases h : '.' ∈ s
  · obtain ⟨a, b, rfl, ha⟩ := List.eq_append_cons_of_mem h
    refine ⟨splitOnChar '.' b, ?_⟩
    rw [splitOnChar_append _ _ _ ha]
    unfold nuclideOf
    rw [List.takeWhile_append_of_pos fun x hx => by simp only [ne_eq, decide_not, Bool.not_eq_eq_eq_not, Bool.not_true, decide_eq_false_iff_not]; rintro rfl; exact ha hx]
    simp
  · refine ⟨[], ?_⟩
    rw [splitOnChar_not_mem _ _ h]
    unfold nuclideOf
    have := List.takeWhile_append_of_pos (p := fun c : Char => decide (c ≠ '.')) (l₁ := s) (l₂ := []) fun c hc => by
      simp only [ne_eq, decide_not, Bool.not_eq_eq_eq_not, Bool.not_true, decide_eq_false_iff_not]; rintro rfl; exact h hc
    simp only [List.append_nil, List.takeWhile_nil] at this
    rw [this]

theorem splitOnChar_second (s : Str) : ((splitOnChar '.' s)[1]?).getD [] = libraryOf s := by
  by_cases h : '.' ∈ s
  · obtain ⟨a, b, rfl, ha⟩ := List.eq_append_cons_of_mem h
    obtain ⟨ws, hws⟩ := splitOnChar_head b
    rw [splitOnChar_append _ _ _ ha, hws]
    unfold libraryOf
    rw [List.dropWhile_append_of_pos fun x hx => by simp only [ne_eq, decide_not, Bool.not_eq_eq_eq_not, Bool.not_true, decide_eq_false_iff_not]; rintro rfl; exact ha hx]
    simp [nuclideOf]
  · rw [splitOnChar_not_mem _ _ h]
    unfold libraryOf
    have := List.dropWhile_append_of_pos (p := fun c : Char => decide (c ≠ '.')) (l₁ := s) (l₂ := []) fun c hc => by
      simp only [ne_eq, decide_not, Bool.not_eq_eq_eq_not, Bool.not_true, decide_eq_false_iff_not]; rintro rfl; exact h hc
    rw [List.append_nil] at this
    rw [this]
    rfl

/-- Reading entries with different nuclides appends them. -/
theorem serpentGo_fresh (io : NumIO K) : ∀ (entries : List (Str × Str)) (ns : List (Str × K)) (comp : List (Str × K)) (x : List (Str × Str)),
    List.Forall₂ (fun e p => nuclideOf e.1 = p.1 ∧ fortranNumber io e.2 = .ok p.2) entries ns → (ns.map Prod.fst).Nodup → (∀ k ∈ ns.map Prod.fst, k ∉ comp.map Prod.fst) → x.map Prod.fst = comp.map Prod.fst →
    serpentGo io comp x (entryWords entries) = .ok (comp ++ ns, x ++ (ns.map Prod.fst).zip (entries.map fun e => libraryOf e.1)) := by
  intro entries
  induction entries with
  | nil => intro ns comp x h _ _ _; cases h; simp [entryWords, serpentGo]
  | cons e entries ih =>
    intro ns comp x h hn hc hx
    cases h with
    | cons h1 h2 =>
      rename_i p ns
      rw [List.map_cons, List.nodup_cons] at hn
      obtain ⟨ws, hws⟩ := splitOnChar_head e.1
      have h0 : pyGet (splitOnChar '.' e.1) 0 = .ok p.1 := by rw [hws, h1.1]; rfl
      have hp := hc p.1 (by simp)
      have hx' := ih ns (comp ++ [p]) (x ++ [(p.1, libraryOf e.1)]) h2 hn.2 (by
        intro k hk hk'
        rw [List.map_append, List.mem_append] at hk'
        rcases hk' with hk' | hk'
        · exact hc k (by simp only [List.map_cons, List.mem_cons]; exact .inr hk) hk'
        · simp only [List.map_cons, List.map_nil, List.mem_singleton] at hk'
          subst hk'
          exact hn.1 hk) (by rw [List.map_append, List.map_append, hx]; rfl)
      change serpentGo io comp x (e.1 :: e.2 :: entryWords entries) = _
      rw [serpentGo, h0, h1.2]
      simp only [bind, Except.bind]
      rw [dictSet_fresh hp, dictSet_fresh (by rw [hx]; exact hp), splitOnChar_second, hx']
      simp

theorem serpentBlock_lines : ∀ (ls rest : List Str), (∀ l ∈ ls, ∃ w ws, split l = w :: ws ∧ w ≠ c!"mat") → (rest = [] ∨ ∃ l ls ws, rest = l :: ls ∧ split l = c!"mat" :: ws) →
    serpentBlock (ls ++ rest) = .ok (ls.map fun l => l.takeWhile (· ≠ '%')).flatten := by
  intro ls
  induction ls with
  | nil =>
    intro rest _ hr
    rcases hr with rfl | ⟨l, ls, ws, rfl, h⟩
    · rfl
    · rw [List.nil_append, serpentBlock, h]
      rfl
  | cons l ls ih =>
    intro rest h hr
    obtain ⟨w, ws, hw, hne⟩ := h l (by simp)
    rw [List.cons_append, serpentBlock, hw]
    have h0 : pyGet (w :: ws) 0 = .ok w := rfl
    simp only [h0, bind, Except.bind, if_neg hne, ih rest (fun x hx => h x (by simp [hx])) hr, cutPercent_eq]
    rfl

end

end Csg
