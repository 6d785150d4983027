import Verif.Lemmas.Material
import Verif.Lemmas.Params
import Verif.Model.DataCards
import Verif.Spec.DataCards

/-!
# Cards of the data block
-/

namespace Csg

open Spec

private theorem takeWhile_self {p : Char → Bool} {s : Str} (h : ∀ c ∈ s, p c = true) : s.takeWhile p = s := by
  have := List.takeWhile_append_of_pos (l₂ := []) h
  simpa using this

/-- The text before the first dollar. -/
theorem cutDollar_eq (s : Str) : cutDollar s = s.takeWhile (· ≠ '$') := by
  unfold cutDollar
  by_cases h : '$' ∈ s
  · obtain ⟨a, b, rfl, ha⟩ := List.eq_append_cons_of_mem h
    rw [if_pos (List.elem_iff.2 h), findChar_append _ _ _ ha,
      List.takeWhile_append_of_pos fun x hx => by simp only [ne_eq, decide_not, Bool.not_eq_eq_eq_not, Bool.not_true, decide_eq_false_iff_not]; rintro rfl; exact ha hx]
    simp [sliceTo]
  · rw [if_neg fun hh => h (List.elem_iff.1 hh)]
    exact (takeWhile_self fun c hc => by simp only [decide_eq_true_eq]; rintro rfl; exact h hc).symm

/-- Words up to a dollar. -/
def cutWords : List Str → List Str
  | [] => []
  | w :: ws => if '$' ∈ w then flush (w.takeWhile (· ≠ '$')) else w :: cutWords ws

theorem cutWords_append {a b : List Str} (h : ∀ w ∈ a, '$' ∉ w) : cutWords (a ++ b) = a ++ cutWords b := by
  induction a with
  | nil => rfl
  | cons w a ih =>
    rw [List.cons_append, cutWords, if_neg (h w (by simp)), ih fun x hx => h x (by simp [hx])]
    rfl

/-- Cutting at a dollar, before or after splitting. -/
theorem split_cut (s : Str) : split (s.takeWhile (· ≠ '$')) = cutWords (split s) := by
  have gen : ∀ (s acc : Str), '$' ∉ acc → splitGo acc (s.takeWhile (· ≠ '$')) = cutWords (splitGo acc s) := by
    intro s
    induction s with
    | nil =>
      intro acc h
      simp only [List.takeWhile_nil, splitGo, flush]
      split
      · rfl
      · rw [cutWords, if_neg h]; rfl
    | cons c s ih =>
      intro acc h
      by_cases hd : c = '$'
      · subst hd
        rw [List.takeWhile_cons_of_neg (by simp)]
        have hs : isSpace '$' = false := by decide
        simp only [splitGo, hs, Bool.false_eq_true, if_false]
        have hword : ∀ (s a : Str), '$' ∉ acc → (∃ r, splitGo (acc ++ '$' :: a) s = (acc ++ '$' :: r) :: (splitGo (acc ++ '$' :: a) s).tail) := by
          intro s
          induction s with
          | nil => intro a _; exact ⟨a, by simp [splitGo, flush]⟩
          | cons x s ih =>
            intro a ha
            by_cases hx : isSpace x = true
            · refine ⟨a, ?_⟩
              simp [splitGo, hx, flush]
            · obtain ⟨r, hr⟩ := ih (a ++ [x]) ha
              refine ⟨r, ?_⟩
              simp only [splitGo, hx, Bool.false_eq_true, if_false]
              simpa using hr
        obtain ⟨r, hr⟩ := hword s [] h
        rw [hr, cutWords, if_pos (by simp)]
        congr 1
        rw [List.takeWhile_append_of_pos (fun x hx => by simp only [decide_eq_true_eq]; rintro rfl; exact h hx), List.takeWhile_cons_of_neg (by simp), List.append_nil]
      · rw [List.takeWhile_cons_of_pos (by simpa using hd)]
        by_cases hs : isSpace c = true
        · simp only [splitGo, hs, if_true]
          rw [cutWords_append, ih [] (by simp)]
          intro w hw
          unfold flush at hw
          split at hw
          · cases hw
          · rw [List.mem_singleton.1 hw]; exact h
        · simp only [splitGo, hs, Bool.false_eq_true, if_false]
          refine ih _ ?_
          rw [List.mem_append, List.mem_singleton]
          rintro (h' | h')
          · exact h h'
          · exact hd h'.symm
  exact gen s [] (by simp)

theorem fiveBlanks_iff {l : Str} : continues l = true ↔ FiveBlanks l := by
  unfold continues FiveBlanks
  rw [List.isPrefixOf_iff_prefix]
  constructor
  · rintro ⟨t, h⟩; exact ⟨t, h.symm⟩
  · rintro ⟨t, h⟩; exact ⟨t, h.symm⟩

/-- The continuation lines of a card end where the next begins. -/
theorem takeWhile_more {more : List Str} {gs : List (List Str)} (hm : ∀ l ∈ more, FiveBlanks l) (hg : DataCards gs) :
    (more ++ gs.flatten).takeWhile continues = more := by
  rw [List.takeWhile_append_of_pos fun l hl => fiveBlanks_iff.2 (hm l hl)]
  cases gs with
  | nil => simp
  | cons g gs =>
    obtain ⟨first, m, rfl, hf, _⟩ := hg g (by simp)
    rw [List.flatten_cons, List.cons_append, List.takeWhile_cons_of_neg fun h => hf (fiveBlanks_iff.1 h), List.append_nil]

theorem split_glued (x : Str) (conts : List Str) (h : ∀ l ∈ conts, ∃ t, l = ' ' :: t) : split (x ++ conts.flatten) = split x ++ conts.flatMap split := by
  induction conts generalizing x with
  | nil => simp
  | cons l ls ih =>
    obtain ⟨t, rfl⟩ := h l (by simp)
    rw [List.flatten_cons, ← List.append_assoc, ih _ fun z hz => h z (by simp [hz]), List.flatMap_cons, ← List.append_assoc, split_append_space _ _ _ (by decide), split_space_cons _ _ (by decide)]

/-! ## Materials -/

theorem isMaterialLine_iff {l : Str} : isMaterialLine l = true ↔ LooksLikeMaterial l := by
  unfold isMaterialLine LooksLikeMaterial
  have hsplit : l = List.replicate (l.takeWhile (· = ' ')).length ' ' ++ l.dropWhile (· = ' ') := by
    conv_lhs => rw [← List.takeWhile_append_dropWhile (p := (· = ' ')) (l := l)]
    congr 1
    refine List.eq_replicate_iff.2 ⟨rfl, fun b hb => ?_⟩
    have := List.all_eq_true.1 (List.all_takeWhile (l := l) (p := (· = ' '))) b hb
    simpa using this
  constructor
  · intro h
    split at h
    · rename_i d t he
      exact ⟨_, d, t, by rw [← he]; exact hsplit, h⟩
    · cases h
  · rintro ⟨k, d, t, rfl, hd⟩
    have : (List.replicate k ' ' ++ 'm' :: d :: t).dropWhile (· = ' ') = 'm' :: d :: t := by
      rw [List.dropWhile_append_of_pos (by intro c hc; simpa using (List.mem_replicate.1 hc).2), List.dropWhile_cons_of_neg (by decide)]
    rw [this]
    exact hd

theorem isDigit_noSpace {c : Char} (h : isDigit c = true) : isSpace c = false := by
  by_contra hs
  rw [Bool.not_eq_false] at hs
  simp only [isSpace, Bool.or_eq_true, beq_iff_eq] at hs
  rcases hs with ((((rfl | rfl) | rfl) | rfl) | rfl) | rfl <;> revert h <;> decide

theorem looks_of_head {l n : Str} (h : MaterialHead l n) : LooksLikeMaterial l := by
  obtain ⟨h1, h2, k, t, rfl, _⟩ := h
  cases n with
  | nil => exact absurd rfl h1
  | cons d n => exact ⟨k, d, n ++ t, by simp, h2 d (by simp)⟩

/-- The first word of the first line. -/
theorem head_words {l n : Str} (h : MaterialHead l n) : ∃ ws, split l = ('m' :: n) :: ws := by
  obtain ⟨h1, h2, k, t, rfl, ht⟩ := h
  have hw : NoSpace ('m' :: n) := by
    intro c hc
    rcases List.mem_cons.1 hc with rfl | hc
    · decide
    · exact isDigit_noSpace (h2 c hc)
  rw [List.append_assoc, split_spaces_append _ _ (by rw [List.all_eq_true]; intro c hc; rw [(List.mem_replicate.1 hc).2]; decide)]
  cases t with
  | nil => rw [List.append_nil, split_word _ hw (by simp)]; exact ⟨[], rfl⟩
  | cons c t =>
    rw [split_word_space _ _ _ (ht c rfl) hw (by simp)]
    exact ⟨_, rfl⟩

theorem replace_m {n : Str} (h : ∀ c ∈ n, isDigit c = true) : replaceChar 'm' [] ('m' :: n) = n := by
  rw [replaceChar_nil_eq_filter, List.filter_cons_of_neg (by simp)]
  refine List.filter_eq_self.2 fun c hc => ?_
  simp only [bne_iff_ne, ne_eq]
  rintro rfl
  exact absurd (h _ hc) (by decide)

theorem filter_line {l : Str} (h : Line l) : split ((l.takeWhile (· ≠ '$')).filter (· ≠ '\n')) = split (l.takeWhile (· ≠ '$')) := by
  obtain ⟨t, ht, rfl | rfl⟩ := h
  · rw [List.filter_eq_self.2]
    intro c hc
    simp only [ne_eq, decide_not, Bool.not_eq_eq_eq_not, Bool.not_true, decide_eq_false_iff_not]
    rintro rfl
    exact ht ((List.takeWhile_prefix _).subset hc)
  · have hid : ∀ s : Str, '\n' ∉ s → s.filter (· ≠ '\n') = s := fun s hs => List.filter_eq_self.2 fun c hc => by
      simp only [ne_eq, decide_not, Bool.not_eq_eq_eq_not, Bool.not_true, decide_eq_false_iff_not]
      rintro rfl
      exact hs hc
    by_cases hd : '$' ∈ t
    · have : (t ++ c!"\n").takeWhile (· ≠ '$') = t.takeWhile (· ≠ '$') := by
        obtain ⟨a, b, rfl, ha⟩ := List.eq_append_cons_of_mem hd
        rw [List.append_assoc]
        have pos : ∀ x ∈ a, decide (x ≠ '$') = true := fun x hx => by simp only [decide_eq_true_eq]; rintro rfl; exact ha hx
        rw [List.takeWhile_append_of_pos pos, List.takeWhile_append_of_pos pos]
        simp
      rw [this, hid]
      exact fun h => ht ((List.takeWhile_prefix _).subset h)
    · have hp : ∀ x ∈ t, decide (x ≠ '$') = true := fun x hx => by simp only [decide_eq_true_eq]; rintro rfl; exact hd hx
      rw [List.takeWhile_append_of_pos hp]
      have : (c!"\n").takeWhile (fun x => decide (x ≠ '$')) = c!"\n" := by decide
      rw [this, List.filter_append, hid t ht]
      have : (c!"\n").filter (fun x => decide (x ≠ '\n')) = [] := by decide
      rw [this, List.append_nil, split_append_spaces _ _ (by decide)]

/-- The words of the text of a material card. -/
theorem material_words {first n : Str} {more : List Str} (h : MaterialHead first n) (hm : ∀ l ∈ more, FiveBlanks l ∧ Line l) :
    split ((cutDollar (join c!" " ((split first).drop 1) ++ c!" ") ++ (more.map cutDollar).flatten).filter (· ≠ '\n')) = (cardWords (first :: more)).drop 1 := by
  obtain ⟨ws, hws⟩ := head_words h
  have hwords := split_words first
  rw [hws] at hwords
  have hfirst : split (first.takeWhile (· ≠ '$')) = ('m' :: n) :: cutWords ws := by
    rw [split_cut, hws, cutWords, if_neg]
    intro hd
    rcases List.mem_cons.1 hd with hd | hd
    · exact absurd hd (by decide)
    · exact absurd (h.2.1 _ hd) (by decide)
  unfold cardWords
  rw [List.flatMap_cons, hfirst, List.cons_append, List.drop_succ_cons, List.drop_zero, hws, List.drop_succ_cons, List.drop_zero, List.filter_append]
  have e1 : (cutDollar (join c!" " ws ++ c!" ")).filter (· ≠ '\n') = cutDollar (join c!" " ws ++ c!" ") := by
    refine List.filter_eq_self.2 fun c hc => ?_
    simp only [ne_eq, decide_not, Bool.not_eq_eq_eq_not, Bool.not_true, decide_eq_false_iff_not]
    rintro rfl
    rw [cutDollar_eq] at hc
    have hc := (List.takeWhile_prefix _).subset hc
    rw [List.mem_append] at hc
    rcases hc with hc | hc
    · have hj : ∀ ws : List Str, (∀ w ∈ ws, w ≠ [] ∧ NoSpace w) → '\n' ∉ join c!" " ws := by
        intro ws
        induction ws with
        | nil => simp [join]
        | cons w ws ih =>
          intro hw hm
          have hn : '\n' ∉ w := fun h => absurd ((hw w (by simp)).2 _ h) (by decide)
          cases ws with
          | nil => exact hn hm
          | cons v vs =>
            rw [join] at hm
            · rw [List.mem_append, List.mem_append] at hm
              rcases hm with (hm | hm) | hm
              · exact hn hm
              · revert hm; decide
              · exact ih (fun x hx => hw x (by simp only [List.mem_cons] at hx ⊢; tauto)) hm
            · simp
      exact hj ws (fun w hw => hwords w (by simp [hw])) hc
    · revert hc; decide
  have e2 : ((more.map cutDollar).flatten).filter (· ≠ '\n') = ((more.map fun l => (l.takeWhile (· ≠ '$')).filter (· ≠ '\n'))).flatten := by
    rw [List.filter_flatten, List.map_map]
    congr 1
    exact List.map_congr_left fun l _ => by simp [cutDollar_eq]
  rw [e1, e2, split_glued]
  · congr 1
    · rw [cutDollar_eq, split_cut, split_append_spaces _ _ (by decide), split_joinWords _ fun w hw => hwords w (by simp [hw])]
    · rw [List.flatMap_map]
      exact List.flatMap_congr fun l hl => filter_line (hm l hl).2
  · intro x hx
    obtain ⟨l, hl, rfl⟩ := List.mem_map.1 hx
    obtain ⟨t, rfl⟩ := (hm l hl).1
    exact ⟨_, rfl⟩

section
variable {K : Type} [Field K]

theorem materials_skip (io : NumIO K) {ls : List Str} (h : ∀ l ∈ ls, ¬ LooksLikeMaterial l) (mats : List (Str × Material K)) (rest : List Str) :
    getMaterialCards io mats (ls ++ rest) = getMaterialCards io mats rest := by
  induction ls with
  | nil => rfl
  | cons l ls ih =>
    rw [List.cons_append, getMaterialCards, if_neg fun hl => h l (by simp) (isMaterialLine_iff.1 hl), ih fun x hx => h x (by simp [hx])]

end

/-! ## Transforms -/

theorem isTransformLine_iff {l : Str} : isTransformLine l = true ↔ ∃ d t, l = trName d t := by
  constructor
  · intro h
    unfold isTransformLine at h
    split at h
    · rename_i t; exact ⟨true, t, rfl⟩
    · rename_i t; exact ⟨false, t, rfl⟩
    · cases h
  · rintro ⟨d, t, rfl⟩
    cases d <;> rfl

section
variable {K : Type} [Field K]

theorem transforms_skip (io : NumIO K) (cosDeg : K → K) {ls : List Str} (h : ∀ l ∈ ls, isTransformLine l = false) (trs : List (Str × Transform K)) (rest : List Str) :
    getTransformCards io cosDeg trs (ls ++ rest) = getTransformCards io cosDeg trs rest := by
  induction ls with
  | nil => rfl
  | cons l ls ih =>
    rw [List.cons_append, getTransformCards, if_neg (by rw [h l (by simp)]; simp), ih fun x hx => h x (by simp [hx])]

theorem transform_words {first : Str} {more : List Str} (hm : ∀ l ∈ more, FiveBlanks l) (hd : ∀ l ∈ first :: more, '$' ∉ l) :
    split (first ++ more.flatten) = cardWords (first :: more) := by
  have hid : ∀ l ∈ first :: more, l.takeWhile (· ≠ '$') = l := fun l hl => takeWhile_self fun c hc => by
    simp only [decide_eq_true_eq]
    rintro rfl
    exact hd l hl hc
  unfold cardWords
  rw [List.flatMap_cons, hid first (by simp), split_glued _ _ fun l hl => by obtain ⟨t, rfl⟩ := hm l hl; exact ⟨_, rfl⟩]
  congr 1
  exact List.flatMap_congr fun l hl => by rw [hid l (by simp [hl])]

end

end Csg
