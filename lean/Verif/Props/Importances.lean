import Verif.Model.Blocks
import Verif.Spec.Blocks
import Verif.Spec.Sample
import Verif.Lemmas.CellText
import Verif.Lemmas.FlattenCell

/-!
# C39 and C40: importance cards
-/

set_option linter.unusedSectionVars false

namespace Csg

open Spec

private theorem split_join_blank (l : List Str) : split (join c!" " l) = l.flatMap split := by
  induction l with
  | nil => rfl
  | cons a l ih =>
    cases l with
    | nil => simp [join]
    | cons b l =>
      show split (a ++ c!" " ++ join c!" " (b :: l)) = _
      rw [show a ++ c!" " ++ join c!" " (b :: l) = a ++ ' ' :: join c!" " (b :: l) by simp, split_append_space _ _ _ rfl, ih]
      rfl

private theorem mem_of_splitGo {acc s w : Str} {c : Char} (hw : w ∈ splitGo acc s) (hc : c ∈ w) : c ∈ acc ∨ c ∈ s := by
  induction s generalizing acc with
  | nil =>
    unfold splitGo flush at hw
    split at hw
    · simp at hw
    · left; simpa using (List.mem_singleton.1 hw) ▸ hc
  | cons d s ih =>
    unfold splitGo at hw
    split at hw
    · rcases List.mem_append.1 hw with hw | hw
      · unfold flush at hw
        split at hw
        · simp at hw
        · left; simpa using (List.mem_singleton.1 hw) ▸ hc
      · rcases ih hw with h | h
        · simp at h
        · right; simp [h]
    · rcases ih hw with h | h
      · simp only [List.mem_append, List.mem_singleton] at h
        rcases h with h | h
        · exact Or.inl h
        · right; simp [h]
      · right; simp [h]

private theorem mem_of_split {s w : Str} {c : Char} (hw : w ∈ split s) (hc : c ∈ w) : c ∈ s := by
  rcases mem_of_splitGo hw hc with h | h
  · simp at h
  · exact h

private theorem split_replicate {e : Str} (h : NoSpace e) (hne : e ≠ []) (n : Nat) : split (join c!" " (List.replicate n e)) = List.replicate n e := by
  rw [split_join_blank]
  induction n with
  | zero => rfl
  | succ n ih => rw [List.replicate_succ, List.flatMap_cons, ih, split_word e h hne]; rfl

private theorem repeat_count {w : Str} {n : Nat} (h : IsRepeat w n) : w.elem 'r' = true ∧ pyInt (replaceChar 'r' [] w) = .ok (n : Int) := by
  obtain ⟨ds, rfl, hn⟩ := h
  have hd := parseNat_digits hn
  have hr : 'r' ∉ ds := fun hm => by have := hd _ hm; revert this; decide
  have e : replaceChar 'r' [] (ds ++ c!"r") = ds := by
    unfold replaceChar
    rw [List.flatMap_append]
    have : ∀ l : Str, 'r' ∉ l → l.flatMap (fun d => if d = 'r' then [] else [d]) = l := by
      intro l hl
      induction l with
      | nil => rfl
      | cons c l ih =>
        rw [List.flatMap_cons, ih (fun h => hl (by simp [h])), if_neg (fun h => hl (by simp [h]))]
        rfl
    rw [this ds hr]
    simp
  rw [e]
  refine ⟨by simp, pyInt_ok.2 ?_⟩
  have hne : ds ≠ [] := by
    rintro rfl
    simp [parseNat] at hn
  rw [parseInt_of_digits hne hd]
  unfold parseNat at hn
  rw [if_pos ⟨hne, by simpa using hd⟩] at hn
  rw [Option.some.inj hn]

private theorem expand_spec {last : Option Str} {ws es : List Str} (h : Repeats (fun n => n - 1) last ws es) (prev : Str)
    (hw : ∀ w ∈ ws, w ≠ [] ∧ NoSpace w) (hp : prev ≠ [] ∧ NoSpace prev)
    (hprev : (∃ w, ws.head? = some w ∧ 'r' ∈ w) → last = some prev)
    (hadj : ∀ a v w b, ws = a ++ v :: w :: b → 'r' ∈ v → 'r' ∉ w) :
    ∃ out, expandRepeats prev ws = .ok out ∧ out.flatMap split = es := by
  induction h generalizing prev with
  | nil => exact ⟨[], rfl, rfl⟩
  | @entry ws es last w hr _ ih =>
    obtain ⟨out, h1, h2⟩ := ih w (fun v hv => hw v (by simp [hv])) (hw w (by simp)) (fun _ => rfl)
      (fun a v x b e => hadj (w :: a) v x b (by rw [e]; rfl))
    refine ⟨w :: out, ?_, ?_⟩
    · unfold expandRepeats
      rw [if_neg (by simpa using hr), h1]
      rfl
    · rw [List.flatMap_cons, h2, split_word w (hw w (by simp)).2 (hw w (by simp)).1]
      rfl
  | @again ws es e w n hr hrest ih =>
    obtain ⟨r1, r2⟩ := repeat_count hr
    have he : e = prev := by
      have := hprev ⟨w, rfl, by simpa using r1⟩
      exact Option.some.inj this
    subst he
    have hnext : ¬ ∃ v, ws.head? = some v ∧ 'r' ∈ v := by
      rintro ⟨v, hv, hrv⟩
      cases ws with
      | nil => cases hv
      | cons x ws =>
        cases hv
        exact hadj [] w v ws rfl (by simpa using r1) hrv
    -- the entry before the next one does not matter
    have hany : ∀ p q : Str, expandRepeats p ws = expandRepeats q ws := by
      intro p q
      cases ws with
      | nil => rfl
      | cons x ws =>
        unfold expandRepeats
        have : ¬ x.elem 'r' = true := fun h => hnext ⟨x, rfl, by simpa using h⟩
        rw [if_neg this, if_neg this]
    obtain ⟨out, h1, h2⟩ := ih e (fun v hv => hw v (by simp [hv])) hp (fun _ => rfl)
      (fun a v x b eq => hadj (w :: a) v x b (by rw [eq]; rfl))
    refine ⟨join c!" " (List.replicate (n - 1) e) :: out, ?_, ?_⟩
    · unfold expandRepeats
      rw [if_pos r1, r2]
      show (expandRepeats (join c!" " (List.replicate ((n : Int) - 1).toNat e)) ws >>= _) = _
      rw [hany _ e, h1, show ((n : Int) - 1).toNat = n - 1 by omega]
      rfl
    · rw [List.flatMap_cons, h2, split_replicate hp.2 hp.1]

/-- C39, in part. The code reads `nr` as n-1 further copies of the entry before, if no repetition follows another one. The manual has n copies (see
`C39_refuted`). -/
theorem C39_repeats_partial (p : Particle) (text : Str) (es : List Str) (h : Repeats (fun n => n - 1) none (split text) es)
    (hadj : ∀ a v w b, split text = a ++ v :: w :: b → 'r' ∈ v → 'r' ∉ w) :
    ∃ text', processImportances [(p, text)] = .ok [(p, text')] ∧ split text' = es := by
  unfold processImportances
  by_cases hir : ¬ text.elem 'i' = true ∧ ¬ text.elem 'r' = true
  · rw [if_pos (by simpa using hir)]
    refine ⟨text, rfl, ?_⟩
    have hno : ∀ w ∈ split text, 'r' ∉ w := by
      intro w hw hr
      exact hir.2 (by simpa using mem_of_split hw hr)
    clear hadj
    generalize split text = ws at h hno
    generalize (none : Option Str) = last at h
    induction h with
    | nil => rfl
    | entry last w hr _ ih => rw [ih fun v hv => hno v (by simp [hv])]
    | again e w n hr _ _ => exact absurd (by simpa using (repeat_count hr).1) (hno w (by simp))
  · rw [if_neg (by simpa using hir)]
    have hsplit := split_words text
    cases hws : split text with
    | nil =>
      rw [hws] at h
      cases h
      exact ⟨[], rfl, rfl⟩
    | cons w ws =>
      rw [hws] at h hsplit hadj
      obtain ⟨out, h1, h2⟩ := expand_spec h ((w :: ws).getLastD []) hsplit (by
          have : (w :: ws).getLastD [] ∈ w :: ws := by
            rw [List.getLastD_cons]
            cases ws with
            | nil => simp
            | cons x ws => rw [List.getLastD_cons]; exact List.mem_cons_of_mem _ (by
                rw [← List.getLastD_cons (a := w), List.getLastD_cons]; exact List.getLastD_mem_cons ..)
          exact hsplit _ this) (by
          rintro ⟨v, hv, hr⟩
          cases hv
          cases h with
          | entry _ _ hr' _ => exact absurd hr hr') hadj
      exact ⟨join c!" " out, by rw [h1]; rfl, by rw [split_join_blank, h2]⟩

example : Repeats (fun n => n - 1) none (split c!" 2 3r 0.5 2r 0") [c!"2", c!"2", c!"2", c!"0.5", c!"0.5", c!"0"] :=
  .entry none c!"2" (by decide) (.again c!"2" c!"3r" 3 ⟨c!"3", rfl, by decide⟩
    (.entry _ c!"0.5" (by decide) (.again c!"0.5" c!"2r" 2 ⟨c!"2", rfl, by decide⟩ (.entry _ c!"0" (by decide) (.nil _)))))

/-- C39 is false: `1 2r 0` stands for four entries, the code has three. -/
theorem C39_refuted : ∃ (text text' : Str) (es : List Str), Repeats id none (split text) es ∧
    processImportances [(.neutron, text)] = .ok [(.neutron, text')] ∧ split text' ≠ es :=
  ⟨c!" 1 2r 0", c!"1 1 0", [c!"1", c!"1", c!"1", c!"0"],
    .entry none c!"1" (by decide) (.again c!"1" c!"2r" 2 ⟨c!"2", rfl, by decide⟩ (.entry _ c!"0" (by decide) (.nil _))), by decide +kernel, by decide⟩

/-- Repetitions are not even expanded if a card for another particle without them comes before. -/
theorem C39_order_refuted : ∃ (text : Str) (es : List Str), Repeats id none (split text) es ∧ es ≠ split text ∧
    getImportances [c!"imp:p 1 1 0\n", c!"imp:n" ++ text, c!"nps 5\n"] = .ok [(.photon, c!" 1 1 0"), (.neutron, text)] ∧
    ∀ c : Cell ℚ, applyImportances sampleIO [(.photon, c!" 1 1 0"), (.neutron, text)] [c, c, c] = .error .valueError := by
  refine ⟨c!" 1 1r 0", [c!"1", c!"1", c!"0"],
    .entry none c!"1" (by decide) (.again c!"1" c!"1r" 1 ⟨c!"1", rfl, by decide⟩ (.entry _ c!"0" (by decide) (.nil _))), by decide, by decide +kernel, ?_⟩
  intro c
  rfl

/-! ## C40 -/

private theorem split_rstrip (s : Str) : split (rstrip s) = split s := by
  have h : s = rstrip s ++ (s.reverse.takeWhile isSpace).reverse := by
    unfold rstrip
    rw [← List.reverse_append, List.takeWhile_append_dropWhile, List.reverse_reverse]
  conv_rhs => rw [h]
  rw [split_append_spaces]
  simp only [List.all_reverse]
  rw [List.all_eq_true]
  intro c hc
  exact (List.all_eq_true.1 List.all_takeWhile) c hc

private theorem rstrip_blank (s : Str) : rstrip (' ' :: s) = [] ∨ ∃ t, rstrip (' ' :: s) = ' ' :: t := by
  have h : ' ' :: s = rstrip (' ' :: s) ++ ((' ' :: s).reverse.takeWhile isSpace).reverse := by
    unfold rstrip
    rw [← List.reverse_append, List.takeWhile_append_dropWhile, List.reverse_reverse]
  cases hr : rstrip (' ' :: s) with
  | nil => exact Or.inl rfl
  | cons c t =>
    right
    rw [hr] at h
    rw [List.cons_append] at h
    injection h with h1 _
    exact ⟨t, by rw [h1]⟩

private theorem split_glue (x s : Str) : split (x ++ rstrip (' ' :: s)) = split x ++ split (' ' :: s) := by
  rw [← split_rstrip (' ' :: s)]
  rcases rstrip_blank s with h | ⟨t, h⟩
  · rw [h]; simp [split_nil]
  · rw [h, split_append_space _ _ _ rfl, split_space_cons _ _ rfl]

theorem importancesGo_skip (d : List (Particle × Str)) (before rest : List Str) (h : ∀ l ∈ before, hasInfix c!"imp" l = false) :
    importancesGo d none (before ++ rest) = importancesGo d none rest := by
  induction before with
  | nil => rfl
  | cons l ls ih =>
    rw [List.cons_append]
    conv_lhs => unfold importancesGo
    simp only
    rw [if_neg (by rw [h l (by simp)]; decide)]
    exact ih fun x hx => h x (by simp [hx])

private theorem importancesGo_conts (d : List (Particle × Str)) (p : Particle) (t : Str) (conts rest : List Str) (h : ∀ l ∈ conts, ∃ x, l = c!"     " ++ x) :
    importancesGo d (some (p, t)) (conts ++ rest) = importancesGo d (some (p, t ++ (conts.map rstrip).flatten)) rest := by
  induction conts generalizing t with
  | nil => simp
  | cons l ls ih =>
    obtain ⟨x, hx⟩ := h l (by simp)
    rw [List.cons_append]
    conv_lhs => unfold importancesGo
    simp only
    rw [if_pos (by rw [hx]; rfl), ih _ fun y hy => h y (by simp [hy])]
    simp

private theorem split_conts (x : Str) (conts : List Str) (h : ∀ l ∈ conts, ∃ x, l = c!"     " ++ x) :
    split (x ++ (conts.map rstrip).flatten) = split x ++ conts.flatMap split := by
  induction conts generalizing x with
  | nil => simp
  | cons l ls ih =>
    obtain ⟨y, rfl⟩ := h l (by simp)
    rw [List.map_cons, List.flatten_cons, ← List.append_assoc, ih _ fun z hz => h z (by simp [hz]), List.flatMap_cons, ← List.append_assoc]
    congr 1
    exact split_glue x _

section
variable {K : Type} [Field K]

private theorem assign_ok (io : NumIO K) (cells : List (Cell K)) (ws : List Str) (values : List K)
    (hv : List.Forall₂ (fun w x => io.float w = .ok x) ws values) (hlen : ws.length = cells.length) :
    assignImportances io cells ws = .ok (List.zipWith (fun c x => { c with importance := x }) cells values) := by
  induction hv generalizing cells with
  | nil =>
    cases cells with
    | nil => rfl
    | cons c cs => simp at hlen
  | cons hx _ ih =>
    cases cells with
    | nil => simp at hlen
    | cons c cs =>
      unfold assignImportances
      rw [hx, ih cs (by simpa using hlen)]
      rfl

/-- An importance card for neutrons with plain numbers. -/
theorem getImportances_card (before conts after : List Str) (body next : Str)
    (hbefore : ∀ l ∈ before ++ next :: after, hasInfix c!"imp" l = false) (hconts : ∀ l ∈ conts, ∃ x, l = c!"     " ++ x)
    (hnext : ¬ ∃ x, next = c!"     " ++ x)
    (hplain : ∀ w ∈ split body ++ conts.flatMap split, 'r' ∉ w ∧ 'i' ∉ w) :
    ∃ t, getImportances (before ++ (c!"imp:n " ++ body) :: conts ++ next :: after) = .ok [(.neutron, t)] ∧ split t = split body ++ conts.flatMap split := by
  have hsplit : split (rstrip (' ' :: body) ++ (conts.map rstrip).flatten) = split body ++ conts.flatMap split := by
    rw [split_conts _ _ hconts, split_rstrip, split_space_cons _ _ rfl]
  generalize ht : rstrip (' ' :: body) ++ (conts.map rstrip).flatten = t at hsplit
  have hread : importancesGo [] none (before ++ (c!"imp:n " ++ body) :: conts ++ next :: after) = .ok [(.neutron, t)] := by
    rw [List.append_assoc, importancesGo_skip _ _ _ fun l hl => hbefore l (by simp [hl]), List.cons_append]
    unfold importancesGo
    have hsp : split (c!"imp:n " ++ body) = c!"imp:n" :: split body := by
      rw [show c!"imp:n " ++ body = c!"imp:n" ++ ' ' :: body from rfl, split_word_space _ _ _ rfl (by unfold NoSpace; decide) (by decide)]
    simp only
    rw [if_pos (by rfl), hsp]
    show importancesGo [] (some (.neutron, rstrip (' ' :: body))) (conts ++ next :: after) = _
    rw [importancesGo_conts _ _ _ _ _ hconts, ht]
    unfold importancesGo
    simp only
    rw [if_neg (by
      intro hc
      unfold continues at hc
      rw [List.isPrefixOf_iff_prefix] at hc
      obtain ⟨x, hx⟩ := hc
      exact hnext ⟨x, hx.symm⟩), if_neg (by rw [hbefore next (by simp)]; decide)]
    have := importancesGo_skip (dictSet [] Particle.neutron t) after [] fun l hl => hbefore l (by simp [hl])
    rw [List.append_nil] at this
    rw [this]
    rfl
  have hproc : processImportances [(.neutron, t)] = .ok [(.neutron, t)] := by
    unfold processImportances
    rw [if_pos]
    have key : ∀ c : Char, isSpace c = false → (∀ w ∈ split body ++ conts.flatMap split, c ∉ w) → t.elem c = false := by
      intro c hc h
      rw [Bool.eq_false_iff]
      intro hm
      obtain ⟨w, hw, hcw⟩ := split_mem t c hc (by simpa using hm)
      rw [hsplit] at hw
      exact h w hw hcw
    rw [key 'i' (by decide) fun w hw => (hplain w hw).2, key 'r' (by decide) fun w hw => (hplain w hw).1]
    decide
  refine ⟨t, ?_, hsplit⟩
  unfold getImportances
  rw [hread]
  exact hproc

/-- C40. If the data block has one importance card, for neutrons, that may have continuation lines and has as many entries as there are cells, all plain numbers, then
the cells get the values of the entries in order and keep everything else. -/
theorem C40_importances (io : NumIO K) (cells : List (Cell K)) (before conts after : List Str) (body next : Str) (values : List K)
    (hbefore : ∀ l ∈ before ++ next :: after, hasInfix c!"imp" l = false) (hconts : ∀ l ∈ conts, ∃ x, l = c!"     " ++ x)
    (hnext : ¬ ∃ x, next = c!"     " ++ x)
    (hplain : ∀ w ∈ split body ++ conts.flatMap split, 'r' ∉ w ∧ 'i' ∉ w)
    (hvalues : List.Forall₂ (fun w x => io.float w = .ok x) (split body ++ conts.flatMap split) values) (hlen : values.length = cells.length) :
    ∃ imps, getImportances (before ++ (c!"imp:n " ++ body) :: conts ++ next :: after) = .ok imps ∧
      applyImportances io imps cells = .ok (List.zipWith (fun c x => { c with importance := x }) cells values) := by
  obtain ⟨t, ht, hsplit⟩ := getImportances_card before conts after body next hbefore hconts hnext hplain
  refine ⟨[(.neutron, t)], ht, ?_⟩
  unfold applyImportances
  rw [if_neg (by simp)]
  simp only [List.lookup, beq_self_eq_true]
  have hl : (split body ++ conts.flatMap split).length = cells.length := by rw [hvalues.length_eq, hlen]
  by_cases hte : t = []
  · rw [if_pos hte]
    have hnil : split body ++ conts.flatMap split = [] := by rw [← hsplit, hte]; rfl
    rw [hnil] at hvalues hl
    cases hvalues
    cases cells with
    | nil => rfl
    | cons c cs => simp at hl
  · rw [if_neg hte, hsplit]
    exact assign_ok io cells _ values hvalues hl

end

example : (getImportances [c!"mode n\n", c!"imp:n 1 1\n", c!"     2 0 \n", c!"nps 5\n"] >>= fun d =>
    applyImportances sampleIO d (List.replicate 4 (Cell.blank : Cell ℚ))).map (List.map Cell.importance) = .ok [1, 1, 2, 0] := by decide +kernel

end Csg
