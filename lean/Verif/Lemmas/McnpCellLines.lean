import Verif.Lemmas.McnpCellBack
import Verif.Lemmas.WrapLines
import Mathlib.Data.List.Chain

/-!
# The lines of a written MCNP cell
-/

set_option linter.unusedSectionVars false

namespace Csg

open Spec

/-! ## Gaps -/

theorem gap_word {w : Str} (hb : ' ' ∉ w) (hne : w ≠ []) {r : Str} (hr : gapOk 0 r) {k : Nat} (hk : k ≤ 2) : gapOk k (w ++ r) := by
  induction w generalizing k with
  | nil => exact absurd rfl hne
  | cons c w ih =>
    simp only [List.mem_cons, not_or] at hb
    rw [List.cons_append]
    unfold gapOk
    rw [if_neg (fun e => hb.1 e.symm)]
    refine ⟨hk, ?_⟩
    cases w with
    | nil => exact hr
    | cons d w => exact ih hb.2 (by simp) (by omega)

theorem gap_blanked {ws : List Str} (h : ∀ w ∈ ws, w ≠ [] ∧ ' ' ∉ w) {r : Str} (hr : gapOk 1 r) : ∀ k ≤ 1, gapOk k (blanked ws ++ r) := by
  induction ws with
  | nil => intro k hk; exact gapOk_mono hr hk
  | cons w ws ih =>
    intro k hk
    rw [blanked_cons, List.append_assoc, List.cons_append]
    refine gap_word (h w (by simp)).2 (h w (by simp)).1 ?_ (by omega)
    unfold gapOk
    rw [if_pos rfl]
    exact ih (fun v hv => h v (List.mem_cons_of_mem _ hv)) 1 (by omega)

/-- No two blanks follow each other. -/
def NoDouble (s : Str) : Prop := s.IsChain fun a b => ¬ (a = ' ' ∧ b = ' ')

theorem squeeze_head (s : Str) : (squeeze s).head? = s.head? := by
  induction s with
  | nil => rfl
  | cons c s ih =>
    unfold squeeze
    split
    · rename_i h; rw [ih, h.2, List.head?_cons, h.1]
    · rfl

theorem squeeze_noDouble (s : Str) : NoDouble (squeeze s) := by
  unfold NoDouble
  induction s with
  | nil => exact .nil
  | cons c s ih =>
    unfold squeeze
    split
    · exact ih
    · rename_i h
      rw [List.isChain_cons]
      refine ⟨?_, ih⟩
      intro d hd hh
      rw [squeeze_head] at hd
      exact h ⟨hh.1, by rw [Option.mem_def.1 hd, hh.2]⟩

theorem strip_noDouble {s : Str} (h : NoDouble s) : NoDouble (strip s) := by
  obtain ⟨a, b, e, -, -⟩ := strip_spec s
  exact List.IsChain.infix h ⟨a, b, e.symm⟩

theorem gap_noDouble {S r : Str} (h : NoDouble S) (hr : gapOk 1 r) : gapOk 0 (S ++ r) := by
  have key : ∀ (S : Str) (k : Nat), NoDouble S → k ≤ 1 → (k = 1 → S.head? ≠ some ' ') → gapOk k (S ++ r) := by
    intro S
    induction S with
    | nil => intro k _ hk _; exact gapOk_mono hr hk
    | cons c S ih =>
      intro k h hk hh
      have h' := List.isChain_cons.1 h
      rw [List.cons_append]
      unfold gapOk
      split
      · rename_i hc
        have : k = 0 := by
          by_contra hk0
          exact hh (by omega) (by rw [hc]; rfl)
        subst this
        refine ih 1 h'.2 (by omega) fun _ e => ?_
        exact h'.1 ' ' (by rw [e]; rfl) ⟨hc, rfl⟩
      · exact ⟨by omega, ih 0 h'.2 (by omega) fun h => absurd h (by omega)⟩
  exact key S 0 h (by omega) fun h => absurd h (by omega)

theorem strip_head {s : Str} {c : Char} {t : Str} (h : strip s = c :: t) : isSpace c = false := by
  obtain ⟨a, b, e, ha, hb⟩ := strip_spec s
  unfold strip at h
  -- the text without blanks in front starts with a character that is none
  have h1 : ∃ u, s.dropWhile isSpace = (c :: t) ++ u := by
    refine ⟨((s.dropWhile isSpace).reverse.takeWhile isSpace).reverse, ?_⟩
    rw [← h, ← List.reverse_append, List.takeWhile_append_dropWhile, List.reverse_reverse]
  obtain ⟨u, h1⟩ := h1
  have := List.head?_dropWhile_not (p := isSpace) s
  rw [h1] at this
  simpa using this

section
variable {K : Type} [Field K] [DecidableEq K]

/-- Blanks are the only white space. -/
def OnlyBlanks (s : Str) : Prop := ∀ c ∈ s, isSpace c = true → c = ' '

theorem OnlyBlanks.append {a b : Str} (ha : OnlyBlanks a) (hb : OnlyBlanks b) : OnlyBlanks (a ++ b) := by
  intro c hc
  rcases List.mem_append.1 hc with h | h
  · exact ha c h
  · exact hb c h

theorem onlyBlanks_noSpace {s : Str} (h : NoSpace s) : OnlyBlanks s := fun c hc hs => by rw [h c hc] at hs; cases hs

theorem onlyBlanks_blanked {ws : List Str} (h : ∀ w ∈ ws, NoSpace w) : OnlyBlanks (blanked ws) := by
  intro c hc hs
  rcases mem_blanked hc with h' | ⟨w, hw, hc⟩
  · exact h'
  · rw [h w hw c hc] at hs; cases hs

/-- The fill text and its words. -/
theorem mcnpFillText_words (io : NumIO K) (c : Cell K) (offs rots : List Str) (hp : WritableParams io c offs rots) :
    ∃ ft fw, mcnpFillText io c = .ok ft ∧ FillWords c offs rots fw ∧ (∀ r, split (ft ++ ' ' :: r) = fw ++ split r) ∧
      (∀ r, gapOk 1 r → gapOk 1 (ft ++ r)) ∧ OnlyBlanks ft ∧ (ft = [] ∨ ∃ t, ft = ' ' :: t) := by
  cases hf : c.fill with
  | none =>
    refine ⟨[], [], by simp [mcnpFillText, hf], .none hf, fun r => by rw [List.nil_append, split_space_cons ' ' _ (by decide)]; rfl, fun r h => h, by simp [OnlyBlanks], Or.inl rfl⟩
  | some f =>
    have hft := hp.fill f hf
    have hfb : ' ' ∉ c!"fill=" ++ f := by
      simp only [List.mem_append, not_or]
      exact ⟨by decide, token_noBlank hft.1⟩
    have hfs : NoSpace (c!"fill=" ++ f) := by
      intro x hx
      rcases List.mem_append.1 hx with h | h
      · clear hx; revert x; decide
      · exact hft.1.2.1 x h
    have hsplit : ∀ r, split (c!" fill=" ++ f ++ c!" " ++ r) = (c!"fill=" ++ f) :: split r := by
      intro r
      have e : c!" fill=" ++ f ++ c!" " ++ r = ' ' :: ((c!"fill=" ++ f) ++ (' ' :: r)) := by simp
      rw [e, split_space_cons ' ' _ (by decide), split_word_space _ _ ' ' (by decide) hfs (by simp)]
    have hgap : ∀ r, gapOk 1 r → gapOk 1 (c!" fill=" ++ f ++ c!" " ++ r) := by
      intro r hr
      have e : c!" fill=" ++ f ++ c!" " ++ r = ' ' :: ((c!"fill=" ++ f) ++ (' ' :: r)) := by simp
      rw [e]
      unfold gapOk
      rw [if_pos rfl]
      refine gap_word hfb (by simp) ?_ (by omega)
      unfold gapOk
      rw [if_pos rfl]
      exact hr
    have hob : OnlyBlanks (c!" fill=" ++ f ++ c!" ") := by
      refine OnlyBlanks.append (OnlyBlanks.append ?_ (onlyBlanks_noSpace hft.1.2.1)) ?_
      · unfold OnlyBlanks; decide
      · unfold OnlyBlanks; decide
    by_cases hno : c.offset = none ∧ c.rotation = none
    · refine ⟨c!" fill=" ++ f ++ c!" ", [c!"fill=" ++ f], by simp [mcnpFillText, hf, hno.1, hno.2], .plain f hf hno.1 hno.2, ?_, hgap, hob, Or.inr ⟨_, rfl⟩⟩
      intro r
      rw [hsplit, split_space_cons ' ' _ (by decide)]
      rfl
    · have hws : ∀ w ∈ offsetWords c offs, PlainToken w := by
        intro w hw
        unfold offsetWords at hw
        split at hw
        · exact zeros_plain w hw
        · rename_i ho
          obtain ⟨l, hl⟩ := Option.ne_none_iff_exists'.1 ho
          obtain ⟨e, -, h⟩ := forall₂_mem_right (hp.offset l hl).2 hw
          exact h.1
      have hrs : ∀ w ∈ rotationWords c rots, PlainToken w := by
        intro w hw
        unfold rotationWords at hw
        split at hw
        · cases hw
        · rename_i ho
          obtain ⟨l, hl⟩ := Option.ne_none_iff_exists'.1 ho
          obtain ⟨e, -, x, hx, rfl, -⟩ := forall₂_mem_right (hp.rotation l hl).2 hw
          exact good_plainToken hx
      obtain ⟨pre, hpre, ht⟩ : ∃ pre : Str, (pre = [] ∨ pre = c!" ") ∧
          mcnpFillText io c = .ok (c!" fill=" ++ f ++ c!" " ++ ('(' :: (pre ++ (blanked (offsetWords c offs) ++ (blanked (rotationWords c rots) ++ c!")"))))) := by
        cases ho : c.offset with
        | none =>
          cases hr : c.rotation with
          | none => exact absurd ⟨ho, hr⟩ hno
          | some l =>
            have := rotationText_eq io l rots (hp.rotation l hr).1 (hp.rotation l hr).2
            refine ⟨c!" ", Or.inr rfl, ?_⟩
            simp [mcnpFillText, hf, ho, hr, this, offsetWords, rotationWords, blanked, bind, Except.bind]
        | some lo =>
          have h1 := offsetText_eq io lo offs (hp.offset lo ho).1 (hp.offset lo ho).2
          cases hr : c.rotation with
          | none =>
            refine ⟨[], Or.inl rfl, ?_⟩
            simp [mcnpFillText, hf, ho, hr, h1, offsetWords, rotationWords, blanked, bind, Except.bind]
          | some l =>
            have := rotationText_eq io l rots (hp.rotation l hr).1 (hp.rotation l hr).2
            refine ⟨[], Or.inl rfl, ?_⟩
            simp [mcnpFillText, hf, ho, hr, h1, this, offsetWords, rotationWords, blanked, bind, Except.bind]
      refine ⟨_, _, ht, .moved f pre hf hno hpre, ?_, ?_, ?_, Or.inr ⟨_, rfl⟩⟩
      · intro r
        rw [List.append_assoc (c!" fill=" ++ f ++ c!" "), hsplit, split_append_space _ _ ' ' (by decide)]
        rfl
      · intro r hr
        rw [List.append_assoc (c!" fill=" ++ f ++ c!" ")]
        refine hgap _ ?_
        have hb : ∀ k ≤ 1, gapOk k (blanked (offsetWords c offs) ++ (blanked (rotationWords c rots) ++ (')' :: r))) := by
          refine gap_blanked (fun w h => ⟨(hws w h).1.1, token_noBlank (hws w h).1⟩) (gap_blanked (fun w h => ⟨(hrs w h).1.1, token_noBlank (hrs w h).1⟩) ?_ 1 (by omega))
          unfold gapOk
          rw [if_neg (by decide)]
          exact ⟨by omega, gapOk_mono hr (by omega)⟩
        have e : '(' :: (pre ++ (blanked (offsetWords c offs) ++ (blanked (rotationWords c rots) ++ c!")"))) ++ r =
          '(' :: (pre ++ (blanked (offsetWords c offs) ++ (blanked (rotationWords c rots) ++ (')' :: r)))) := by simp
        rw [e]
        unfold gapOk
        rw [if_neg (by decide)]
        refine ⟨by omega, ?_⟩
        rcases hpre with rfl | rfl
        · exact hb 0 (by omega)
        · show gapOk 0 (' ' :: _)
          unfold gapOk
          rw [if_pos rfl]
          exact hb 1 (by omega)
      · refine hob.append ?_
        have h1 : OnlyBlanks c!"(" := by unfold OnlyBlanks; decide
        have h2 : OnlyBlanks c!")" := by unfold OnlyBlanks; decide
        have h3 : OnlyBlanks pre := by
          rcases hpre with rfl | rfl
          · intro c hc; cases hc
          · unfold OnlyBlanks; decide
        exact h1.append (h3.append ((onlyBlanks_blanked fun w h => (hws w h).1.2.1).append ((onlyBlanks_blanked fun w h => (hrs w h).1.2.1).append h2)))

/-- The lines of a written cell: the first starts with the number, none is blank, and the words are those of header, geometry and parameters. -/
theorem mcnpCell_lines (io : NumIO K) (c : Cell K) (importances : Bool) (offs rots : List Str) (hw : Writable io GeometryWord c) (hp : WritableParams io c offs rots) :
    ∃ l ls g fw, (∃ fuel₀, ∀ fuel ≥ fuel₀, writeMcnpCell fuel io c importances = .ok (some (physical (l :: ls)).flatten)) ∧
      (∃ ch t, l = ch :: t ∧ (isDigit ch = true ∨ ch = '-')) ∧ (∀ l' ∈ l :: ls, '\n' ∉ l' ∧ ∃ ch ∈ l', isSpace ch = false) ∧
      split (physical (l :: ls)).flatten = (intStr c.id :: c.material.text :: (if c.material = .int 0 then [] else [io.render c.density])) ++ g ++
        (uniWords c ++ fw ++ if importances then [c!"IMP:N=" ++ io.render c.importance] else []) ∧
      FillWords c offs rots fw ∧ (∀ w ∈ g, ∀ ch ∈ w, isDigit ch = true ∨ ch ∈ ['-', '.', '#', '(', ')', ':']) ∧ g.flatMap lexGeometry = itemSyms c.interpreted := by
  obtain ⟨ft, fw, hft, hfw, hfs, hfg, hfo, hf0⟩ := mcnpFillText_words io c offs rots hp
  obtain ⟨T, -, -, hT, hrun, -⟩ := mcnpCellText_spec io c importances offs rots hw hp
  have himp := good_plainToken hp.importance
  let u : Str := match c.uni with | none => [] | some u => c!" u=" ++ u
  let i : Str := if importances then c!" IMP:N=" ++ io.render c.importance else []
  let iw : List Str := if importances then [c!"IMP:N=" ++ io.render c.importance] else []
  let g := c.interpreted.flatMap mcnpItem
  let d : Str := if c.material = .int 0 then [] else io.render c.density ++ c!" "
  let A := intStr c.id ++ ' ' :: (c.material.text ++ ' ' :: (d ++ g))
  let S := strip (squeeze A)
  have hTe : T = S ++ (u ++ (ft ++ i)) ++ c!"\n" := by
    have : mcnpCellText io c importances = .ok (strip (squeeze (intStr c.id ++ c!" " ++ (c.material.text ++ c!" ") ++ d ++ g ++ c!"\n")) ++ u ++ ft ++ i ++ c!"\n") := by
      unfold mcnpCellText
      rw [hft]
      rfl
    rw [hT] at this
    have e : intStr c.id ++ c!" " ++ (c.material.text ++ c!" ") ++ d ++ g ++ c!"\n" = A ++ c!"\n" := by simp [A]
    rw [Except.ok.inj this, e, squeeze_newline, strip_newline]
    simp [S]
  -- geometry
  have hgw : ∀ ch ∈ g, ch = ' ' ∨ isDigit ch = true ∨ ch ∈ ['-', '.', '#', '(', ')', ':'] := by
    intro ch hch
    obtain ⟨it, hit, hc⟩ := List.mem_flatMap.1 hch
    rcases mcnpItem_chars hc with rfl | rfl | rfl | ⟨s, rfl, hs⟩
    · exact Or.inl rfl
    · simp
    · simp
    · by_cases hpn : IsParen s
      · rcases hpn with rfl | rfl <;> simp at hs <;> subst hs <;> simp
      · rcases (hw.words s hit hpn).1.2.2 ch hs with h | rfl | rfl | rfl
        · exact Or.inr (Or.inl h)
        all_goals simp
  have hgo : OnlyBlanks g := by
    intro ch hch hs
    rcases hgw ch hch with h | h | h
    · exact h
    · unfold isDigit at h
      simp only [Bool.or_eq_true, beq_iff_eq] at h
      rcases h with ((((((((rfl | rfl) | rfl) | rfl) | rfl) | rfl) | rfl) | rfl) | rfl) | rfl <;> revert hs <;> decide
    · simp only [List.mem_cons, List.not_mem_nil, or_false] at h
      rcases h with rfl | rfl | rfl | rfl | rfl | rfl <;> revert hs <;> decide
  have hblank : OnlyBlanks c!" " := by unfold OnlyBlanks; decide
  have hdo : OnlyBlanks d := by
    by_cases hm : c.material = .int 0
    · simp only [d, hm, if_true]; intro ch hch; cases hch
    · simp only [d, hm, if_false]
      exact (onlyBlanks_noSpace (good_plainToken (hw.density hm)).1.2.1).append hblank
  have hAo : OnlyBlanks A := by
    have e : A = intStr c.id ++ (c!" " ++ (c.material.text ++ (c!" " ++ (d ++ g)))) := rfl
    rw [e]
    exact (onlyBlanks_noSpace hw.id.2.1).append (hblank.append ((onlyBlanks_noSpace hw.material.2.1).append (hblank.append (hdo.append hgo))))
  have hSo : OnlyBlanks S := fun ch hch => hAo ch (mem_squeeze (mem_strip hch))
  have huo : OnlyBlanks u := by
    cases hu : c.uni with
    | none => simp only [u, hu]; intro ch hch; cases hch
    | some v =>
      simp only [u, hu]
      exact OnlyBlanks.append (by unfold OnlyBlanks; decide) (onlyBlanks_noSpace (hp.uni v hu).1.2.1)
  have hio : OnlyBlanks i := by
    cases importances with
    | false => show OnlyBlanks []; intro ch hch; cases hch
    | true => exact OnlyBlanks.append (by unfold OnlyBlanks; decide) (onlyBlanks_noSpace himp.1.2.1)
  -- words
  have hSw : split S = (intStr c.id :: c.material.text :: (if c.material = .int 0 then [] else [io.render c.density])) ++ split g := by
    show split (strip (squeeze A)) = _
    rw [split_strip, split_squeeze]
    show split (intStr c.id ++ ' ' :: (c.material.text ++ ' ' :: (d ++ g))) = _
    rw [split_word_space _ _ ' ' (by decide) hw.id.2.1 hw.id.1, split_word_space _ _ ' ' (by decide) hw.material.2.1 hw.material.1]
    by_cases hm : c.material = .int 0
    · simp only [d, hm, if_true, List.nil_append]
      rfl
    · have hgd := good_plainToken (hw.density hm)
      simp only [d, hm, if_false]
      rw [List.append_assoc, show c!" " ++ g = ' ' :: g from rfl, split_word_space _ _ ' ' (by decide) hgd.1.2.1 hgd.1.1]
      rfl
  have hiw : split (c!"IMP:N=" ++ io.render c.importance) = [c!"IMP:N=" ++ io.render c.importance] := by
    refine split_word _ ?_ (by simp)
    intro x hx
    rcases List.mem_append.1 hx with h | h
    · clear hx; revert x; decide
    · exact himp.1.2.1 x h
  have hfiw : split (ft ++ i) = fw ++ iw := by
    cases importances with
    | true =>
      have := hfs (c!"IMP:N=" ++ io.render c.importance)
      rw [hiw] at this
      exact this
    | false =>
      have := hfs []
      rw [split_append_spaces _ _ (by decide)] at this
      show split (ft ++ []) = fw ++ []
      rw [List.append_nil, this]
      rfl
  have hfi0 : ft ++ i = [] ∨ ∃ t, ft ++ i = ' ' :: t := by
    rcases hf0 with rfl | ⟨t, rfl⟩
    · cases importances with
      | false => exact Or.inl rfl
      | true => exact Or.inr ⟨_, rfl⟩
    · exact Or.inr ⟨_, rfl⟩
  have huw : split (u ++ (ft ++ i)) = uniWords c ++ (fw ++ iw) := by
    rw [← hfiw]
    cases hu : c.uni with
    | none => simp [u, uniWords, hu]
    | some v =>
      have hns : NoSpace (c!"u=" ++ v) := by
        intro x hx
        rcases List.mem_append.1 hx with h | h
        · clear hx; revert x; decide
        · exact (hp.uni v hu).1.2.1 x h
      have e : u = ' ' :: (c!"u=" ++ v) := by simp [u, hu]
      rcases hfi0 with ht | ⟨t, ht⟩
      · rw [e, ht, List.append_nil, split_space_cons ' ' _ (by decide), split_word _ hns (by simp)]
        simp [uniWords, hu, split, splitGo, flush]
      · rw [e, ht, List.cons_append, split_space_cons ' ' _ (by decide), split_word_space _ _ ' ' (by decide) hns (by simp), split_space_cons ' ' _ (by decide)]
        simp [uniWords, hu]
  have hu0 : u ++ (ft ++ i) = [] ∨ ∃ t, u ++ (ft ++ i) = ' ' :: t := by
    cases hu : c.uni with
    | none => simp only [u, hu, List.nil_append]; exact hfi0
    | some v => simp only [u, hu]; exact Or.inr ⟨_, rfl⟩
  have hTw : split (S ++ (u ++ (ft ++ i))) = (intStr c.id :: c.material.text :: (if c.material = .int 0 then [] else [io.render c.density])) ++ split g ++
        (uniWords c ++ fw ++ iw) := by
    rw [List.append_assoc (uniWords c), ← huw, ← hSw]
    rcases hu0 with ht | ⟨t, ht⟩
    · rw [ht, List.append_nil]
      simp [split, splitGo, flush]
    · rw [ht, split_append_space _ _ ' ' (by decide), split_space_cons ' ' _ (by decide)]
  -- gaps
  have hgi : gapOk 1 i := by
    cases importances with
    | false => simp [i, gapOk]
    | true =>
      have e : i = ' ' :: ((c!"IMP:N=" ++ io.render c.importance) ++ []) := by simp [i]
      rw [e]
      unfold gapOk
      rw [if_pos rfl]
      refine gap_word ?_ (by simp) (by simp [gapOk]) (by omega)
      simp only [List.mem_append, not_or]
      exact ⟨by decide, token_noBlank himp.1⟩
  have hgu : gapOk 1 (u ++ (ft ++ i)) := by
    have h := hfg i hgi
    cases hu : c.uni with
    | none => simp only [u, hu, List.nil_append]; exact h
    | some v =>
      have e : u = ' ' :: (c!"u=" ++ v) := by simp [u, hu]
      rw [e, List.cons_append]
      unfold gapOk
      rw [if_pos rfl]
      refine gap_word ?_ (by simp) (gapOk_mono h (by omega)) (by omega)
      simp only [List.mem_append, not_or]
      exact ⟨by decide, token_noBlank (hp.uni v hu).1⟩
  have hgap := gap_noDouble (strip_noDouble (squeeze_noDouble A)) hgu
  have hns : ∃ ch ∈ S ++ (u ++ (ft ++ i)), isSpace ch = false := by
    obtain ⟨z, q, hz⟩ := List.exists_cons_of_ne_nil (intStr_ne_nil c.id)
    refine ⟨z, ?_, hw.id.2.1 z (by rw [hz]; simp)⟩
    have : intStr c.id ∈ split S := by rw [hSw]; simp
    exact List.mem_append_left _ (mem_of_mem_split this (by rw [hz]; simp))
  obtain ⟨l, ls, ⟨f0, hf⟩, ⟨b, hb⟩, hlines, hsp⟩ := lineFormatter_lines (S ++ (u ++ (ft ++ i))) (by rw [← hTe]; exact maxRun_of_runOk hrun)
    (hSo.append (huo.append (hfo.append hio))) hgap hns
  refine ⟨l, ls, split g, fw, ⟨f0, fun fuel hfu => ?_⟩, ?_, hlines, by rw [hsp, hTw], hfw, ?_, ?_⟩
  · rw [hTe] at hT
    unfold writeMcnpCell
    rw [hT, ← hf fuel hfu]
    rfl
  · -- the first line starts with the number
    obtain ⟨x, y, e, hx, -, -⟩ := split_cons_parts hSw
    have hx0 : x = [] := by
      cases x with
      | nil => rfl
      | cons z x =>
        have := strip_head (s := squeeze A) (by exact e)
        rw [hx z (by simp)] at this; cases this
    rw [hx0, List.nil_append] at e
    rw [e, List.append_assoc] at hb
    obtain ⟨z, q, hz⟩ := List.exists_cons_of_ne_nil (intStr_ne_nil c.id)
    obtain ⟨-, ch, hch, -⟩ := hlines l (by simp)
    cases l with
    | nil => cases hch
    | cons x l =>
      rw [hz, List.cons_append, List.cons_append] at hb
      exact ⟨x, l, rfl, intStr_chars c.id x (by rw [hz, (List.cons.inj hb).1]; simp)⟩
  · intro w hw' ch hch
    have hc := mem_of_mem_split hw' hch
    have := (split_words g w hw').2 ch hch
    rcases hgw ch hc with rfl | h
    · exact absurd this (by decide)
    · exact h
  · rw [← lexGeometry_split]
    exact mcnp_items_lex hw.spaced hw.words

end

end Csg
