import Verif.Lemmas.McnpCellLines
import Verif.Lemmas.McnpCellBack
import Verif.Lemmas.Lines

/-!
# A written MCNP cell in lower case is read back
-/

set_option linter.unusedSectionVars false

namespace Csg

open Spec

/-- Neither a capital nor a dollar sign. -/
def Quiet (c : Char) : Prop := c.isUpper = false ∧ c ≠ '$'

theorem quiet_digit {c : Char} (h : isDigit c = true) : Quiet c := by
  unfold isDigit at h
  simp only [Bool.or_eq_true, beq_iff_eq] at h
  rcases h with ((((((((rfl | rfl) | rfl) | rfl) | rfl) | rfl) | rfl) | rfl) | rfl) | rfl <;> exact ⟨by decide, by decide⟩

theorem quiet_number {c : Char} (h : NumberChar c) : Quiet c := by
  rcases h with h | rfl | rfl | rfl | rfl
  · exact quiet_digit h
  all_goals exact ⟨by decide, by decide⟩

theorem lower_quiet {s : Str} (h : ∀ c ∈ s, c.isUpper = false) : lower s = s := by
  induction s with
  | nil => rfl
  | cons c s ih =>
    have e : lower (c :: s) = c.toLower :: lower s := rfl
    rw [e, ih fun d hd => h d (List.mem_cons_of_mem _ hd)]
    have hc := h c (by simp)
    unfold Char.toLower
    split
    · rename_i h1
      have : c.isUpper = true := by
        simp only [Char.isUpper, ge_iff_le, decide_eq_true_eq]
        exact h1
      rw [hc] at this
      cases this
    · rfl

theorem quiet_intStr (z : Int) : ∀ c ∈ intStr z, Quiet c := by
  intro c hc
  rcases intStr_chars z c hc with h | rfl
  · exact quiet_digit h
  · exact ⟨by decide, by decide⟩

section
variable {K : Type} [Field K] [DecidableEq K]

theorem quiet_good {io : NumIO K} {x : K} (h : io.Good x) : ∀ c ∈ io.render x, Quiet c := fun c hc => quiet_number (h.chars c hc)

theorem quiet_fill (io : NumIO K) (c : Cell K) {offs rots fw : List Str} (hp : WritableParams io c offs rots) (hr : ReadableCell io c) (hfw : FillWords c offs rots fw) :
    ∀ w ∈ fw, ∀ ch ∈ w, Quiet ch := by
  have key : ∀ f, c.fill = some f → ∀ ch ∈ c!"fill=" ++ f, Quiet ch := by
    intro f hf ch hch
    rcases List.mem_append.1 hch with h | h
    · simp at h
      rcases h with rfl | rfl | rfl | rfl <;> exact ⟨by decide, by decide⟩
    · exact quiet_number ((plainNumber_chars (hr.fill f hf)).2 ch h)
  cases hfw with
  | none h => intro w hw; cases hw
  | plain f h h1 h2 =>
    intro w hw
    rw [List.mem_singleton] at hw
    subst hw
    exact key f h
  | moved f pre h h1 hpre =>
    intro w hw
    rcases List.mem_cons.1 hw with rfl | hw
    · exact key f h
    · intro ch hch
      have := mem_of_mem_split hw hch
      rcases List.mem_cons.1 this with rfl | this
      · exact ⟨by decide, by decide⟩
      rcases List.mem_append.1 this with this | this
      · rcases hpre with rfl | rfl
        · cases this
        · simp at this; subst this; exact ⟨by decide, by decide⟩
      rcases List.mem_append.1 this with this | this
      · rcases mem_blanked this with rfl | ⟨v, hv, hc⟩
        · exact ⟨by decide, by decide⟩
        · unfold offsetWords at hv
          split at hv
          · simp at hv; subst hv; simp at hc; subst hc; exact ⟨by decide, by decide⟩
          · rename_i ho
            obtain ⟨l, hl⟩ := Option.ne_none_iff_exists'.1 ho
            have e := offset_words_eq io (hp.offset l hl).2
            rw [e] at hv
            obtain ⟨x, hx, rfl⟩ := List.mem_map.1 hv
            exact quiet_number (hr.offset l (by simp [h]) hl x hx ch hc)
      rcases List.mem_append.1 this with this | this
      · rcases mem_blanked this with rfl | ⟨v, hv, hc⟩
        · exact ⟨by decide, by decide⟩
        · unfold rotationWords at hv
          split at hv
          · cases hv
          · rename_i ho
            obtain ⟨l, hl⟩ := Option.ne_none_iff_exists'.1 ho
            obtain ⟨e, he, x, hx, rfl, -⟩ := forall₂_mem_right (hp.rotation l hl).2 hv
            exact quiet_good hx ch hc
      · simp at this; subst this; exact ⟨by decide, by decide⟩

/-- The lines of a written cell, and that their text in lower case is read as the cell. -/
theorem mcnpCell_back (io : NumIO K) (cosDeg : K → K) (c : Cell K) (offs rots : List Str) (hw : Writable io GeometryWord c) (hp : WritableParams io c offs rots)
    (hr : ReadableCell io c) :
    ∃ l ls, (∃ fuel₀, ∀ fuel ≥ fuel₀, writeMcnpCell fuel io c true = .ok (some (physical (l :: ls)).flatten)) ∧
      (∃ ch t, l = ch :: t ∧ (isDigit ch = true ∨ ch = '-')) ∧ (∀ l' ∈ l :: ls, '\n' ∉ l' ∧ ∃ ch ∈ l', isSpace ch = false) ∧
      '$' ∉ (physical (l :: ls)).flatten ∧
      ∃ r, readCell io cosDeg (lower (physical (l :: ls)).flatten) = .ok r ∧ SameCell io c r := by
  obtain ⟨l, ls, g, fw, hwr, h1, h2, hs, hfw, hg, hgl⟩ := mcnpCell_lines io c true offs rots hw hp
  rw [if_pos rfl] at hs
  have hmat : ∀ ch ∈ c.material.text, Quiet ch := by
    rcases hr.material with h0 | ⟨m, -, h0⟩
    · rw [h0]; exact quiet_intStr 0
    · rw [h0]; exact quiet_intStr m
  have hden : ∀ w ∈ (if c.material = .int 0 then [] else [io.render c.density]), ∀ ch ∈ w, Quiet ch := by
    intro w hw'
    by_cases hm : c.material = .int 0
    · rw [if_pos hm] at hw'; cases hw'
    · rw [if_neg hm, List.mem_singleton] at hw'
      subst hw'
      exact quiet_good (hw.density hm)
  have hgq : ∀ w ∈ g, ∀ ch ∈ w, Quiet ch := by
    intro w hw' ch hch
    rcases hg w hw' ch hch with h | h
    · exact quiet_digit h
    · simp at h
      rcases h with rfl | rfl | rfl | rfl | rfl | rfl <;> exact ⟨by decide, by decide⟩
  have huq : ∀ w ∈ uniWords c, ∀ ch ∈ w, Quiet ch := by
    intro w hw' ch hch
    unfold uniWords at hw'
    cases hu : c.uni with
    | none => rw [hu] at hw'; cases hw'
    | some u =>
      rw [hu, List.mem_singleton] at hw'
      subst hw'
      rcases List.mem_append.1 hch with h | h
      · simp at h
        rcases h with rfl | rfl <;> exact ⟨by decide, by decide⟩
      · exact quiet_number ((plainNumber_chars (hr.uni u hu)).2 ch h)
  have hfq := quiet_fill io c hp hr hfw
  have hiq : ∀ ch ∈ io.render c.importance, Quiet ch := quiet_good hp.importance
  have hl : ∀ {w : Str}, (∀ ch ∈ w, Quiet ch) → lower w = w := fun h => lower_quiet fun ch hch => (h ch hch).1
  have hls : ∀ {ws : List Str}, (∀ w ∈ ws, ∀ ch ∈ w, Quiet ch) → ws.map lower = ws := by
    intro ws h
    exact (List.map_congr_left fun w hw' => hl (h w hw')).trans (List.map_id' ws)
  refine ⟨l, ls, hwr, h1, h2, ?_, ?_⟩
  · intro hd
    obtain ⟨w, hw', hc⟩ := split_mem _ '$' (by decide) hd
    rw [hs] at hw'
    have : Quiet '$' ∨ '$' ∈ c!"IMP:N=" := by
      rcases List.mem_append.1 hw' with h | h
      · rcases List.mem_append.1 h with h | h
        · rcases List.mem_cons.1 h with rfl | h
          · exact Or.inl (quiet_intStr _ _ hc)
          · rcases List.mem_cons.1 h with rfl | h
            · exact Or.inl (hmat _ hc)
            · exact Or.inl (hden w h _ hc)
        · exact Or.inl (hgq w h _ hc)
      · rcases List.mem_append.1 h with h | h
        · rcases List.mem_append.1 h with h | h
          · exact Or.inl (huq w h _ hc)
          · exact Or.inl (hfq w h _ hc)
        · rw [List.mem_singleton] at h
          subst h
          rcases List.mem_append.1 hc with h | h
          · exact Or.inr h
          · exact Or.inl (hiq _ h)
    rcases this with h | h
    · exact h.2 rfl
    · revert h; decide
  · refine readCell_written io cosDeg c hw hp hr hfw ?_ ?_ hgl
    · rw [split_lower, hs]
      simp only [List.map_append, List.map_cons, List.map_nil]
      rw [hls hgq, hls huq, hls hfq, hl (quiet_intStr _), hl hmat, hls hden, lower_append, hl hiq]
      rfl
    · intro w hw' ch hch
      rcases hg w hw' ch hch with h | h
      · exact noKeyword_digit h
      · simp at h
        rcases h with rfl | rfl | rfl | rfl | rfl | rfl <;> decide

end

end Csg
