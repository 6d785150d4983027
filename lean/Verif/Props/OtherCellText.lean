import Verif.Lemmas.OtherCells
import Verif.Spec.SerpentFile
import Verif.Props.McnpCellText

/-!
# Written Serpent, OpenMC and SCONE cells: C29, C30, C31, C66
-/

namespace Csg

open Spec

section
variable {K : Type} [Field K]

omit [Field K] in
/-- **C29.** The words of the Serpent card of a cell are `cell`, the number, the universe (0 if none), the content, and the geometry `g`, made of digits, signs, parentheses, `:` and
`#`. Serpent reads `g` as the description of the cell in parentheses, hence true at the same points. -/
theorem C29_cell_text (io : NumIO K) (c : Cell K) (hw : Writable io SurfaceWord c) (hu : ∀ u, c.uni = some u → Token u)
    (hf : ∀ f, c.fill = some f → Token f) :
    ∃ out g, (∃ fuel₀, ∀ fuel ≥ fuel₀, lineFormatter fuel (serpentCellText c) = some out) ∧ WellWrapped out ∧
      split out = [c!"cell", intStr c.id, c.uni.getD c!"0"] ++ serpentContent c ++ g ∧
      (∀ w ∈ g, ∀ ch ∈ w, isDigit ch = true ∨ ch ∈ ['-', '(', ')', ':', '#']) ∧
      g.flatMap lexSerpent = .lp :: (itemSyms c.interpreted ++ [.rp]) ∧
      (Legal (itemSyms c.interpreted) → Legal (g.flatMap lexSerpent) ∧
        ∀ σ : Str → Prop, Holds σ (g.flatMap lexSerpent) ↔ Holds σ (itemSyms c.interpreted)) := by
  have hut : Token (optText c.uni) := by
    unfold optText
    cases h : c.uni with
    | none => exact ⟨by decide, by decide, by decide⟩
    | some u => exact hu u h
  let G : Str := c!"( " ++ (c.interpreted.flatMap serpentItem ++ c!" ) \n")
  let B : Str := serpentFillText c
  have hA : serpentCellText c = squeeze (c!"cell" ++ ' ' :: (intStr c.id ++ ' ' :: (optText c.uni ++ ' ' :: (B ++ G)))) := by
    unfold serpentCellText
    congr 1
    simp only [B, G, List.append_assoc, List.cons_append, List.nil_append]
  have hG : runOk 70 0 G := by
    refine runOk_token (w := c!"(") (by decide) (by decide) ?_
    refine runOk_le_bound (serpent_items_run hw.spaced hw.words _ ?_) (by omega)
    intro k hk; simp [runOk]; omega
  have hGn : ∃ G', G = G' ++ c!"\n" ∧ '\n' ∉ G' := by
    refine ⟨c!"( " ++ (c.interpreted.flatMap serpentItem ++ c!" ) "), by simp [G], ?_⟩
    have := item_newline serpentItem hw.words (by intro o; cases o <;> decide) (by decide) (by decide) (fun s hp => if_neg hp)
    simp [this]
  have hB : runOk 70 0 (B ++ G) ∧ '\n' ∉ B ∧ split (B ++ G) = serpentContent c ++ split G := by
    simp only [B, serpentFillText, serpentContent]
    cases h : c.fill with
    | some f =>
      have ht := hf f h
      refine ⟨?_, ?_, ?_⟩
      · simp only [List.append_assoc, List.cons_append, List.nil_append]
        exact runOk_blank (by decide) (runOk_token (w := c!"fill") (by decide) (by decide)
          (runOk_token (token_noBlank ht) (by have := ht.2.2; omega) hG))
      · have := token_noNewline ht; simp [this]
      · simp only [List.append_assoc, List.cons_append, List.nil_append]
        rw [split_blank]
        have : split (c!"fill" ++ ' ' :: (f ++ ' ' :: G)) = c!"fill" :: f :: split G := by
          rw [split_token ⟨by decide, by decide, by decide⟩, split_token ht]
        simpa using this
    | none =>
      by_cases hm : c.material = .int 0
      · simp only [hm, if_true]
        refine ⟨runOk_token (w := c!"void") (by decide) (by decide) hG, by decide, ?_⟩
        exact split_token (w := c!"void") ⟨by decide, by decide, by decide⟩
      · have ht := hw.material
        simp only [if_neg hm, List.append_assoc, List.cons_append, List.nil_append]
        refine ⟨runOk_token (token_noBlank ht) (by have := ht.2.2; omega) hG, ?_, split_token ht⟩
        have := token_noNewline ht; simp [this]
  obtain ⟨G', hG', hGn⟩ := hGn
  have hid := hw.id
  obtain ⟨out, h1, h2, h3⟩ := wrapped_words (A := c!"cell" ++ ' ' :: (intStr c.id ++ ' ' :: (optText c.uni ++ ' ' :: (B ++ G))))
    (T := c!"cell" ++ ' ' :: (intStr c.id ++ ' ' :: (optText c.uni ++ ' ' :: (B ++ G')))) (by rw [hG']; simp)
    (by
      have a := token_noNewline hid
      have b := token_noNewline hut
      simp [a, b, hB.2.1, hGn])
    (runOk_token (by decide) (by decide) (runOk_token (token_noBlank hid) (by have := hid.2.2; omega)
      (runOk_token (token_noBlank hut) (by have := hut.2.2; omega) hB.1)))
  have hlex : (split G).flatMap lexSerpent = .lp :: (itemSyms c.interpreted ++ [.rp]) := by
    rw [show lexSerpent = lexCharsGo serpentChar [] from rfl, ← lexChars_split]
    show lexCharsGo serpentChar [] ('(' :: ' ' :: (c.interpreted.flatMap serpentItem ++ c!" ) \n")) = _
    have := serpent_items_lex hw.spaced hw.words c!" ) \n" [.rp] (by intro acc; simp [lexCharsGo, isSpace, serpentChar, pending])
    simpa [lexCharsGo, isSpace, serpentChar, pending, lexSerpent] using this
  refine ⟨out, split G, by rw [hA]; exact h1, h2, ?_, ?_, hlex, ?_⟩
  · rw [h3, split_token ⟨by decide, by decide, by decide⟩, split_token hid, split_token hut, hB.2.2]
    rfl
  · intro w hwm ch hch
    have hsp := (split_words _ w hwm).2 ch hch
    have hmem : ch ∈ G := mem_of_mem_split hwm hch
    simp only [G, List.mem_append, List.mem_flatMap] at hmem
    rcases hmem with h | ⟨i, hi, h⟩ | h
    · simp only [List.mem_cons, List.not_mem_nil, or_false] at h
      rcases h with rfl | rfl
      · simp
      · exact absurd hsp (by decide)
    · cases i with
      | op o =>
        cases o <;> simp only [serpentItem, List.mem_cons, List.not_mem_nil, or_false] at h <;> rcases h with rfl | rfl | rfl <;> first | (exact absurd hsp (by decide)) | simp
      | str s =>
        by_cases hp : s = c!"(" ∨ s = c!")"
        · simp only [serpentItem, if_pos hp] at h
          rcases hp with rfl | rfl <;> simp only [List.mem_cons, List.mem_append, List.not_mem_nil, or_false] at h <;> rcases h with rfl | rfl | rfl <;> first | (exact absurd hsp (by decide)) | simp
        · simp only [serpentItem, if_neg hp] at h
          rcases (hw.words s hi hp).1.2 ch h with h | rfl
          · exact .inl h
          · simp
    · simp only [List.mem_cons, List.not_mem_nil, or_false] at h
      rcases h with rfl | rfl | rfl | rfl
      · exact absurd hsp (by decide)
      · simp
      · exact absurd hsp (by decide)
      · exact absurd hsp (by decide)
  · intro hl
    rw [hlex]
    exact ⟨(holds_paren hl (fun _ => True)).1, fun σ => (holds_paren hl σ).2⟩

/-- **C66.** The transform card of a filled cell: the number of the cell, offset, rotation and the final 1. -/
theorem C66_trans [DecidableEq K] (io : NumIO K) (c : Cell K) (offs rots : List Str) (hid : Token (intStr c.id)) (hp : WritableParams io c offs rots) :
    ∃ t, serpentTransText io c = .ok t ∧
      (c.fill = none ∨ (c.offset = none ∧ c.rotation = none) → t = []) ∧
      (¬ (c.fill = none ∨ (c.offset = none ∧ c.rotation = none)) →
        split t = [c!"trans", c!"f", intStr c.id] ++ (if c.offset = none then [c!"0", c!"0", c!"0"] else offs) ++
          (if c.rotation = none then [c!"1", c!"0", c!"0", c!"0", c!"1", c!"0", c!"0", c!"0", c!"1"] else rots) ++ [c!"1"]) := by
  cases hf : c.fill with
  | none => exact ⟨[], by simp [serpentTransText, hf], by simp, by simp⟩
  | some f =>
    by_cases hn : c.offset = none ∧ c.rotation = none
    · exact ⟨[], by simp [serpentTransText, hf, hn], by simp, by simp [hn]⟩
    · obtain ⟨ot, hot, hos⟩ : ∃ ot, (match c.offset with | some l => offsetText io l | none => .ok c!" 0 0 0 " : Py Str) = .ok ot ∧
          ∀ b, split (ot ++ b) = (if c.offset = none then [c!"0", c!"0", c!"0"] else offs) ++ split b := by
        cases ho : c.offset with
        | none =>
          refine ⟨_, rfl, fun b => ?_⟩
          have := split_blanked (ws := [c!"0", c!"0", c!"0"]) (by intro w hw; simp at hw; subst hw; exact ⟨by decide, by decide, by decide⟩) b
          rw [if_pos rfl, ← this]
          exact split_blank _
        | some l =>
          refine ⟨blanked offs, offsetText_eq io l offs (hp.offset l ho).1 (hp.offset l ho).2, fun b => ?_⟩
          rw [split_blanked]
          · simp
          · intro w hw
            obtain ⟨e, -, h⟩ := forall₂_mem_right (hp.offset l ho).2 hw
            exact h.1.1
      obtain ⟨rt, hrt, hrs⟩ : ∃ rt, (match c.rotation with | some l => rotationText io l | none => .ok c!"1 0 0 0 1 0 0 0 1 " : Py Str) = .ok rt ∧
          ∀ b, split (rt ++ b) = (if c.rotation = none then [c!"1", c!"0", c!"0", c!"0", c!"1", c!"0", c!"0", c!"0", c!"1"] else rots) ++ split b := by
        cases ho : c.rotation with
        | none =>
          refine ⟨_, rfl, fun b => ?_⟩
          exact split_blanked (ws := [c!"1", c!"0", c!"0", c!"0", c!"1", c!"0", c!"0", c!"0", c!"1"])
            (by
              intro w hw
              simp at hw
              rcases hw with h | h | h | h | h <;> (subst h; exact ⟨by decide, by decide, by decide⟩)) b
        | some l =>
          refine ⟨blanked rots, rotationText_eq io l rots (hp.rotation l ho).1 (hp.rotation l ho).2, fun b => ?_⟩
          rw [split_blanked]
          · simp
          · intro w hw
            obtain ⟨e, -, x, hx, rfl, -⟩ := forall₂_mem_right (hp.rotation l ho).2 hw
            exact ⟨hx.ne_nil, hx.noSpace, by have := hx.len; omega⟩
      refine ⟨c!"trans f " ++ intStr c.id ++ c!" " ++ ot ++ rt ++ c!"1 \n", ?_, fun h => absurd h (by simp [hn]), fun _ => ?_⟩
      · have : serpentTransText io c = (do
            let ot ← (match c.offset with | some l => offsetText io l | none => .ok c!" 0 0 0 " : Py Str)
            let rt ← (match c.rotation with | some l => rotationText io l | none => .ok c!"1 0 0 0 1 0 0 0 1 " : Py Str)
            .ok (c!"trans f " ++ intStr c.id ++ c!" " ++ ot ++ rt ++ c!"1 \n") : Py Str) := by
          unfold serpentTransText
          rw [hf]
          cases ho : c.offset with
          | none =>
            cases hr : c.rotation with
            | none => exact absurd ⟨ho, hr⟩ hn
            | some r => rfl
          | some l => rfl
        rw [this, hot, hrt]
        rfl
      · have e : c!"trans f " ++ intStr c.id ++ c!" " ++ ot ++ rt ++ c!"1 \n" = blanked [c!"trans", c!"f", intStr c.id] ++ (ot ++ (rt ++ c!"1 \n")) := by
          simp [blanked]
        rw [e, split_blanked, hos, hrs]
        · simp only [List.append_assoc]
          rfl
        · intro w hw
          simp at hw
          rcases hw with rfl | rfl | rfl
          · exact ⟨by decide, by decide, by decide⟩
          · exact ⟨by decide, by decide, by decide⟩
          · exact hid

omit [Field K] in
/-- **C30.** OpenMC reads the region of the written element as the description of the cell. Number, universe, and material or fill are those of the cell. -/
theorem C30_region (io : NumIO K) (c : Cell K) (e : OpenMCCellElem) (h : writeOpenmcCell io c = .ok e) (hs : Spaced c.interpreted)
    (hw : WordsAre SurfaceWord c.interpreted) :
    lexOpenmc e.region = itemSyms c.interpreted ∧ (Legal (lexOpenmc e.region) ↔ Legal (itemSyms c.interpreted)) ∧
      (∀ σ : Str → Prop, Holds σ (lexOpenmc e.region) ↔ Holds σ (itemSyms c.interpreted)) ∧
      e.id = intStr c.id ∧ e.uni = c.uni.getD c!"0" ∧
      (∀ f, c.fill = some f → e.material = none ∧ e.filled.map Prod.fst = some f) ∧
      (c.fill = none → e.filled = none ∧ e.material = some (if c.material.text = c!"0" then c!"void" else c.material.text)) := by
  unfold writeOpenmcCell at h
  obtain ⟨r, hr, h⟩ := bind_ok h
  obtain ⟨t, ht, h⟩ := bind_ok h
  have hreg : e.region = openmcRegion c.interpreted := by
    cases hf : c.fill <;> (simp only [hf, Except.ok.injEq] at h; rw [← h])
  have hlex : lexOpenmc e.region = itemSyms c.interpreted := by rw [hreg]; exact openmc_items_lex hs hw
  refine ⟨hlex, by rw [hlex], fun σ => by rw [hlex], ?_, ?_, ?_, ?_⟩
  · cases hf : c.fill <;> (simp only [hf, Except.ok.injEq] at h; rw [← h])
  · cases hf : c.fill <;> (simp only [hf, Except.ok.injEq] at h; rw [← h]; rfl)
  · intro f hf
    simp only [hf, Except.ok.injEq] at h
    rw [← h]
    exact ⟨rfl, rfl⟩
  · intro hf
    simp only [hf, Except.ok.injEq] at h
    rw [← h]
    exact ⟨rfl, rfl⟩

/-- What a SCONE cell says about the content: a universe is shifted by one, since SCONE has no universe 0. -/
def Spec.sconeContent (c : Cell K) (fillNumber : Int) : List Str :=
  match c.fill with
  | some _ => [c!"filltype", c!"uni;", c!"universe", intStr (fillNumber + 1) ++ c!";"]
  | none => [c!"filltype", c!"mat;", c!"material", if c.material = .int 0 then c!"void;" else c!"m" ++ c.material.text ++ c!";"]

omit [Field K] in
/-- **C31.** The words of the SCONE entry of a cell; SCONE reads the geometry `g` between the square brackets as the description of the cell. -/
theorem C31_cell_text (io : NumIO K) (c : Cell K) (z : Int) (hw : Writable io SurfaceWord c) (hf : ∀ f, c.fill = some f → pyInt f = .ok z)
    (hz : (intStr (z + 1)).length ≤ 60) :
    ∃ out g, (∃ fuel₀, ∀ fuel ≥ fuel₀, writeSconeCell fuel c = .ok (some out)) ∧ WellWrapped out ∧
      split out = [intStr c.id, c!"{", c!"type", c!"unionCell;", c!"id", intStr c.id ++ c!";"] ++ sconeContent c z ++
        [c!"surfaces", c!"["] ++ g ++ [c!"];", c!"}"] ∧
      (∀ w ∈ g, w ≠ [] ∧ ∀ ch ∈ w, isDigit ch = true ∨ ch ∈ ['-', '<', '>', ':', '#']) ∧
      g.flatMap lexScone = itemSyms c.interpreted ∧ (Legal (g.flatMap lexScone) ↔ Legal (itemSyms c.interpreted)) ∧
      ∀ σ : Str → Prop, Holds σ (g.flatMap lexScone) ↔ Holds σ (itemSyms c.interpreted) := by
  have hid := hw.id
  let G : Str := c.interpreted.flatMap sconeItem
  obtain ⟨C, hC⟩ : ∃ C, sconeFillText c = .ok C := by
    unfold sconeFillText
    cases h : c.fill with
    | some f => simp [hf f h, bind, Except.bind]
    | none => exact ⟨_, rfl⟩
  have hGr : runOk 70 0 (G ++ c!" ]; }\n") := by
    refine runOk_le_bound (scone_items_run hw.spaced hw.words _ ?_) (by omega)
    intro k hk; simp [runOk]; omega
  have hG : '\n' ∉ G := item_newline sconeItem hw.words (by intro o; cases o <;> decide) (by decide) (by decide)
    (fun s hp => by
      show (if s = c!"(" then _ else if s = c!")" then _ else s) = s
      rw [if_neg fun h => hp (Or.inl h), if_neg fun h => hp (Or.inr h)])
  have semi : ∀ {u w : Str}, (∀ c ∈ u, isSpace c = false) → u.length ≤ 9 → (∀ c ∈ w, isSpace c = false) → w.length ≤ 60 →
      (∀ c ∈ u ++ w ++ c!";", isSpace c = false) ∧ u ++ w ++ c!";" ≠ [] ∧ (u ++ w ++ c!";").length ≤ 70 := by
    intro u w h1 h2 h3 h4
    refine ⟨?_, by simp, by simp; omega⟩
    intro x hx
    simp only [List.mem_append, List.mem_singleton] at hx
    rcases hx with (h | h) | rfl
    · exact h1 x h
    · exact h3 x h
    · rfl
  have part : ∀ {w : Str}, (∀ c ∈ w, isSpace c = false) → w ≠ [] → w.length ≤ 70 →
      (∀ b, runOk 70 0 b → runOk 70 0 (w ++ ' ' :: b)) ∧ '\n' ∉ w ∧ ∀ b, split (w ++ ' ' :: b) = w :: split b := by
    intro w h1 h2 h3
    refine ⟨fun b hb => runOk_token (fun h => by have := h1 _ h; revert this; decide) (by omega) hb,
      fun h => by have := h1 _ h; revert this; decide, fun b => split_word_space _ _ ' ' (by decide) h1 h2⟩
  have hC' : (∀ b, runOk 70 0 b → runOk 70 0 (C ++ b)) ∧ '\n' ∉ C ∧ ∀ b, split (C ++ b) = sconeContent c z ++ split b := by
    have lit : ∀ w : Str, w ∈ [c!"filltype", c!"uni;", c!"universe", c!"mat;", c!"material", c!"void;"] → Token w := by
      intro w hw
      simp only [List.mem_cons, List.not_mem_nil, or_false] at hw
      rcases hw with rfl | rfl | rfl | rfl | rfl | rfl <;> exact ⟨by decide, by decide, by decide⟩
    have lits : ∀ {ws : List Str}, (∀ w ∈ ws, w ∈ [c!"filltype", c!"uni;", c!"universe", c!"mat;", c!"material", c!"void;"]) →
        (∀ b, runOk 70 0 b → runOk 70 0 (' ' :: (blanked ws ++ b))) ∧ '\n' ∉ ' ' :: blanked ws ∧ ∀ b, split (' ' :: (blanked ws ++ b)) = ws ++ split b := by
      intro ws h
      refine ⟨fun b hb => runOk_blank (by omega) (runOk_tokens (fun w hw => Or.inl (lit w (h w hw))) hb), ?_, fun b => ?_⟩
      · have := blanked_noNewline fun w hw => token_noNewline (lit w (h w hw))
        simp [this]
      · rw [split_blank, split_blanked fun w hw => lit w (h w hw)]
    cases h : c.fill with
    | some f =>
      simp only [sconeFillText, h, hf f h, bind, Except.bind, Except.ok.injEq] at hC
      obtain ⟨a1, a2, a3⟩ := lits (ws := [c!"filltype", c!"uni;", c!"universe"]) (by decide)
      obtain ⟨s1, s2, s3⟩ := semi (u := []) (by decide) (by decide) (intStr_noSpace (z + 1)) hz
      obtain ⟨b1, b2, b3⟩ := part s1 s2 s3
      have e : ∀ b, C ++ b = ' ' :: (blanked [c!"filltype", c!"uni;", c!"universe"] ++ (([] ++ intStr (z + 1) ++ c!";") ++ ' ' :: b)) := by
        intro b; rw [← hC]; simp [blanked]
      refine ⟨fun b hb => by rw [e]; exact a1 _ (b1 _ hb), ?_, fun b => ?_⟩
      · have := e []
        rw [List.append_nil] at this
        rw [this]
        simp at a2 b2 ⊢
        exact ⟨a2, b2⟩
      · rw [e, a3, b3]
        simp [sconeContent, h]
    | none =>
      simp only [sconeFillText, h, Except.ok.injEq] at hC
      by_cases hm : c.material = .int 0
      · rw [if_pos hm] at hC
        obtain ⟨a1, a2, a3⟩ := lits (ws := [c!"filltype", c!"mat;", c!"material"]) (by decide)
        obtain ⟨b1, b2, b3⟩ := lits (ws := [c!"void;"]) (by decide)
        have e : ∀ b, C ++ b = ' ' :: (blanked [c!"filltype", c!"mat;", c!"material"] ++ (' ' :: (blanked [c!"void;"] ++ b))) := by
          intro b; rw [← hC]; simp [blanked]
        refine ⟨fun b hb => by rw [e]; exact a1 _ (b1 _ hb), ?_, fun b => ?_⟩
        · rw [← hC]; decide
        · rw [e, a3, b3]
          simp [sconeContent, h, hm]
      · rw [if_neg hm] at hC
        obtain ⟨a1, a2, a3⟩ := lits (ws := [c!"filltype", c!"mat;", c!"material"]) (by decide)
        obtain ⟨s1, s2, s3⟩ := semi (u := c!"m") (by decide) (by decide) hw.material.2.1 hw.material.2.2
        obtain ⟨b1, b2, b3⟩ := part s1 s2 s3
        have e : ∀ b, C ++ b = ' ' :: (blanked [c!"filltype", c!"mat;", c!"material"] ++ ((c!"m" ++ c.material.text ++ c!";") ++ ' ' :: b)) := by
          intro b; rw [← hC]; simp [blanked]
        refine ⟨fun b hb => by rw [e]; exact a1 _ (b1 _ hb), ?_, fun b => ?_⟩
        · have := e []
          rw [List.append_nil] at this
          rw [this]
          simp at a2 b2 ⊢
          exact ⟨a2, b2⟩
        · rw [e, a3, b3]
          simp [sconeContent, h, hm]
  obtain ⟨c1, c2, c3⟩ := hC'
  have tlit : ∀ w : Str, w ∈ [c!"{", c!"type", c!"unionCell;", c!"id", c!"surfaces", c!"["] → Token w := by
    intro w hw
    simp only [List.mem_cons, List.not_mem_nil, or_false] at hw
    rcases hw with rfl | rfl | rfl | rfl | rfl | rfl <;> exact ⟨by decide, by decide, by decide⟩
  obtain ⟨s1, s2, s3⟩ := semi (u := []) (by decide) (by decide) hid.2.1 hid.2.2
  obtain ⟨b1, b2, b3⟩ := part s1 s2 s3
  let A : Str := blanked [intStr c.id, c!"{", c!"type", c!"unionCell;", c!"id"] ++ (([] ++ intStr c.id ++ c!";") ++ ' ' :: (C ++
    (blanked [c!"surfaces", c!"["] ++ (G ++ c!" ]; }\n"))))
  have t1 : ∀ w ∈ [intStr c.id, c!"{", c!"type", c!"unionCell;", c!"id"], Token w := by
    intro w hw
    simp only [List.mem_cons, List.not_mem_nil, or_false] at hw
    rcases hw with rfl | rfl | rfl | rfl | rfl
    · exact hid
    all_goals exact ⟨by decide, by decide, by decide⟩
  have t2 : ∀ w ∈ [c!"surfaces", c!"["], Token w := fun w hw => tlit w (by simp at hw ⊢; tauto)
  have hT : writeSconeCell (K := K) = fun fuel c => (do let s ← sconeCellText c; .ok (lineFormatter fuel s) : Py (Option Str)) := rfl
  have hA : sconeCellText c = .ok (squeeze A) := by
    unfold sconeCellText
    rw [hC]
    show (.ok _ : Py Str) = _
    congr 2
    simp [A, blanked, G]
  obtain ⟨out, ⟨f0, h1⟩, h2, h3⟩ := wrapped_words (A := A)
    (T := blanked [intStr c.id, c!"{", c!"type", c!"unionCell;", c!"id"] ++ (([] ++ intStr c.id ++ c!";") ++ ' ' :: (C ++
      (blanked [c!"surfaces", c!"["] ++ (G ++ c!" ]; }"))))) (by simp [A])
    (by
      have a := blanked_noNewline fun w hw => token_noNewline (t1 w hw)
      have b := blanked_noNewline fun w hw => token_noNewline (t2 w hw)
      simp only [List.mem_append, List.mem_cons, not_or]
      refine ⟨a, ⟨⟨by simp, token_noNewline hid⟩, by decide⟩, by decide, c2, b, hG, by decide⟩)
    (runOk_tokens (fun w hw => Or.inl (t1 w hw)) (b1 _ (c1 _ (runOk_tokens (fun w hw => Or.inl (t2 w hw)) hGr))))
  have hlex : (split G).flatMap lexScone = itemSyms c.interpreted := by
    rw [show lexScone = lexCharsGo sconeChar [] from rfl, ← lexChars_split]
    exact scone_items_lex hw.spaced hw.words
  refine ⟨out, split G, ⟨f0, fun fuel hfu => by rw [hT]; simp [hA, h1 fuel hfu, bind, Except.bind]⟩, h2, ?_, ?_, hlex, by rw [hlex], fun σ => by rw [hlex]⟩
  · rw [h3]
    simp only [A]
    rw [split_blanked t1, b3, c3, split_blanked t2, split_append_space G _ ' ' (by decide)]
    simp [split, splitGo, flush, isSpace]
  · intro w hwm
    refine ⟨(split_words _ w hwm).1, fun ch hch => ?_⟩
    have hsp := (split_words _ w hwm).2 ch hch
    have hmem : ch ∈ G := mem_of_mem_split hwm hch
    simp only [G, List.mem_flatMap] at hmem
    obtain ⟨i, hi, h⟩ := hmem
    cases i with
    | op o =>
      cases o <;> simp only [sconeItem, List.mem_cons, List.not_mem_nil, or_false] at h <;> rcases h with rfl | rfl | rfl <;> first | (exact absurd hsp (by decide)) | simp
    | str s =>
      by_cases hp : s = c!"(" ∨ s = c!")"
      · rcases hp with rfl | rfl <;> simp [sconeItem] at h <;> rcases h with rfl | rfl | rfl <;> first | (exact absurd hsp (by decide)) | simp
      · have : sconeItem (.str s) = s := by
          simp only [sconeItem]
          rw [if_neg (fun e => hp (.inl e)), if_neg (fun e => hp (.inr e))]
        rw [this] at h
        rcases (hw.words s hi hp).1.2 ch h with h | rfl
        · exact .inl h
        · simp

end

/-! ## Examples -/

/-- The hypotheses of `C29_cell_text`, `C30_region`, `C31_cell_text` and `C66_trans` are met by `writtenCell`, and what is written. -/
example : Writable sampleIO SurfaceWord writtenCell ∧ (∀ u, writtenCell.uni = some u → Token u) ∧ (∀ f, writtenCell.fill = some f → Token f) ∧
    (∀ f, writtenCell.fill = some f → pyInt f = .ok 6) := by
  refine ⟨writtenCell_writable, ?_, ?_, ?_⟩
  · intro u hu; cases hu; exact ⟨by decide, by decide, by decide⟩
  · intro u hu; cases hu; exact ⟨by decide, by decide, by decide⟩
  · intro u hu; cases hu; decide +kernel

example : writeSerpentCell 5 sampleIO writtenCell = .ok (some (c!"cell 3 5 fill 6 ( ( -1: 2 ) # ( 4 ) ) \n", c!"trans f 3 1 2 3 1 0 0 0 1 0 0 0 1 1 \n")) := by
  decide +kernel

example : writeOpenmcCell sampleIO writtenCell = .ok { id := c!"3", material := none, region := c!" ( -1 |  2 )  ~  ( 4 ) ", uni := c!"5", filled := some (c!"6", c!"0 0 0", c!"1 2 3 ") } := by
  decide +kernel

example : writeSconeCell 5 writtenCell = .ok (some c!"3 { type unionCell; id 3; filltype uni; universe 7; surfaces [ < -1 : 2\n      > # < 4 > ]; }\n") := by
  decide +kernel

end Csg
