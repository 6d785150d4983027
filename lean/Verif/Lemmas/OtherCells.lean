import Verif.Lemmas.McnpCell

/-!
# Lemmas on Serpent, OpenMC and SCONE cells
-/

set_option linter.unusedSectionVars false

namespace Csg

open Spec

theorem digitOrMinus {c : Char} (h : isDigit c = true ∨ c = '-') :
    c = '0' ∨ c = '1' ∨ c = '2' ∨ c = '3' ∨ c = '4' ∨ c = '5' ∨ c = '6' ∨ c = '7' ∨ c = '8' ∨ c = '9' ∨ c = '-' := by
  rcases h with h | h
  · unfold isDigit at h
    simp only [Bool.or_eq_true, beq_iff_eq] at h
    tauto
  · simp [h]

theorem surfaceWord_plain {w : Str} (h : SurfaceWord w) (sp : Char → Option (Sym Str))
    (hsp : ∀ c : Char, c ∈ c!"0123456789-" → sp c = none) : ∀ c ∈ w, isSpace c = false ∧ sp c = none := by
  intro c hc
  have h1 := digitOrMinus (h.2 c hc)
  refine ⟨?_, hsp c (by simp; tauto)⟩
  rcases h1 with h | h | h | h | h | h | h | h | h | h | h <;> subst h <;> rfl

theorem surfaceWord_lex {w : Str} (h : SurfaceWord w) (sp : Char → Option (Sym Str))
    (hsp : ∀ c : Char, c ∈ c!"0123456789-" → sp c = none) :
    (∀ rest, lexCharsGo sp [] (w ++ rest) = lexCharsGo sp w rest) ∧ pending w = [.atom w] :=
  ⟨fun rest => by simpa using lexCharsGo_word sp w (surfaceWord_plain h sp hsp) [] rest, by simp [pending, h.1]⟩

theorem serpent_items_lex {is : List Item} (hsp : Spaced is) (hw : WordsAre SurfaceWord is) (tail : Str) (T : List (Sym Str))
    (ht : ∀ acc, lexCharsGo serpentChar acc tail = pending acc ++ T) :
    lexSerpent (is.flatMap serpentItem ++ tail) = itemSyms is ++ T := by
  have := items_lex (lexCharsGo serpentChar) pending serpentItem SurfaceWord is tail T hsp hw rfl
    (by intro acc rest; simp [serpentItem, lexCharsGo, isSpace])
    (by intro acc rest; simp [serpentItem, lexCharsGo, isSpace, serpentChar, pending])
    (by intro acc rest; simp [serpentItem, lexCharsGo, isSpace, serpentChar, pending])
    (by intro acc rest; simp [serpentItem, lexCharsGo, isSpace, serpentChar])
    (by intro acc rest X hX; simp [serpentItem, lexCharsGo, isSpace, serpentChar, hX, pending])
    (by
      intro s hp hs
      have : serpentItem (.str s) = s := if_neg hp
      rw [this]
      exact surfaceWord_lex hs _ (by decide))
    ht [] (fun _ => rfl)
  simpa [pending, lexSerpent] using this

theorem scone_items_lex {is : List Item} (hsp : Spaced is) (hw : WordsAre SurfaceWord is) : lexScone (is.flatMap sconeItem) = itemSyms is := by
  have := items_lex (lexCharsGo sconeChar) pending sconeItem SurfaceWord is [] [] hsp hw rfl
    (by intro acc rest; simp [sconeItem, lexCharsGo, isSpace])
    (by intro acc rest; simp [sconeItem, lexCharsGo, isSpace, sconeChar, pending])
    (by intro acc rest; simp [sconeItem, lexCharsGo, isSpace, sconeChar, pending])
    (by intro acc rest; simp [sconeItem, lexCharsGo, isSpace, sconeChar, pending])
    (by intro acc rest X hX; simp [sconeItem, lexCharsGo, isSpace, sconeChar, hX, pending])
    (by
      intro s hp hs
      have : sconeItem (.str s) = s := by
        show (if s = c!"(" then _ else if s = c!")" then _ else s) = s
        rw [if_neg fun h => hp (Or.inl h), if_neg fun h => hp (Or.inr h)]
      rw [this]
      exact surfaceWord_lex hs _ (by decide))
    (by intro acc; simp [lexCharsGo]) [] (fun _ => rfl)
  simpa [pending, lexScone] using this

theorem replaceChar_flatMap (c : Char) (w : Str) (is : List Item) (f : Item → Str) :
    replaceChar c w (is.flatMap f) = is.flatMap fun i => replaceChar c w (f i) := by
  induction is with
  | nil => rfl
  | cons i is ih =>
    rw [List.flatMap_cons, List.flatMap_cons, ← ih]
    simp [replaceChar]

theorem openmcRegion_eq (is : List Item) :
    openmcRegion is = is.flatMap fun i => replaceChar ')' c!" ) " (replaceChar '(' c!" ( " (openmcItem i)) := by
  unfold openmcRegion
  rw [replaceChar_flatMap, replaceChar_flatMap]

theorem surfaceWord_not_mem {w : Str} (h : SurfaceWord w) {c : Char} (hc : c ∉ c!"0123456789-") : c ∉ w := by
  intro hm
  apply hc
  have := digitOrMinus (h.2 c hm)
  simp; tauto

theorem openmc_items_lex {is : List Item} (hsp : Spaced is) (hw : WordsAre SurfaceWord is) : lexOpenmc (openmcRegion is) = itemSyms is := by
  rw [openmcRegion_eq]
  have := items_lex (lexCharsGo openmcChar) pending (fun i => replaceChar ')' c!" ) " (replaceChar '(' c!" ( " (openmcItem i))) SurfaceWord is [] []
    hsp hw rfl
    (by intro acc rest; simp [openmcItem, replaceChar, lexCharsGo, isSpace])
    (by intro acc rest; simp [openmcItem, replaceChar, lexCharsGo, isSpace, openmcChar, pending])
    (by intro acc rest; simp [openmcItem, replaceChar, lexCharsGo, isSpace, openmcChar, pending])
    (by intro acc rest; simp [openmcItem, replaceChar, lexCharsGo, isSpace, openmcChar, pending])
    (by intro acc rest X hX; simp [openmcItem, replaceChar, lexCharsGo, isSpace, openmcChar, hX, pending])
    (by
      intro s hp hs
      have : replaceChar ')' c!" ) " (replaceChar '(' c!" ( " (openmcItem (.str s))) = s := by
        show replaceChar ')' c!" ) " (replaceChar '(' c!" ( " s) = s
        rw [replaceChar_not_mem '(' _ _ (surfaceWord_not_mem hs (by decide)), replaceChar_not_mem ')' _ _ (surfaceWord_not_mem hs (by decide))]
      simp only [this]
      exact surfaceWord_lex hs _ (by decide))
    (by intro acc; simp [lexCharsGo]) [] (fun _ => rfl)
  simpa [pending, lexOpenmc] using this

theorem surfaceWord_noBlank {w : Str} (h : SurfaceWord w) : ' ' ∉ w := surfaceWord_not_mem h (by decide)

theorem serpent_items_run {is : List Item} (hsp : Spaced is) (hw : WordsAre SurfaceWord is) (tail : Str) (ht : ∀ k ≤ 61, runOk 62 k tail) :
    runOk 62 0 (is.flatMap serpentItem ++ tail) := by
  refine items_run serpentItem is tail hsp (wordsAre_imp hw fun s h => surfaceWord_noBlank h) ?_ ?_ ?_ ?_ ?_ ?_ ht 0 (by omega)
    (fun _ => rfl) (fun _ => by omega)
  · intro k hk rest h; simp [serpentItem, runOk, h]; omega
  · intro k hk rest h; simp [serpentItem, runOk, h]; omega
  · intro k hk rest h; simp [serpentItem, runOk, h]; omega
  · intro k hk rest h; simp [serpentItem, runOk, h]; omega
  · intro k hk rest h; simpa [serpentItem, runOk] using h
  · intro s hp; exact if_neg hp

theorem scone_items_run {is : List Item} (hsp : Spaced is) (hw : WordsAre SurfaceWord is) (tail : Str) (ht : ∀ k ≤ 61, runOk 62 k tail) :
    runOk 62 0 (is.flatMap sconeItem ++ tail) := by
  refine items_run sconeItem is tail hsp (wordsAre_imp hw fun s h => surfaceWord_noBlank h) ?_ ?_ ?_ ?_ ?_ ?_ ht 0 (by omega)
    (fun _ => rfl) (fun _ => by omega)
  · intro k hk rest h; simp [sconeItem, runOk, h]; omega
  · intro k hk rest h; simp [sconeItem, runOk, h]; omega
  · intro k hk rest h; simp [sconeItem, runOk, h]; omega
  · intro k hk rest h; have := runOk_mono h (Nat.zero_le _); simp [sconeItem, runOk, this]; omega
  · intro k hk rest h; have := runOk_mono h (Nat.zero_le _); simp [sconeItem, runOk, this]; omega
  · intro s hp
    show (if s = c!"(" then _ else if s = c!")" then _ else s) = s
    rw [if_neg fun h => hp (Or.inl h), if_neg fun h => hp (Or.inr h)]

theorem item_newline (wr : Item → Str) {is : List Item} (hw : WordsAre SurfaceWord is) (hop : ∀ o, '\n' ∉ wr (.op o))
    (hlp : '\n' ∉ wr (.str c!"(")) (hrp : '\n' ∉ wr (.str c!")")) (hstr : ∀ s, ¬ IsParen s → wr (.str s) = s) : '\n' ∉ is.flatMap wr := by
  intro h
  obtain ⟨it, hit, hc⟩ := List.mem_flatMap.1 h
  cases it with
  | op o => exact hop o hc
  | str s =>
    by_cases hp : IsParen s
    · rcases hp with rfl | rfl
      · exact hlp hc
      · exact hrp hc
    · rw [hstr s hp] at hc
      exact surfaceWord_not_mem (hw s hit hp).1 (by decide) hc

/-- Enclosing an expression in parentheses changes nothing. -/
theorem holds_paren {A : Type} {w : List (Sym A)} (h : Legal w) (σ : A → Prop) :
    Legal (.lp :: (w ++ [.rp])) ∧ (Holds σ (.lp :: (w ++ [.rp])) ↔ Holds σ w) := by
  obtain ⟨r, hr⟩ := h
  have hp : Derives .expr (.lp :: (w ++ [.rp])) r := .one (.single (.paren hr))
  exact ⟨⟨r, hp⟩, by rw [holds_iff hp, holds_iff hr]⟩

/-- A line made of words, text and a newline, squeezed and wrapped. -/
theorem wrapped_words {A T : Str} (hA : A = T ++ c!"\n") (hn : '\n' ∉ T) (hr : runOk 70 0 A) :
    ∃ out, (∃ fuel₀, ∀ fuel ≥ fuel₀, lineFormatter fuel (squeeze A) = some out) ∧ WellWrapped out ∧ split out = split A := by
  have hone : OneLine (squeeze A) := by
    unfold OneLine
    rw [hA, squeeze_newline, List.dropLast_concat]
    exact fun h => hn (mem_squeeze h)
  obtain ⟨out, h1, h2, h3⟩ := C33_wrapping _ (maxRun_of_runOk (runOk_squeeze hr)) hone
  exact ⟨out, h1, h3, by rw [h2, split_squeeze]⟩

theorem runOk_token {n k : Nat} {w b : Str} (hw : ' ' ∉ w) (hl : k + w.length ≤ n) (hb : runOk n 0 b) : runOk n k (w ++ ' ' :: b) := by
  rw [runOk_word hw]
  unfold runOk
  rw [if_pos rfl]
  exact ⟨hl, hb⟩

theorem runOk_blank {n k : Nat} {b : Str} (hl : k ≤ n) (hb : runOk n 0 b) : runOk n k (' ' :: b) := by
  unfold runOk
  rw [if_pos rfl]
  exact ⟨hl, hb⟩

theorem split_token {w b : Str} (h : Token w) : split (w ++ ' ' :: b) = w :: split b := split_word_space _ _ ' ' (by decide) h.2.1 h.1

theorem split_blanked {ws : List Str} (h : ∀ w ∈ ws, Token w) (b : Str) : split (blanked ws ++ b) = ws ++ split b := by
  induction ws with
  | nil => rfl
  | cons w ws ih =>
    rw [blanked_cons, List.append_assoc, List.cons_append, split_token (h w (by simp)), ih fun w hw => h w (by simp [hw])]
    rfl

theorem runOk_tokens {ws : List Str} (h : ∀ w ∈ ws, Token w ∨ (' ' ∉ w ∧ w.length ≤ 70)) {b : Str} (hb : runOk 70 0 b) : runOk 70 0 (blanked ws ++ b) := by
  induction ws with
  | nil => exact hb
  | cons w ws ih =>
    rw [blanked_cons, List.append_assoc, List.cons_append]
    refine runOk_token ?_ ?_ (ih fun w hw => h w (by simp [hw]))
    · rcases h w (by simp) with h | h
      · exact token_noBlank h
      · exact h.1
    · rcases h w (by simp) with h | h
      · have := h.2.2; omega
      · have := h.2; omega

theorem blanked_noNewline {ws : List Str} (h : ∀ w ∈ ws, '\n' ∉ w) : '\n' ∉ blanked ws := by
  induction ws with
  | nil => simp [blanked]
  | cons w ws ih =>
    rw [blanked_cons]
    have := h w (by simp)
    have := ih fun w hw => h w (by simp [hw])
    simp [*]

theorem split_blank (b : Str) : split (' ' :: b) = split b := split_space_cons ' ' _ (by decide)

end Csg
