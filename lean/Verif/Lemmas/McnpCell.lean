import Verif.Lemmas.CellWriters
import Verif.Props.Wrapping
import Mathlib.Data.List.Forall2

/-!
# The text of an MCNP cell
-/

set_option linter.unusedSectionVars false

namespace Csg

open Spec

theorem geometryWord_plain {w : Str} (h : GeometryWord w) : PlainWord w := by
  intro c hc
  have hd : ∀ c : Char, (isDigit c = true ∨ c = '-' ∨ c = '.' ∨ c = '#') → isSpace c = false ∧ c ≠ '(' ∧ c ≠ ')' ∧ c ≠ ':' ∧ c ≠ '+' := by
    intro c h
    rcases h with h | rfl | rfl | rfl
    · unfold isDigit at h
      simp only [Bool.or_eq_true, beq_iff_eq] at h
      rcases h with ((((((((rfl | rfl) | rfl) | rfl) | rfl) | rfl) | rfl) | rfl) | rfl) | rfl <;> decide
    · decide
    · decide
    · decide
  exact hd c (h.2.2 c hc)

theorem geometryWord_noBlank {w : Str} (h : GeometryWord w) : ' ' ∉ w := by
  intro hb
  exact absurd (geometryWord_plain h ' ' hb).1 (by decide)

theorem surfaceWord_geometryWord {w : Str} (h : SurfaceWord w) : GeometryWord w := by
  refine ⟨h.1, ?_, fun c hc => ?_⟩
  · rintro rfl
    rcases h.2 '#' (by simp) with h | h <;> revert h <;> decide
  · rcases h.2 c hc with h | h
    · exact Or.inl h
    · exact Or.inr (Or.inl h)

theorem mcnp_items_lex {is : List Item} (hsp : Spaced is) (hw : WordsAre GeometryWord is) :
    lexGeometry (is.flatMap mcnpItem) = itemSyms is := by
  have := items_lex lexGo endWord mcnpItem GeometryWord is [] [] hsp hw rfl
    (by intro acc rest; simp [mcnpItem, lexGo, isSpace, endWord_nil])
    (by intro acc rest; simp [mcnpItem, lexGo, isSpace, endWord_nil])
    (by intro acc rest; simp [mcnpItem, lexGo, isSpace, endWord_nil])
    (by intro acc rest; simp [mcnpItem, lexGo, isSpace, endWord_nil])
    (by
      intro acc rest X hX
      have h2 : endWord c!"#" = [.no] := rfl
      simp [mcnpItem, lexGo, isSpace, hX, h2])
    (by
      intro s hp hs
      refine ⟨fun rest => ?_, ?_⟩
      · have : mcnpItem (.str s) = s := by
          unfold mcnpItem
          exact if_neg hp
        rw [this]
        simpa using lexGo_plain s (geometryWord_plain hs) [] rest
      · unfold endWord wordSym
        rw [if_neg hs.1, if_neg hs.2.1])
    (by intro acc; simp [lexGo]) [] (fun _ => rfl)
  simpa [endWord_nil, lexGeometry] using this

theorem mcnp_items_run {is : List Item} (hsp : Spaced is) (hw : WordsAre GeometryWord is) (tail : Str) (ht : ∀ k ≤ 61, runOk 62 k tail) :
    runOk 62 0 (is.flatMap mcnpItem ++ tail) := by
  refine items_run mcnpItem is tail hsp (wordsAre_imp hw fun s h => geometryWord_noBlank h) ?_ ?_ ?_ ?_ ?_ ?_ ht 0 (by omega)
    (fun _ => rfl) (fun _ => by omega)
  · intro k hk rest h; simp [mcnpItem, runOk, h]; omega
  · intro k hk rest h; simp [mcnpItem, runOk, h]; omega
  · intro k hk rest h; simp [mcnpItem, runOk, h]; omega
  · intro k hk rest h; simp [mcnpItem, runOk, h]; omega
  · intro k hk rest h; have := runOk_mono h (Nat.zero_le _); simp [mcnpItem, runOk, this]; omega
  · intro s hp; unfold mcnpItem; exact if_neg hp

theorem runOk_le_bound {n m k : Nat} {s : Str} (h : runOk n k s) (hm : n ≤ m) : runOk m k s := by
  induction s generalizing k with
  | nil => exact Nat.le_trans h hm
  | cons c cs ih =>
    unfold runOk at h ⊢
    split
    · rename_i hc; rw [if_pos hc] at h; exact ⟨Nat.le_trans h.1 hm, ih h.2⟩
    · rename_i hc; rw [if_neg hc] at h; exact ih h

theorem mcnpItem_chars {i : Item} {c : Char} (h : c ∈ mcnpItem i) : c = ' ' ∨ c = '#' ∨ c = ':' ∨ ∃ s, i = .str s ∧ c ∈ s := by
  cases i with
  | op o => cases o <;> simp [mcnpItem] at h <;> simp <;> tauto
  | str s =>
    have h : c ∈ (if s = c!"(" ∨ s = c!")" then ' ' :: (s ++ c!" ") else s) := h
    split at h
    · simp only [List.mem_cons, List.mem_append, List.not_mem_nil, or_false] at h
      rcases h with h | h | h
      · exact Or.inl h
      · exact Or.inr (Or.inr (Or.inr ⟨s, rfl, h⟩))
      · exact Or.inl h
    · exact Or.inr (Or.inr (Or.inr ⟨s, rfl, h⟩))

theorem forall₂_mem_right {α β : Type} {R : α → β → Prop} {l : List α} {l' : List β} (h : List.Forall₂ R l l') {b : β} (hb : b ∈ l') :
    ∃ a ∈ l, R a b := by
  induction h with
  | nil => simp at hb
  | cons h _ ih =>
    rcases List.mem_cons.1 hb with rfl | hb
    · exact ⟨_, by simp, h⟩
    · obtain ⟨a, ha, hr⟩ := ih hb
      exact ⟨a, List.mem_cons_of_mem _ ha, hr⟩

theorem mem_of_mem_split {s w : Str} {c : Char} (hw : w ∈ split s) (hc : c ∈ w) : c ∈ s := by
  have key : ∀ (s acc w : Str), w ∈ splitGo acc s → ∀ c ∈ w, c ∈ acc ∨ c ∈ s := by
    intro s
    induction s with
    | nil =>
      intro acc w hw c hc
      unfold splitGo flush at hw
      split at hw
      · simp at hw
      · simp at hw; subst hw; exact Or.inl hc
    | cons d s ih =>
      intro acc w hw c hc
      unfold splitGo at hw
      split at hw
      · rcases List.mem_append.1 hw with h | h
        · unfold flush at h
          split at h
          · simp at h
          · simp at h; subst h; exact Or.inl hc
        · rcases ih _ _ h c hc with h | h
          · simp at h
          · exact Or.inr (List.mem_cons_of_mem _ h)
      · rcases ih _ _ hw c hc with h | h
        · rcases List.mem_append.1 h with h | h
          · exact Or.inl h
          · simp at h; subst h; exact Or.inr (by simp)
        · exact Or.inr (List.mem_cons_of_mem _ h)
  rcases key s [] w hw c hc with h | h
  · simp at h
  · exact h

theorem squeeze_newline (a : Str) : squeeze (a ++ c!"\n") = squeeze a ++ c!"\n" := by
  induction a with
  | nil => rfl
  | cons c a ih =>
    rw [List.cons_append]
    unfold squeeze
    have : (a ++ c!"\n").head? = some ' ' ↔ a.head? = some ' ' := by
      cases a with
      | nil => simp
      | cons d a => simp
    simp only [this, ih]
    split <;> rfl

theorem strip_newline (a : Str) : strip (a ++ c!"\n") = strip a := by
  unfold strip
  rw [List.dropWhile_append]
  split
  · rename_i h
    have : List.dropWhile isSpace a = [] := by simpa using h
    rw [this]; rfl
  · rw [List.reverse_append]
    rfl

section
variable {K : Type} [Field K] [DecidableEq K]

/-! ## Lists of words -/

/-- Each word followed by a blank. -/
def blanked (ws : List Str) : Str := (ws.map fun w => w ++ c!" ").flatten

theorem blanked_cons (w : Str) (ws : List Str) : blanked (w :: ws) = w ++ ' ' :: blanked ws := by simp [blanked]

theorem range_mapM_get {α β : Type} (f : α → Py β) (l : List α) (n : Nat) (h : l.length = n) :
    ((List.range n).mapM fun i => (do let e ← pyGet l i; f e : Py β)) = l.mapM f := by
  have key : ∀ (l p : List α), (((List.range l.length).map (p.length + ·)).mapM fun i => (do let e ← pyGet (p ++ l) i; f e : Py β)) = l.mapM f := by
    intro l
    induction l with
    | nil => intro p; rfl
    | cons a l ih =>
      intro p
      have e : (List.range (a :: l).length).map (p.length + ·) = p.length :: (List.range l.length).map ((p ++ [a]).length + ·) := by
        rw [List.length_cons, List.range_succ_eq_map]
        simp [Function.comp_def]
        intro i _
        omega
      rw [e, List.mapM_cons, List.mapM_cons]
      have h1 : pyGet (p ++ a :: l) p.length = .ok a := by simp [pyGet]
      have h2 := ih (p ++ [a])
      rw [List.append_assoc] at h2
      simp only [List.singleton_append] at h2
      rw [h1, h2]
      rfl
  subst h
  have := key l []
  simpa using this

theorem offsetText_eq (io : NumIO K) (l : List (Entry K)) (offs : List Str) (hl : l.length = 3)
    (h : List.Forall₂ (fun e w => PlainToken w ∧ (e = .txt w ∨ ∃ x, e = .num x ∧ w = io.render x)) l offs) :
    offsetText io l = .ok (blanked offs) := by
  have e : ((List.range 3).mapM fun i => (do let e ← pyGet l i; .ok (e.text io ++ c!" ") : Py Str)) = .ok (offs.map fun w => w ++ c!" ") := by
    rw [range_mapM_get (fun e => .ok (e.text io ++ c!" ")) l 3 hl]
    clear hl
    induction h with
    | nil => rfl
    | cons hab _ ih =>
      rw [List.mapM_cons, ih]
      rcases hab.2 with rfl | ⟨x, rfl, rfl⟩ <;> rfl
  unfold offsetText
  rw [e]
  rfl

theorem rotationText_eq (io : NumIO K) (l : List (Entry K)) (rots : List Str) (hl : l.length = 9)
    (h : List.Forall₂ (fun e w => ∃ x, io.Good x ∧ w = io.render x ∧ (e = .num x ∨ ∃ t, e = .txt t ∧ io.parse t = some x)) l rots) :
    rotationText io l = .ok (blanked rots) := by
  have e : ((List.range 9).mapM fun i => (do let e ← pyGet l i; let x ← e.float io; .ok (io.render x ++ c!" ") : Py Str)) =
      .ok (rots.map fun w => w ++ c!" ") := by
    rw [range_mapM_get (fun e => (do let x ← e.float io; .ok (io.render x ++ c!" ") : Py Str)) l 9 hl]
    clear hl
    induction h with
    | nil => rfl
    | cons hab _ ih =>
      rw [List.mapM_cons, ih]
      obtain ⟨x, -, rfl, rfl | ⟨t, rfl, ht⟩⟩ := hab
      · rfl
      · simp [Entry.float, NumIO.float, ht, bind, Except.bind, pure, Except.pure]
  unfold rotationText
  rw [e]
  rfl

theorem good_plainToken {io : NumIO K} {x : K} (h : io.Good x) : PlainToken (io.render x) :=
  ⟨⟨h.ne_nil, h.noSpace, by have := h.len; omega⟩, h.not_mem (by decide) (by decide), h.not_mem (by decide) (by decide)⟩

theorem token_noBlank {w : Str} (h : Token w) : ' ' ∉ w := fun hb => absurd (h.2.1 ' ' hb) (by decide)
theorem token_noNewline {w : Str} (h : Token w) : '\n' ∉ w := fun hb => absurd (h.2.1 '\n' hb) (by decide)

theorem lexParens_word {w : Str} (h : PlainToken w) : lexParens w = [.atom w] := by
  have := lexCharsGo_word parenChar w (fun c hc => ⟨h.1.2.1 c hc, by
    unfold parenChar
    rw [if_neg (by rintro rfl; exact h.2.1 hc), if_neg (by rintro rfl; exact h.2.2 hc)]⟩) [] []
  unfold lexParens
  rw [List.append_nil] at this
  rw [this]
  simp [lexCharsGo, pending, h.1.1]

theorem lexParens_space (a b : Str) : lexParens (a ++ ' ' :: b) = lexParens a ++ lexParens b := lexCharsGo_space _ _ _ _ _ (by decide)

theorem lexParens_lp (b : Str) : lexParens ('(' :: b) = .lp :: lexParens b := by
  simp [lexParens, lexCharsGo, isSpace, parenChar, pending]

theorem lexParens_blanked {ws : List Str} (h : ∀ w ∈ ws, PlainToken w) (rest : Str) :
    lexParens (blanked ws ++ rest) = ws.map .atom ++ lexParens rest := by
  induction ws with
  | nil => rfl
  | cons w ws ih =>
    rw [blanked_cons, List.append_assoc, List.cons_append, lexParens_space, lexParens_word (h w (by simp)),
      ih fun v hv => h v (List.mem_cons_of_mem _ hv)]
    rfl

theorem runOk_blanked {ws : List Str} (h : ∀ w ∈ ws, PlainToken w) {rest : Str} (hr : ∀ k ≤ 5, runOk 69 k rest) :
    ∀ k ≤ 5, runOk 69 k (blanked ws ++ rest) := by
  induction ws with
  | nil => simpa [blanked] using hr
  | cons w ws ih =>
    intro k hk
    have hw := h w (by simp)
    rw [blanked_cons, List.append_assoc, List.cons_append, runOk_word (token_noBlank hw.1)]
    unfold runOk
    rw [if_pos rfl]
    exact ⟨by have := hw.1.2.2; omega, ih (fun v hv => h v (List.mem_cons_of_mem _ hv)) 0 (by omega)⟩

theorem newline_blanked {ws : List Str} (h : ∀ w ∈ ws, PlainToken w) : '\n' ∉ blanked ws := by
  induction ws with
  | nil => simp [blanked]
  | cons w ws ih =>
    rw [blanked_cons]
    simp only [List.mem_append, List.mem_cons, not_or]
    exact ⟨token_noNewline (h w (by simp)).1, by decide, ih fun v hv => h v (List.mem_cons_of_mem _ hv)⟩

/-! ## Parameters -/

theorem plain_prefix {a w : Str} (ha : ∀ c ∈ a, isSpace c = false ∧ c ≠ '(' ∧ c ≠ ')') (h : PlainToken w) :
    lexParens (a ++ w) = [.atom (a ++ w)] := by
  have := lexCharsGo_word parenChar (a ++ w) (fun c hc => by
    rcases List.mem_append.1 hc with hc | hc
    · refine ⟨(ha c hc).1, ?_⟩
      unfold parenChar
      rw [if_neg (ha c hc).2.1, if_neg (ha c hc).2.2]
    · refine ⟨h.1.2.1 c hc, ?_⟩
      unfold parenChar
      rw [if_neg (by rintro rfl; exact h.2.1 hc), if_neg (by rintro rfl; exact h.2.2 hc)]) [] []
  unfold lexParens
  rw [List.append_nil] at this
  rw [this]
  simp [lexCharsGo, pending, h.1.1]

theorem zeros_plain : ∀ w ∈ [c!"0", c!"0", c!"0"], PlainToken w := by
  intro w hw
  simp at hw
  subst hw
  exact ⟨⟨by simp, by decide, by simp⟩, by decide, by decide⟩

/-- The fill text: what it says and its shape. -/
theorem mcnpFillText_spec (io : NumIO K) (c : Cell K) (offs rots : List Str) (hp : WritableParams io c offs rots) :
    ∃ t, mcnpFillText io c = .ok t ∧ (c.fill = none ∧ t = [] ∨ ∃ t', t = ' ' :: 'f' :: t') ∧ '\n' ∉ t ∧
      (∀ rest, lexParens (t ++ ' ' :: rest) = fillSyms c offs rots ++ lexParens rest) ∧
      (lexParens t = fillSyms c offs rots) ∧
      ∀ rest, (∀ k ≤ 66, runOk 69 k rest) → ∀ k ≤ 66, runOk 69 k (t ++ rest) := by
  have lexlast : ∀ t : Str, lexParens t ++ lexParens [] = lexParens t := by intro t; simp [lexParens, lexCharsGo, pending]
  cases hf : c.fill with
  | none =>
    refine ⟨[], by simp [mcnpFillText, hf], Or.inl ⟨rfl, rfl⟩, by simp, ?_, ?_, fun rest h => h⟩
    · intro rest
      have := lexParens_space [] rest
      simp only [List.nil_append] at this ⊢
      rw [this]; simp [fillSyms, hf, lexParens, lexCharsGo, pending]
    · simp [fillSyms, hf, lexParens, lexCharsGo, pending]
  | some f =>
    have hft := hp.fill f hf
    have hw : lexParens (c!"fill=" ++ f) = [.atom (c!"fill=" ++ f)] := plain_prefix (by decide) hft
    have h0 : ∀ b, lexParens (' ' :: b) = lexParens b := fun b => by
      have := lexParens_space [] b
      simpa [lexParens, lexCharsGo, pending] using this
    have hrun : ∀ rest : Str, runOk 69 0 rest → ∀ k ≤ 66, runOk 69 k (c!" fill=" ++ f ++ c!" " ++ rest) := by
      intro rest hr k hk
      have e : c!" fill=" ++ f ++ c!" " ++ rest = ' ' :: ((c!"fill=" ++ f) ++ (' ' :: rest)) := by simp
      rw [e]
      unfold runOk
      rw [if_pos rfl]
      refine ⟨by omega, ?_⟩
      rw [runOk_word (by
        simp only [List.mem_append, not_or]
        exact ⟨by decide, token_noBlank hft.1⟩)]
      unfold runOk
      rw [if_pos rfl]
      refine ⟨?_, hr⟩
      have := hft.1.2.2
      simp; omega
    by_cases hno : c.offset = none ∧ c.rotation = none
    · refine ⟨c!" fill=" ++ f ++ c!" ", by simp [mcnpFillText, hf, hno.1, hno.2], Or.inr ⟨_, rfl⟩, ?_, ?_, ?_, ?_⟩
      · simp only [List.mem_append, not_or]
        exact ⟨⟨by decide, token_noNewline hft.1⟩, by decide⟩
      · intro rest
        have e : c!" fill=" ++ f ++ c!" " ++ ' ' :: rest = ' ' :: ((c!"fill=" ++ f) ++ (' ' :: (' ' :: rest))) := by simp
        rw [e, h0, lexParens_space, h0, hw]
        simp [fillSyms, hf, hno]
      · have e : c!" fill=" ++ f ++ c!" " = ' ' :: ((c!"fill=" ++ f) ++ (' ' :: [])) := by simp
        rw [e, h0, lexParens_space, hw]
        simp [fillSyms, hf, hno, lexParens, lexCharsGo, pending]
      · intro rest hr
        exact hrun rest (hr 0 (by omega))
    · let ws := (if c.offset = none then [c!"0", c!"0", c!"0"] else offs)
      let rs := (if c.rotation = none then [] else rots)
      have hws : ∀ w ∈ ws, PlainToken w := by
        intro w hw
        show PlainToken w
        by_cases ho : c.offset = none
        · simp only [ws, ho, if_true] at hw; exact zeros_plain w hw
        · simp only [ws, ho, if_false] at hw
          obtain ⟨l, hl⟩ := Option.ne_none_iff_exists'.1 ho
          obtain ⟨e, -, h⟩ := forall₂_mem_right (hp.offset l hl).2 hw
          exact h.1
      have hrs : ∀ w ∈ rs, PlainToken w := by
        intro w hw
        by_cases ho : c.rotation = none
        · simp [rs, ho] at hw
        · simp only [rs, ho, if_false] at hw
          obtain ⟨l, hl⟩ := Option.ne_none_iff_exists'.1 ho
          obtain ⟨e, -, x, hx, rfl, -⟩ := forall₂_mem_right (hp.rotation l hl).2 hw
          exact good_plainToken hx
      obtain ⟨pre, hpre, ht⟩ : ∃ pre : Str, (pre = [] ∨ pre = c!" ") ∧
          mcnpFillText io c = .ok (c!" fill=" ++ f ++ c!" " ++ ('(' :: (pre ++ (blanked ws ++ (blanked rs ++ c!")"))))) := by
        cases ho : c.offset with
        | none =>
          cases hr : c.rotation with
          | none => exact absurd ⟨ho, hr⟩ hno
          | some l =>
            have := rotationText_eq io l rots (hp.rotation l hr).1 (hp.rotation l hr).2
            refine ⟨c!" ", Or.inr rfl, ?_⟩
            simp [mcnpFillText, hf, ho, hr, this, ws, rs, blanked, bind, Except.bind]
        | some lo =>
          have h1 := offsetText_eq io lo offs (hp.offset lo ho).1 (hp.offset lo ho).2
          cases hr : c.rotation with
          | none =>
            refine ⟨[], Or.inl rfl, ?_⟩
            simp [mcnpFillText, hf, ho, hr, h1, ws, rs, blanked, bind, Except.bind]
          | some l =>
            have := rotationText_eq io l rots (hp.rotation l hr).1 (hp.rotation l hr).2
            refine ⟨[], Or.inl rfl, ?_⟩
            simp [mcnpFillText, hf, ho, hr, h1, this, ws, rs, blanked, bind, Except.bind]
      have hlex : ∀ rest, lexParens (c!" fill=" ++ f ++ c!" " ++ ('(' :: (pre ++ (blanked ws ++ (blanked rs ++ rest))))) =
          .atom (c!"fill=" ++ f) :: .lp :: (ws ++ rs).map .atom ++ lexParens rest := by
        intro rest
        have e : c!" fill=" ++ f ++ c!" " ++ ('(' :: (pre ++ (blanked ws ++ (blanked rs ++ rest)))) =
          ' ' :: ((c!"fill=" ++ f) ++ (' ' :: ('(' :: (pre ++ (blanked ws ++ (blanked rs ++ rest)))))) := by simp
        rw [e, h0, lexParens_space, hw, lexParens_lp]
        have : lexParens (pre ++ (blanked ws ++ (blanked rs ++ rest))) = lexParens (blanked ws ++ (blanked rs ++ rest)) := by
          rcases hpre with rfl | rfl
          · rfl
          · exact h0 _
        rw [this, lexParens_blanked hws, lexParens_blanked hrs]
        simp
      have hrp : ∀ rest, lexParens (')' :: rest) = .rp :: lexParens rest := fun rest => by
        simp [lexParens, lexCharsGo, isSpace, parenChar, pending]
      have hsyms : fillSyms c offs rots = .atom (c!"fill=" ++ f) :: .lp :: (ws ++ rs).map .atom ++ [.rp] := by
        unfold fillSyms
        rw [hf]
        simp only [if_neg hno]
        rfl
      refine ⟨_, ht, Or.inr ⟨_, rfl⟩, ?_, ?_, ?_, ?_⟩
      · have h1 := newline_blanked hws
        have h2 := newline_blanked hrs
        have h3 := token_noNewline hft.1
        have h4 : '\n' ∉ pre := by rcases hpre with rfl | rfl <;> decide
        simp only [List.mem_append, List.mem_cons, not_or, List.not_mem_nil]
        refine ⟨⟨⟨by decide, h3⟩, by decide⟩, by decide, h4, h1, h2, by decide⟩
      · intro rest
        have e : c!" fill=" ++ f ++ c!" " ++ ('(' :: (pre ++ (blanked ws ++ (blanked rs ++ c!")")))) ++ ' ' :: rest =
          c!" fill=" ++ f ++ c!" " ++ ('(' :: (pre ++ (blanked ws ++ (blanked rs ++ (')' :: (' ' :: rest)))))) := by simp
        rw [e, hlex, hrp, h0, hsyms]
        simp
      · rw [hlex, hsyms]
        show _ ++ lexParens (')' :: []) = _
        rw [hrp]
        simp [lexParens, lexCharsGo, pending]
      · intro rest hr k hk
        have e : c!" fill=" ++ f ++ c!" " ++ ('(' :: (pre ++ (blanked ws ++ (blanked rs ++ c!")")))) ++ rest =
          c!" fill=" ++ f ++ c!" " ++ ('(' :: (pre ++ (blanked ws ++ (blanked rs ++ (')' :: rest))))) := by simp
        rw [e]
        refine hrun _ ?_ k hk
        have hb : ∀ k ≤ 5, runOk 69 k (blanked ws ++ (blanked rs ++ (')' :: rest))) := by
          refine runOk_blanked hws (runOk_blanked hrs ?_)
          intro k hk
          show runOk 69 k (')' :: rest)
          unfold runOk
          rw [if_neg (by decide)]
          exact hr _ (by omega)
        unfold runOk
        rw [if_neg (by decide)]
        rcases hpre with rfl | rfl
        · exact hb 1 (by omega)
        · show runOk 69 1 (' ' :: _)
          unfold runOk
          rw [if_pos rfl]
          exact ⟨by omega, hb 0 (by omega)⟩

/-- The text of a cell: it can be built, its words are header, geometry and parameters, and it can be wrapped. -/
theorem mcnpCellText_spec (io : NumIO K) (c : Cell K) (imp : Bool) (offs rots : List Str) (hw : Writable io GeometryWord c)
    (hp : WritableParams io c offs rots) :
    ∃ T g p, mcnpCellText io c imp = .ok T ∧ runOk 69 0 T ∧ OneLine T ∧
      split T = (intStr c.id :: c.material.text :: (if c.material = .int 0 then [] else [io.render c.density])) ++ split g ++ split p ∧
      g = c.interpreted.flatMap mcnpItem ∧ (p = [] ∨ ∃ ch t, p = ' ' :: ch :: t ∧ ch.isAlpha = true) ∧
      lexParens p = paramSyms io c offs rots imp := by
  obtain ⟨ft, hft, hshape, hnl, hlexrest, hlex, hrun⟩ := mcnpFillText_spec io c offs rots hp
  have himp := good_plainToken hp.importance
  -- parameters
  let u : Str := match c.uni with | none => [] | some u => c!" u=" ++ u
  let i : Str := if imp then c!" IMP:N=" ++ io.render c.importance else []
  have h0 : ∀ b, lexParens (' ' :: b) = lexParens b := fun b => by
    have := lexParens_space [] b
    simpa [lexParens, lexCharsGo, pending] using this
  have hi : (i = [] ∧ imp = false) ∨ (i = ' ' :: (c!"IMP:N=" ++ io.render c.importance) ∧ imp = true) := by
    cases imp
    · exact Or.inl ⟨rfl, rfl⟩
    · exact Or.inr ⟨rfl, rfl⟩
  have hlexi : lexParens (c!"IMP:N=" ++ io.render c.importance) = [.atom (c!"IMP:N=" ++ io.render c.importance)] :=
    plain_prefix (by decide) himp
  have hfi : lexParens (ft ++ i) = fillSyms c offs rots ++
      (if imp then [.atom (c!"IMP:N=" ++ io.render c.importance)] else []) := by
    rcases hi with ⟨h, rfl⟩ | ⟨h, rfl⟩
    · rw [h, List.append_nil, hlex]; simp
    · rw [h, hlexrest, hlexi]; simp
  have hfi0 : (ft ++ i) = [] ∨ ∃ ch t, ft ++ i = ' ' :: ch :: t ∧ ch.isAlpha = true := by
    rcases hshape with ⟨-, rfl⟩ | ⟨t, rfl⟩
    · rcases hi with ⟨h, -⟩ | ⟨h, -⟩
      · left; simp [h]
      · right; rw [h]; exact ⟨_, _, rfl, by decide⟩
    · right; exact ⟨_, _, rfl, by decide⟩
  have hu : lexParens (u ++ (ft ++ i)) = paramSyms io c offs rots imp := by
    unfold paramSyms
    rw [List.append_assoc]
    cases hc : c.uni with
    | none => simp only [u, hc, List.nil_append, hfi]
    | some v =>
      have hv := hp.uni v hc
      have hl : lexParens (c!"u=" ++ v) = [.atom (c!"u=" ++ v)] := plain_prefix (by decide) hv
      have e : u = ' ' :: (c!"u=" ++ v) := by simp [u, hc]
      rw [e]
      rcases hfi0 with h | ⟨ch, t, h, -⟩
      · rw [h] at hfi ⊢
        rw [List.append_nil, h0, hl, ← hfi]
        simp [lexParens, lexCharsGo, pending]
      · rw [h] at hfi ⊢
        rw [List.cons_append, h0, lexParens_space, hl]
        rw [h0] at hfi
        rw [hfi]
  have hi1 : ∀ k ≤ 66, runOk 69 k (i ++ c!"\n") := by
    intro k hk
    rcases hi with ⟨h, -⟩ | ⟨h, -⟩
    · rw [h]
      show runOk 69 k c!"\n"
      simp [runOk]; omega
    · rw [h, List.cons_append]
      unfold runOk
      rw [if_pos rfl]
      refine ⟨by omega, ?_⟩
      rw [runOk_word (by
        simp only [List.mem_append, not_or]
        exact ⟨by decide, token_noBlank himp.1⟩)]
      have := himp.1.2.2
      simp [runOk]; omega
  have hf1 : ∀ k ≤ 66, runOk 69 k (ft ++ (i ++ c!"\n")) := hrun _ hi1
  have hu1 : ∀ k ≤ 62, runOk 69 k (u ++ (ft ++ (i ++ c!"\n"))) := by
    intro k hk
    cases hc : c.uni with
    | none => simp only [u, hc, List.nil_append]; exact hf1 k (by omega)
    | some v =>
      have hv := hp.uni v hc
      have e : u = ' ' :: (c!"u=" ++ v) := by simp [u, hc]
      rw [e, List.cons_append]
      unfold runOk
      rw [if_pos rfl]
      refine ⟨by omega, ?_⟩
      rw [runOk_word (by
        simp only [List.mem_append, not_or]
        exact ⟨by decide, token_noBlank hv.1⟩)]
      refine hf1 _ ?_
      have := hv.1.2.2
      simp; omega
  -- header and geometry
  let g := c.interpreted.flatMap mcnpItem
  let d : Str := if c.material = .int 0 then [] else io.render c.density ++ c!" "
  let A := intStr c.id ++ c!" " ++ (c.material.text ++ c!" ") ++ d ++ g ++ c!"\n"
  have eA : A = intStr c.id ++ ' ' :: (c.material.text ++ ' ' :: (d ++ (g ++ c!"\n"))) := by simp [A]
  have hgs : split (g ++ c!"\n") = split g := split_append_spaces _ _ (by decide)
  have hsA : split A = (intStr c.id :: c.material.text :: (if c.material = .int 0 then [] else [io.render c.density])) ++ split g := by
    rw [eA, split_word_space _ _ ' ' (by decide) hw.id.2.1 hw.id.1, split_word_space _ _ ' ' (by decide) hw.material.2.1 hw.material.1]
    by_cases hm : c.material = .int 0
    · simp only [d, hm, if_true, List.nil_append, hgs]
      rfl
    · have hg := good_plainToken (hw.density hm)
      simp only [d, hm, if_false]
      rw [List.append_assoc, show c!" " ++ (g ++ c!"\n") = ' ' :: (g ++ c!"\n") from rfl,
        split_word_space _ _ ' ' (by decide) hg.1.2.1 hg.1.1, hgs]
      rfl
  have hrg : runOk 62 0 (g ++ c!"\n") := mcnp_items_run hw.spaced hw.words _ fun k hk => by simp [runOk]; omega
  have hblank : ∀ (w b : Str), Token w → runOk 62 0 b → runOk 62 0 (w ++ ' ' :: b) := by
    intro w b hw hb
    rw [runOk_word (token_noBlank hw)]
    unfold runOk
    rw [if_pos rfl]
    exact ⟨by have := hw.2.2; omega, hb⟩
  have hrA : runOk 62 0 A := by
    rw [eA]
    refine hblank _ _ hw.id (hblank _ _ hw.material ?_)
    by_cases hm : c.material = .int 0
    · simp only [d, hm, if_true, List.nil_append]; exact hrg
    · simp only [d, hm, if_false]
      rw [List.append_assoc]
      exact hblank _ _ (good_plainToken (hw.density hm)).1 hrg
  let S := strip (squeeze A)
  have hS1 : split S = split A := by rw [split_strip, split_squeeze]
  have hS2 : runOk 62 0 S := runOk_strip (runOk_squeeze hrA)
  have hnlA : ∃ A', A = A' ++ c!"\n" ∧ '\n' ∉ A' := by
    refine ⟨intStr c.id ++ ' ' :: (c.material.text ++ ' ' :: (d ++ g)), by simp [A], ?_⟩
    have hd : '\n' ∉ d := by
      by_cases hm : c.material = .int 0
      · simp [d, hm]
      · simp only [d, hm, if_false, List.mem_append, not_or]
        exact ⟨token_noNewline (good_plainToken (hw.density hm)).1, by decide⟩
    have hg : '\n' ∉ g := by
      intro h
      obtain ⟨it, hit, hc⟩ := List.mem_flatMap.1 h
      rcases mcnpItem_chars hc with h | h | h | ⟨s, rfl, hs⟩
      · exact absurd h (by decide)
      · exact absurd h (by decide)
      · exact absurd h (by decide)
      · by_cases hpn : IsParen s
        · rcases hpn with rfl | rfl <;> revert hs <;> decide
        · exact absurd (geometryWord_plain (hw.words s hit hpn).1 _ hs).1 (by decide)
    simp only [List.mem_append, List.mem_cons, not_or]
    exact ⟨token_noNewline hw.id, by decide, token_noNewline hw.material, by decide, hd, hg⟩
  have hSnl : '\n' ∉ S := by
    obtain ⟨A', hA', hn⟩ := hnlA
    intro h
    simp only [S, hA', squeeze_newline, strip_newline] at h
    exact hn (mem_squeeze (mem_strip h))
  have hT : mcnpCellText io c imp = .ok (S ++ (u ++ (ft ++ (i ++ c!"\n")))) := by
    unfold mcnpCellText
    rw [hft]
    show (.ok (S ++ u ++ ft ++ i ++ c!"\n") : Py Str) = _
    simp only [List.append_assoc]
  have hSe : S ++ (u ++ (ft ++ (i ++ c!"\n"))) = S ++ (u ++ (ft ++ i)) ++ c!"\n" := by simp
  have hp0 : u ++ (ft ++ i) = [] ∨ ∃ ch t, u ++ (ft ++ i) = ' ' :: ch :: t ∧ ch.isAlpha = true := by
    cases hc : c.uni with
    | none => simp only [u, hc, List.nil_append]; exact hfi0
    | some v =>
      have e : u = ' ' :: (c!"u=" ++ v) := by simp [u, hc]
      rw [e]
      exact Or.inr ⟨'u', _, rfl, by decide⟩
  refine ⟨_, g, u ++ (ft ++ i), hT, ?_, ?_, ?_, rfl, hp0, hu⟩
  · have : ∀ (a b : Str) (k : Nat), runOk 62 k a → (∀ k ≤ 62, runOk 69 k b) → runOk 69 k (a ++ b) := by
      intro a
      induction a with
      | nil => intro b k h1 h2; exact h2 k h1
      | cons x a ih =>
        intro b k h1 h2
        rw [List.cons_append]
        unfold runOk at h1 ⊢
        split
        · rename_i hx; rw [if_pos hx] at h1; exact ⟨by omega, ih b 0 h1.2 h2⟩
        · rename_i hx; rw [if_neg hx] at h1; exact ih b _ h1 h2
    exact this _ _ 0 hS2 hu1
  · unfold OneLine
    rw [hSe, show (S ++ (u ++ (ft ++ i)) ++ c!"\n").dropLast = S ++ (u ++ (ft ++ i)) from List.dropLast_concat]
    have hun : '\n' ∉ u := by
      cases hc : c.uni with
      | none => simp [u, hc]
      | some v =>
        have := token_noNewline (hp.uni v hc).1
        simp [u, hc, this]
    have hin : '\n' ∉ i := by
      rcases hi with ⟨h, -⟩ | ⟨h, -⟩
      · simp [h]
      · have := token_noNewline himp.1
        simp [h, this]
    simp only [List.mem_append, not_or]
    exact ⟨hSnl, hun, hnl, hin⟩
  · rw [hSe, split_append_spaces _ _ (by decide), ← hsA, ← hS1]
    rcases hp0 with h | ⟨ch, t, h, -⟩
    · rw [h]; simp [split_nil]
    · rw [h, split_append_space _ _ ' ' (by decide), split_space_cons ' ' _ (by decide)]

end

end Csg
