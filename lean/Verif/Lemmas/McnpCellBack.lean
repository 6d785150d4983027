import Verif.Lemmas.ParamGroups
import Verif.Props.Parameters
import Verif.Spec.CellBack
import Verif.Lemmas.Exact

/-!
# Reading the words of a written MCNP cell
-/

set_option linter.unusedSectionVars false

namespace Csg

open Spec

/-- The words of a description without keywords. -/
theorem split_expand_token {w : Str} (hns : ∀ c ∈ w, isSpace c = false) (hne : w ≠ []) (hp : ∀ c ∈ w, c ≠ '(' ∧ c ≠ ')' ∧ c ≠ ':' ∧ c ≠ '+') :
    split (expandText w) = [w] := by
  rw [expandText_id (by
    intro c hc
    obtain ⟨h1, h2, h3, h4⟩ := hp c hc
    simp [h1, h2, h3, h4]), split_word w hns hne]

theorem expandText_plus {w : Str} (hp : ∀ c ∈ w, c ≠ '(' ∧ c ≠ ')' ∧ c ≠ ':') : expandText w = w.filter (· != '+') := by
  induction w with
  | nil => rfl
  | cons c w ih =>
    have e : expandText (c :: w) = expandText [c] ++ expandText w := expandText_append [c] w
    rw [e, ih fun d hd => hp d (List.mem_cons_of_mem _ hd)]
    obtain ⟨h1, h2, h3⟩ := hp c (by simp)
    by_cases h4 : c = '+'
    · subst h4; rfl
    · rw [expandText_id (by simp [h1, h2, h3, h4]), List.filter_cons_of_pos (by simp [h4])]
      rfl

theorem intStr_token (z : Int) : split (expandText (intStr z)) = [intStr z] := by
  have hd : ∀ c ∈ intStr z, isSpace c = false ∧ c ≠ '(' ∧ c ≠ ')' ∧ c ≠ ':' ∧ c ≠ '+' := by
    intro c hc
    rcases intStr_chars z c hc with h | rfl
    · unfold isDigit at h
      simp only [Bool.or_eq_true, beq_iff_eq] at h
      rcases h with ((((((((rfl | rfl) | rfl) | rfl) | rfl) | rfl) | rfl) | rfl) | rfl) | rfl <;> decide
    · decide
  exact split_expand_token (fun c hc => (hd c hc).1) (intStr_ne_nil z) fun c hc => (hd c hc).2

theorem floatText_token {s : Str} (h : FloatText s) : split (expandText s) = [s.filter (· != '+')] := by
  have hc : ∀ c ∈ s, c ≠ '(' ∧ c ≠ ')' ∧ c ≠ ':' := by
    intro c hc
    rcases h.chars c hc with h | rfl | rfl | rfl | rfl
    · unfold isDigit at h
      simp only [Bool.or_eq_true, beq_iff_eq] at h
      rcases h with ((((((((rfl | rfl) | rfl) | rfl) | rfl) | rfl) | rfl) | rfl) | rfl) | rfl <;> decide
    all_goals decide
  rw [expandText_plus hc]
  exact split_word _ h.filter_plus.noSpace h.filter_plus.ne_nil

section
variable {K : Type} [Field K] [DecidableEq K]

/-- A card without parameters is read by its words: number, material, density and geometry. -/
theorem readCell_words (io : NumIO K) (cosDeg : K → K) (c : Cell K) (hr : ReadableCell io c) {pre : Str} (hk : NoKeyword pre) {g : List Str}
    (hs : split pre = (intStr c.id :: c.material.text :: (if c.material = .int 0 then [] else [io.render c.density])) ++ g)
    (hg : g.flatMap lexGeometry = itemSyms c.interpreted) :
    ∃ r, readCell io cosDeg pre = .ok r ∧ r.id = c.id ∧ r.material.text = c.material.text ∧ (c.material ≠ .int 0 → r.density = c.density) ∧
      itemSyms r.interpreted = itemSyms c.interpreted := by
  have hG : tokenSyms (g.flatMap fun w => split (expandText w)) = itemSyms c.interpreted := by
    rw [← hg]
    clear hs hg
    induction g with
    | nil => rfl
    | cons w g ih =>
      have e : tokenSyms (split (expandText w)) = lexGeometry w := split_expand_syms w [] (by simp)
      rw [List.flatMap_cons, List.flatMap_cons, ← ih, ← e]
      simp [tokenSyms]
  obtain ⟨is, ns, hgen, his⟩ := legal_generalise (by rw [hG]; exact hr.legal : Legal (tokenSyms (g.flatMap fun w => split (expandText w))))
  have hok : ∀ {α β : Type} (a : α) (k : α → Py β), ((.ok a : Py α) >>= k) = k a := fun _ _ => rfl
  by_cases hm : c.material = .int 0
  · have ht : split (expandText pre) = intStr c.id :: intStr 0 :: g.flatMap fun w => split (expandText w) := by
      rw [split_expandText, hs, if_pos hm, hm]
      show ([intStr c.id, intStr 0] ++ g).flatMap _ = _
      rw [List.flatMap_append, List.flatMap_cons, List.flatMap_cons, intStr_token, intStr_token]
      rfl
    refine ⟨{ (Cell.blank : Cell K) with id := c.id, density := 0, material := .int 0, text := g.flatMap fun w => split (expandText w), interpreted := is, surfaces := [] ++ ns }, ?_, rfl, by rw [hm], fun h => absurd hm h, by rw [his, hG]⟩
    unfold readCell interpret
    rw [detectKeywords_none io cosDeg _ hk, hok]
    simp only [ht]
    have h0 : pyGet (intStr c.id :: intStr 0 :: g.flatMap fun w => split (expandText w)) 0 = .ok (intStr c.id) := rfl
    have h1 : pyGet (intStr c.id :: intStr 0 :: g.flatMap fun w => split (expandText w)) 1 = .ok (intStr 0) := rfl
    rw [h0, hok, pyInt_intStr, hok, h1, hok, pyInt_intStr, hok, if_neg (by omega), hok]
    simp only [List.drop_succ_cons, List.drop_zero]
    rw [hgen]
    rfl
  · obtain ⟨m, hmp, hmt⟩ : ∃ m : Int, 0 < m ∧ c.material.text = intStr m := by
      rcases hr.material with h | h
      · exact absurd h hm
      · exact h
    obtain ⟨⟨hft, -⟩, hpl⟩ := hr.density hm
    have ht : split (expandText pre) = intStr c.id :: intStr m :: (io.render c.density).filter (· != '+') :: g.flatMap fun w => split (expandText w) := by
      rw [split_expandText, hs, if_neg hm, hmt]
      show ([intStr c.id, intStr m, io.render c.density] ++ g).flatMap _ = _
      rw [List.flatMap_append, List.flatMap_cons, List.flatMap_cons, List.flatMap_cons, intStr_token, intStr_token, floatText_token hft]
      rfl
    refine ⟨{ (Cell.blank : Cell K) with id := c.id, density := c.density, material := .int m, text := g.flatMap fun w => split (expandText w), interpreted := is, surfaces := [] ++ ns }, ?_, rfl, hmt.symm, fun _ => rfl, by rw [his, hG]⟩
    unfold readCell interpret
    rw [detectKeywords_none io cosDeg _ hk, hok]
    simp only [ht]
    generalize hL : (intStr c.id :: intStr m :: (io.render c.density).filter (· != '+') :: g.flatMap fun w => split (expandText w)) = L
    have h0 : pyGet L 0 = .ok (intStr c.id) := by rw [← hL]; rfl
    have h1 : pyGet L 1 = .ok (intStr m) := by rw [← hL]; rfl
    have h2 : pyGet L 2 = .ok ((io.render c.density).filter (· != '+')) := by rw [← hL]; rfl
    rw [h0, hok, pyInt_intStr, hok, h1, hok, pyInt_intStr, hok, if_pos hmp, h2, hok, fortranNumber_floatText io hft.filter_plus hpl, hok, hok]
    simp only [← hL, List.drop_succ_cons, List.drop_zero]
    rw [hgen]
    rfl

/-! ## Parameters -/

/-- Words of the offset: zeros if there is a rotation but no offset. -/
def offsetWords (c : Cell K) (offs : List Str) : List Str := if c.offset = none then [c!"0", c!"0", c!"0"] else offs

/-- Words of the rotation. -/
def rotationWords (c : Cell K) (rots : List Str) : List Str := if c.rotation = none then [] else rots

/-- The words of the fill. -/
inductive FillWords (c : Cell K) (offs rots : List Str) : List Str → Prop
  | none : c.fill = none → FillWords c offs rots []
  | plain (f : Str) : c.fill = some f → c.offset = none → c.rotation = none → FillWords c offs rots [c!"fill=" ++ f]
  | moved (f pre : Str) : c.fill = some f → ¬ (c.offset = none ∧ c.rotation = none) → (pre = [] ∨ pre = c!" ") →
      FillWords c offs rots ((c!"fill=" ++ f) :: split ('(' :: (pre ++ (blanked (offsetWords c offs) ++ (blanked (rotationWords c rots) ++ c!")")))))

theorem split_blanked_words {ws : List Str} (h : ∀ w ∈ ws, w ≠ [] ∧ NoSpace w) (rest : Str) : split (blanked ws ++ rest) = ws ++ split rest := by
  induction ws with
  | nil => rfl
  | cons w ws ih =>
    rw [blanked_cons, List.append_assoc, List.cons_append, split_word_space w _ ' ' (by decide) (h w (by simp)).2 (h w (by simp)).1,
      ih fun v hv => h v (List.mem_cons_of_mem _ hv)]
    rfl

/-- The text between parentheses has the words between them. -/
theorem lexParens_between {t : Str} (h : '(' ∉ t ∧ ')' ∉ t) : lexParens ('(' :: (t ++ c!")")) = .lp :: ((split t).map .atom ++ [.rp]) := by
  have key : ∀ (t acc : Str), '(' ∉ t ∧ ')' ∉ t → lexCharsGo parenChar acc (t ++ c!")") = (splitGo acc t).map .atom ++ [.rp] := by
    intro t
    induction t with
    | nil =>
      intro acc _
      simp only [List.nil_append, lexCharsGo, splitGo, flush, pending]
      by_cases ha : acc = [] <;> simp [ha, parenChar, isSpace]
    | cons c t ih =>
      intro acc h
      rw [List.cons_append]
      unfold lexCharsGo splitGo
      simp only [List.mem_cons, not_or] at h
      split
      · rw [ih [] ⟨h.1.2, h.2.2⟩]
        unfold pending flush
        by_cases ha : acc = [] <;> simp [ha]
      · have : parenChar c = Option.none := by
          unfold parenChar
          rw [if_neg (fun e => h.1.1 e.symm), if_neg (fun e => h.2.1 e.symm)]
        rw [this]
        exact ih _ ⟨h.1.2, h.2.2⟩
  rw [lexParens_lp]
  congr 1
  exact key t [] h

theorem atom_injective : Function.Injective (Sym.atom : Str → Sym Str) := fun a b h => by cases h; rfl

theorem between_parens {b body : Str} (hs : split b = split ('(' :: (body ++ c!")"))) (h1 : ∃ c t, b = c :: t ∧ isSpace c = false)
    (h2 : ∃ t d, b = t ++ [d] ∧ isSpace d = false) (hb : '(' ∉ body ∧ ')' ∉ body) :
    ∃ t, b = '(' :: (t ++ c!")") ∧ split t = split body ∧ ∀ c ∈ t, isSpace c = true ∨ c ∈ body := by
  have hf : b.filter (fun c => !isSpace c) = ('(' :: (body ++ c!")")).filter fun c => !isSpace c := by rw [← split_flatten, hs, split_flatten]
  have e1 : ('(' :: (body ++ c!")")).filter (fun c => !isSpace c) = '(' :: (body.filter (fun c => !isSpace c) ++ c!")") := by
    rw [List.filter_cons_of_pos (by decide), List.filter_append]
    rfl
  rw [e1] at hf
  obtain ⟨c, t, rfl, hc⟩ := h1
  rw [List.filter_cons_of_pos (by simp [hc])] at hf
  obtain ⟨rfl, hg⟩ := List.cons.inj hf
  clear hf
  rcases List.eq_nil_or_concat t with rfl | ⟨t', d, rfl⟩
  · have := congrArg List.length hg
    simp at this
  · rw [List.concat_eq_append] at *
    have hd : isSpace d = false := by
      obtain ⟨t2, d2, e, hd2⟩ := h2
      have := congrArg List.getLast? e
      rw [← List.cons_append] at this
      simp only [List.getLast?_append, List.getLast?_singleton, Option.some_or, Option.some.injEq] at this
      rw [this]; exact hd2
    rw [List.filter_append, List.filter_cons_of_pos (by simp [hd])] at hg
    obtain ⟨hf1, hf2⟩ := List.append_inj' hg rfl
    have hd' : d = ')' := by simpa using hf2
    subst hd'
    have hmem : ∀ c ∈ t', isSpace c = true ∨ c ∈ body := by
      intro c hc
      by_cases hs : isSpace c = true
      · exact Or.inl hs
      · right
        have : c ∈ t'.filter fun c => !isSpace c := List.mem_filter.2 ⟨hc, by simpa using hs⟩
        rw [hf1] at this
        exact (List.mem_filter.1 this).1
    refine ⟨t', rfl, ?_, hmem⟩
    have hp : '(' ∉ t' ∧ ')' ∉ t' := by
      constructor
      · intro h
        rcases hmem _ h with h | h
        · exact absurd h (by decide)
        · exact hb.1 h
      · intro h
        rcases hmem _ h with h | h
        · exact absurd h (by decide)
        · exact hb.2 h
    have hl : lexParens ('(' :: (t' ++ c!")")) = lexParens ('(' :: (body ++ c!")")) := by
      unfold lexParens
      rw [lexChars_split, hs, ← lexChars_split]
    rw [lexParens_between hp, lexParens_between hb] at hl
    exact List.map_injective_iff.2 atom_injective (List.append_cancel_right (List.cons.inj hl).2)

theorem single_group {kind : Nat} {p : Param} {w : Str} (hk : p.kind = kind) (hp : ParamText p w) : (ParamGroup.mk kind (· = p) [w]).Ok :=
  ⟨by rintro _ rfl; exact hk, by simp, fun a ha h1 h2 => ⟨p, rfl, by rw [single_word ha h1 h2]; exact hp⟩⟩

theorem numberChar_noParen {c : Char} (h : NumberChar c) : c ≠ '(' ∧ c ≠ ')' ∧ isSpace c = false := by
  rcases h with h | rfl | rfl | rfl | rfl
  · unfold isDigit at h
    simp only [Bool.or_eq_true, beq_iff_eq] at h
    rcases h with ((((((((rfl | rfl) | rfl) | rfl) | rfl) | rfl) | rfl) | rfl) | rfl) | rfl <;> decide
  all_goals decide

theorem mem_blanked {ws : List Str} {c : Char} (h : c ∈ blanked ws) : c = ' ' ∨ ∃ w ∈ ws, c ∈ w := by
  induction ws with
  | nil => simp [blanked] at h
  | cons w ws ih =>
    rw [blanked_cons] at h
    rcases List.mem_append.1 h with h | h
    · exact Or.inr ⟨w, by simp, h⟩
    · rcases List.mem_cons.1 h with h | h
      · exact Or.inl h
      · rcases ih h with h | ⟨v, hv, hc⟩
        · exact Or.inl h
        · exact Or.inr ⟨v, List.mem_cons_of_mem _ hv, hc⟩

/-- The words of a fill with transform are a fill parameter. -/
theorem moved_group {f pre : Str} {ws rs : List Str} (hf : PlainNumber f) (hpre : pre = [] ∨ pre = c!" ") (hw : ∀ w ∈ ws ++ rs, w ≠ [] ∧ ∀ c ∈ w, NumberChar c) :
    (ParamGroup.mk 1 (fun p => ∃ t, p = .fill false f (some t) ∧ split t = ws ++ rs) ((c!"fill=" ++ f) :: split ('(' :: (pre ++ (blanked ws ++ (blanked rs ++ c!")")))))).Ok := by
  refine ⟨by rintro _ ⟨t, rfl, -⟩; rfl, by simp, ?_⟩
  intro a ha h1 h2
  have hch : ∀ c ∈ pre ++ (blanked ws ++ blanked rs), isSpace c = true ∨ NumberChar c := by
    intro c hc
    rcases List.mem_append.1 hc with hc | hc
    · left
      rcases hpre with rfl | rfl
      · simp at hc
      · simp at hc; subst hc; decide
    · have : c ∈ blanked (ws ++ rs) := by
        have e : blanked (ws ++ rs) = blanked ws ++ blanked rs := by simp [blanked]
        rw [e]; exact hc
      rcases mem_blanked this with rfl | ⟨w, hw', hc⟩
      · exact Or.inl (by decide)
      · exact Or.inr ((hw w hw').2 c hc)
  have hnp : '(' ∉ pre ++ (blanked ws ++ blanked rs) ∧ ')' ∉ pre ++ (blanked ws ++ blanked rs) := by
    constructor
    · intro h
      rcases hch _ h with h | h
      · exact absurd h (by decide)
      · exact (numberChar_noParen h).1 rfl
    · intro h
      rcases hch _ h with h | h
      · exact absurd h (by decide)
      · exact (numberChar_noParen h).2.1 rfl
  have hns : ∀ w ∈ ws ++ rs, w ≠ [] ∧ NoSpace w := fun w hw' => ⟨(hw w hw').1, fun c hc => (numberChar_noParen ((hw w hw').2 c hc)).2.2⟩
  have hbody : split (pre ++ (blanked ws ++ blanked rs)) = ws ++ rs := by
    have e : split (blanked ws ++ blanked rs) = ws ++ rs := by
      rw [split_blanked_words fun w h => hns w (List.mem_append_left _ h)]
      have := split_blanked_words (fun w h => hns w (List.mem_append_right _ h)) []
      rw [List.append_nil, split_nil, List.append_nil] at this
      rw [this]
    rcases hpre with rfl | rfl
    · exact e
    · rw [show c!" " ++ (blanked ws ++ blanked rs) = ' ' :: (blanked ws ++ blanked rs) from rfl, split_space_cons ' ' _ (by decide), e]
  rw [show pre ++ (blanked ws ++ (blanked rs ++ c!")")) = (pre ++ (blanked ws ++ blanked rs)) ++ c!")" by simp] at ha
  generalize pre ++ (blanked ws ++ blanked rs) = body at *
  have hne : split ('(' :: (body ++ c!")")) ≠ [] := by
    obtain ⟨w, hw, -⟩ := split_mem ('(' :: (body ++ c!")")) '(' (by decide) (by simp)
    intro h; rw [h] at hw; cases hw
  obtain ⟨a1, b, rfl, ha1, hb, hb0, hsp⟩ := split_append_parts (us := [c!"fill=" ++ f]) ha hne
  obtain ⟨a2, x, rfl, hx⟩ := hsp (by simp)
  have hw1 := split_words (a2 ++ [x]) (c!"fill=" ++ f) (by rw [ha1]; simp)
  obtain ⟨y, d, sp, e, hd, hspace, hs⟩ := trim_right (a2 ++ [x]) ⟨'f', mem_of_mem_split (w := c!"fill=" ++ f) (by rw [ha1]; simp) (by simp), by decide⟩
  have hy : y ++ [d] = c!"fill=" ++ f := by
    refine single_word (by rw [hs, ha1]) ?_ ⟨y, d, rfl, hd⟩
    obtain ⟨c0, t0, e0, hc0⟩ := h1
    rw [e] at e0
    cases y with
    | nil => exact ⟨d, [], rfl, hd⟩
    | cons z y =>
      simp only [List.cons_append] at e0
      obtain ⟨rfl, -⟩ := List.cons.inj e0
      exact ⟨_, _, rfl, hc0⟩
  obtain ⟨t, rfl, ht, htc⟩ := between_parens hb hb0 (by
    obtain ⟨t2, d2, e2, hd2⟩ := h2
    rcases List.eq_nil_or_concat b with rfl | ⟨b', d', rfl⟩
    · obtain ⟨c, t, h, -⟩ := hb0; cases h
    · rw [List.concat_eq_append, ← List.append_assoc] at e2
      have := congrArg List.getLast? e2
      simp only [List.getLast?_append, List.getLast?_singleton, Option.some_or, Option.some.injEq] at this
      exact ⟨b', d', by rw [List.concat_eq_append], by rw [this]; exact hd2⟩) hnp
  refine ⟨.fill false f (some t), ⟨t, rfl, by rw [ht, hbody]⟩, ?_⟩
  have hfin := ParamText.filled false f c!"=" sp t (Or.inl rfl) hf hspace (by
    intro c hc
    rcases htc c hc with h | h
    · exact Or.inl h
    · exact hch c h)
  rw [e, hy]
  have e3 : c!"fill=" ++ f ++ sp ++ '(' :: (t ++ c!")") = (if false = true then c!"*" else []) ++ c!"fill" ++ c!"=" ++ f ++ sp ++ c!"(" ++ t ++ c!")" := by simp
  rw [e3]
  exact hfin

theorem forall₂_exists_right {α β : Type} {R : α → β → Prop} {l : List α} {r : List β} (h : List.Forall₂ R l r) {y : β} (hy : y ∈ r) : ∃ x ∈ l, R x y := by
  induction h with
  | nil => cases hy
  | cons h _ ih =>
    rcases List.mem_cons.1 hy with rfl | hy
    · exact ⟨_, by simp, h⟩
    · obtain ⟨x, hx, hr⟩ := ih hy
      exact ⟨x, List.mem_cons_of_mem _ hx, hr⟩

theorem forall₂_exists_left {α β : Type} {R : α → β → Prop} {l : List α} {r : List β} (h : List.Forall₂ R l r) {x : α} (hx : x ∈ l) : ∃ y ∈ r, R x y := by
  induction h with
  | nil => cases hx
  | cons h _ ih =>
    rcases List.mem_cons.1 hx with rfl | hx
    · exact ⟨_, by simp, h⟩
    · obtain ⟨y, hy, hr⟩ := ih hx
      exact ⟨y, List.mem_cons_of_mem _ hy, hr⟩

/-- The word of the universe. -/
def uniWords (c : Cell K) : List Str := match c.uni with | none => [] | some u => [c!"u=" ++ u]

theorem offset_words_eq (io : NumIO K) {l : List (Entry K)} {offs : List Str}
    (h : List.Forall₂ (fun e w => PlainToken w ∧ (e = .txt w ∨ ∃ x, e = .num x ∧ w = io.render x)) l offs) : offs = l.map (Entry.text io) := by
  induction h with
  | nil => rfl
  | cons h _ ih =>
    rw [List.map_cons, ← ih]
    rcases h.2 with rfl | ⟨x, rfl, rfl⟩ <;> rfl

theorem rotation_floats (io : NumIO K) {l : List (Entry K)} {rots : List Str}
    (h : List.Forall₂ (fun e w => ∃ x, io.Good x ∧ w = io.render x ∧ (e = .num x ∨ ∃ t, e = .txt t ∧ io.parse t = some x)) l rots) :
    List.Forall₂ (fun e e' => ∃ x, e.float io = .ok x ∧ e'.float io = .ok x) l (rots.map Entry.txt) := by
  induction h with
  | nil => exact .nil
  | cons hab _ ih =>
    refine .cons ?_ ih
    obtain ⟨x, hx, rfl, hx'⟩ := hab
    refine ⟨x, ?_, by simp [Entry.float, NumIO.float, hx.parse_render]⟩
    rcases hx' with rfl | ⟨t, rfl, ht⟩
    · rfl
    · simp [Entry.float, NumIO.float, ht]

/-- A card is read by its words: the words of the header, of the geometry and of the parameters give the cell. -/
theorem readCell_written (io : NumIO K) (cosDeg : K → K) (c : Cell K) {offs rots : List Str} (hw : Writable io GeometryWord c) (hp : WritableParams io c offs rots)
    (hr : ReadableCell io c) {txt : Str} {g fw : List Str} (hfw : FillWords c offs rots fw)
    (hs : split txt = (intStr c.id :: c.material.text :: (if c.material = .int 0 then [] else [io.render c.density])) ++ g ++
      (uniWords c ++ fw ++ [c!"imp:n=" ++ io.render c.importance]))
    (hgk : ∀ w ∈ g, NoKeyword w) (hg : g.flatMap lexGeometry = itemSyms c.interpreted) :
    ∃ r, readCell io cosDeg txt = .ok r ∧ SameCell io c r := by
  obtain ⟨pre, T, rfl, hpre, hT, hT0, hsp⟩ := split_append_parts hs (by simp)
  have hne : pre ≠ [] := by
    obtain ⟨a, x, rfl, -⟩ := hsp (by simp)
    simp
  have hgood : ∀ x, io.Good x → NoKeyword (io.render x) := by
    intro x hx ch hch
    rcases hx.chars ch hch with h | rfl | rfl | rfl | rfl
    · exact noKeyword_digit h
    all_goals decide
  have hk : NoKeyword pre := by
    intro ch hch
    by_cases hsp : isSpace ch = true
    · unfold isSpace at hsp
      simp only [Bool.or_eq_true, beq_iff_eq] at hsp
      rcases hsp with ((((rfl | rfl) | rfl) | rfl) | rfl) | rfl <;> decide
    · obtain ⟨w, hw', hcw⟩ := split_mem pre ch (by simpa using hsp) hch
      rw [hpre] at hw'
      rcases List.mem_append.1 hw' with h | h
      · rcases List.mem_cons.1 h with rfl | h
        · exact noKeyword_intStr _ ch hcw
        · rcases List.mem_cons.1 h with rfl | h
          · rcases hr.material with h0 | ⟨m, -, h0⟩
            · rw [h0] at hcw; exact noKeyword_intStr 0 ch hcw
            · rw [h0] at hcw; exact noKeyword_intStr m ch hcw
          · by_cases hm : c.material = .int 0
            · rw [if_pos hm] at h; cases h
            · rw [if_neg hm, List.mem_singleton] at h
              subst h
              exact hgood _ (hw.density hm) ch hcw
      · exact hgk w h ch hcw
  obtain ⟨c0, h0, hid, hmat, hden, hreg⟩ := readCell_words io cosDeg c hr hk hpre hg
  -- the groups
  let Gu : List ParamGroup := match c.uni with | none => [] | some u => [⟨0, (· = .uni u), [c!"u=" ++ u]⟩]
  let Gi : ParamGroup := ⟨2, (· = .importance (io.render c.importance)), [c!"imp:n=" ++ io.render c.importance]⟩
  have hGu : ∀ G ∈ Gu, G.Ok := by
    intro G hG
    cases hu : c.uni with
    | none => simp [Gu, hu] at hG
    | some u =>
      simp only [Gu, hu, List.mem_singleton] at hG
      subst hG
      exact single_group rfl (ParamText.uni u c!"=" (Or.inl rfl) (hr.uni u hu))
  have hGi : Gi.Ok := single_group rfl (ParamText.importance _ c!"=" (Or.inl rfl) hr.importance)
  have hoffc : ∀ w ∈ offsetWords c offs, c.fill ≠ none → w ≠ [] ∧ ∀ ch ∈ w, NumberChar ch := by
    intro w hw' hfill
    unfold offsetWords at hw'
    split at hw'
    · simp at hw'
      subst hw'
      exact ⟨by simp, by intro ch hch; simp at hch; subst hch; exact Or.inl (by decide)⟩
    · rename_i ho
      obtain ⟨l, hl⟩ := Option.ne_none_iff_exists'.1 ho
      obtain ⟨e, he, hpt, hew⟩ := forall₂_mem_right (hp.offset l hl).2 hw'
      refine ⟨hpt.1.1, fun ch hch => hr.offset l hfill hl e he ch ?_⟩
      rcases hew with rfl | ⟨x, rfl, rfl⟩ <;> exact hch
  have hrotc : ∀ w ∈ rotationWords c rots, w ≠ [] ∧ ∀ ch ∈ w, NumberChar ch := by
    intro w hw'
    unfold rotationWords at hw'
    split at hw'
    · cases hw'
    · rename_i ho
      obtain ⟨l, hl⟩ := Option.ne_none_iff_exists'.1 ho
      obtain ⟨e, he, x, hx, rfl, -⟩ := forall₂_mem_right (hp.rotation l hl).2 hw'
      exact ⟨hx.ne_nil, hx.chars⟩
  obtain ⟨Gf, hGf, hGfw, hGf1, hGf2, hGf3⟩ : ∃ Gf : List ParamGroup, (∀ G ∈ Gf, G.Ok) ∧ Gf.flatMap (·.words) = fw ∧
      (c.fill = none → Gf = []) ∧ (∀ f, c.fill = some f → c.offset = none → c.rotation = none → ∃ ws, Gf = [⟨1, (· = .fill false f none), ws⟩]) ∧
      ∀ f, c.fill = some f → ¬ (c.offset = none ∧ c.rotation = none) →
        ∃ ws, Gf = [⟨1, (fun p => ∃ t, p = .fill false f (some t) ∧ split t = offsetWords c offs ++ rotationWords c rots), ws⟩] := by
    cases hfw with
    | none hf => exact ⟨[], by simp, rfl, fun _ => rfl, fun f h => (by rw [hf] at h; cases h), fun f h => (by rw [hf] at h; cases h)⟩
    | plain f hf ho hro =>
      refine ⟨[⟨1, (· = .fill false f none), [c!"fill=" ++ f]⟩], ?_, rfl, fun h => (by rw [hf] at h; cases h), ?_, fun f' h hno => absurd ⟨ho, hro⟩ hno⟩
      · intro G hG
        rw [List.mem_singleton] at hG
        subst hG
        exact single_group rfl (ParamText.fill false f c!"=" (Or.inl rfl) (hr.fill f hf))
      · intro f' h _ _
        rw [hf] at h
        cases h
        exact ⟨_, rfl⟩
    | moved f q hf hno hq =>
      refine ⟨[⟨1, (fun p => ∃ t, p = .fill false f (some t) ∧ split t = offsetWords c offs ++ rotationWords c rots), _⟩], ?_, List.flatMap_singleton _ _,
        fun h => (by rw [hf] at h; cases h), fun f' h ho hro => absurd ⟨ho, hro⟩ hno, ?_⟩
      · intro G hG
        rw [List.mem_singleton] at hG
        subst hG
        refine moved_group (hr.fill f hf) hq ?_
        intro w hw'
        rcases List.mem_append.1 hw' with h | h
        · exact hoffc w h (by rw [hf]; simp)
        · exact hrotc w h
      · intro f' h _
        rw [hf] at h
        cases h
        exact ⟨_, rfl⟩
  have hwords : (Gu ++ Gf ++ [Gi]).flatMap (·.words) = uniWords c ++ fw ++ [c!"imp:n=" ++ io.render c.importance] := by
    rw [List.flatMap_append, List.flatMap_append, hGfw]
    have : Gu.flatMap (·.words) = uniWords c := by
      unfold uniWords
      cases hu : c.uni <;> simp [Gu, hu]
    rw [this]
    rfl
  have hokall : ∀ G ∈ Gu ++ Gf ++ [Gi], G.Ok := by
    intro G hG
    rcases List.mem_append.1 hG with hG | hG
    · rcases List.mem_append.1 hG with hG | hG
      · exact hGu G hG
      · exact hGf G hG
    · rw [List.mem_singleton] at hG; subst hG; exact hGi
  obtain ⟨l, rfl, hl, htx, hap⟩ := paramGroups (Gu ++ Gf ++ [Gi]) hokall (by simp) T (by rw [hwords, hT]) hT0
  have hkinds : l.map (fun e => e.1.kind) = (Gu ++ Gf ++ [Gi]).map (·.kind) := by
    clear hap htx hT hT0 hs
    generalize Gu ++ Gf ++ [Gi] = Gs at hl hokall
    induction hl with
    | nil => rfl
    | cons h _ ih =>
      rw [List.map_cons, List.map_cons, ih fun G hG => hokall G (List.mem_cons_of_mem _ hG), (hokall _ (by simp)).kind _ h]
  have hnod : ((Gu ++ Gf ++ [Gi]).map (·.kind)).Nodup := by
    have e1 : Gu.map (·.kind) = [] ∨ Gu.map (·.kind) = [0] := by cases hu : c.uni <;> simp [Gu, hu]
    have e2 : Gf.map (·.kind) = [] ∨ Gf.map (·.kind) = [1] := by
      cases hf : c.fill with
      | none => rw [hGf1 hf]; exact Or.inl rfl
      | some f =>
        by_cases hno : c.offset = none ∧ c.rotation = none
        · obtain ⟨ws, h⟩ := hGf2 f hf hno.1 hno.2; rw [h]; exact Or.inr rfl
        · obtain ⟨ws, h⟩ := hGf3 f hf hno; rw [h]; exact Or.inr rfl
    rw [List.map_append, List.map_append]
    rcases e1 with e1 | e1 <;> rcases e2 with e2 | e2 <;> rw [e1, e2] <;> simp [Gi]
  have hlist : IsParamList l := ⟨htx, hap, by rw [hkinds]; exact hnod, by rintro rfl; simp at hl⟩
  -- what is in the list
  have hin : ∀ p ∈ l.map Prod.fst, ∃ G ∈ Gu ++ Gf ++ [Gi], G.means p := by
    intro p hp'
    obtain ⟨e, he, rfl⟩ := List.mem_map.1 hp'
    exact forall₂_exists_left hl he
  have hout : ∀ G ∈ Gu ++ Gf ++ [Gi], ∃ p ∈ l.map Prod.fst, G.means p := by
    intro G hG
    obtain ⟨e, he, h⟩ := forall₂_exists_right hl hG
    exact ⟨e.1, List.mem_map_of_mem he, h⟩
  have hcases : ∀ p ∈ l.map Prod.fst, (∃ u, c.uni = some u ∧ p = .uni u) ∨
      (∃ f, c.fill = some f ∧ c.offset = none ∧ c.rotation = none ∧ p = .fill false f none) ∨
      (∃ f t, c.fill = some f ∧ ¬ (c.offset = none ∧ c.rotation = none) ∧ p = .fill false f (some t) ∧ split t = offsetWords c offs ++ rotationWords c rots) ∨
      p = .importance (io.render c.importance) := by
    intro p hp'
    obtain ⟨G, hG, hm⟩ := hin p hp'
    rcases List.mem_append.1 hG with hG | hG
    · rcases List.mem_append.1 hG with hG | hG
      · left
        cases hu : c.uni with
        | none => simp [Gu, hu] at hG
        | some u =>
          simp only [Gu, hu, List.mem_singleton] at hG
          subst hG
          exact ⟨u, rfl, hm⟩
      · right
        cases hf : c.fill with
        | none => rw [hGf1 hf] at hG; cases hG
        | some f =>
          by_cases hno : c.offset = none ∧ c.rotation = none
          · obtain ⟨ws, h⟩ := hGf2 f hf hno.1 hno.2
            rw [h, List.mem_singleton] at hG
            subst hG
            exact Or.inl ⟨f, rfl, hno.1, hno.2, hm⟩
          · obtain ⟨ws, h⟩ := hGf3 f hf hno
            rw [h, List.mem_singleton] at hG
            subst hG
            obtain ⟨t, h1, h2⟩ := hm
            exact Or.inr (Or.inl ⟨f, t, rfl, hno, h1, h2⟩)
    · rw [List.mem_singleton] at hG
      subst hG
      exact Or.inr (Or.inr (Or.inr hm))
  have hfloat : io.float (io.render c.importance) = .ok c.importance := by
    unfold NumIO.float
    rw [hp.importance.parse_render]
  obtain ⟨r, hread, e1, e2, e3, -, e5, -, hcar⟩ := C70_parameters_partial io cosDeg hne hk h0 hlist
    (by
      intro v hv
      rcases hcases _ hv with ⟨u, -, h⟩ | ⟨f, -, -, -, h⟩ | ⟨f, t, -, -, h, -⟩ | h
      · cases h
      · cases h
      · cases h
      · cases h; exact ⟨_, hfloat⟩)
    (by
      intro v t hv
      rcases hcases _ hv with ⟨u, -, h⟩ | ⟨f, -, -, -, h⟩ | ⟨f, t, -, -, h, -⟩ | h <;> cases h)
  have himp : Param.importance (io.render c.importance) ∈ l.map Prod.fst := by
    obtain ⟨p, hp', rfl⟩ := hout Gi (by simp)
    exact hp'
  have hnoT : (c.fill = none ∨ (c.offset = none ∧ c.rotation = none)) → ∀ d v t, Param.fill d v (some t) ∉ l.map Prod.fst := by
    intro hor d v t hv
    rcases hcases _ hv with ⟨u, -, h⟩ | ⟨f, -, -, -, h⟩ | ⟨f, t', hf, hno, -, -⟩ | h
    · cases h
    · cases h
    · rcases hor with h | h
      · rw [hf] at h; cases h
      · exact hno h
    · cases h
  -- the transform that is read
  have hshift : c.fill ≠ none → ¬ (c.offset = none ∧ c.rotation = none) → ∀ x y z, offsetWords c offs = [x, y, z] →
      r.trId = c!"0" ∧ r.offset = some [.txt x, .txt y, .txt z] ∧ (rotationWords c rots = [] → r.rotation = none) ∧
        ((rotationWords c rots).length = 9 → r.rotation = some ((rotationWords c rots).map .txt)) := by
    intro hf hno x y z hxyz
    obtain ⟨f, hf⟩ := Option.ne_none_iff_exists'.1 hf
    obtain ⟨ws, h⟩ := hGf3 f hf hno
    obtain ⟨p, hp', t, rfl, ht⟩ := hout _ (List.mem_append_left _ (List.mem_append_right Gu (by rw [h]; exact List.mem_singleton_self _)))
    rw [hxyz] at ht
    obtain ⟨h1, h2, h3, h4, -⟩ := hcar.shift false f t x y z (rotationWords c rots) hp' ht
    refine ⟨h1, h2, fun h0 => h3 (by rw [h0]; simp), fun h9 => ?_⟩
    rw [h4 rfl (by omega), List.take_of_length_le (by omega)]
  have hoffs : ∀ lo, c.offset = some lo → ∃ x y z, offsetWords c offs = [x, y, z] ∧ [x, y, z] = lo.map (Entry.text io) := by
    intro lo hlo
    have e := offset_words_eq io (hp.offset lo hlo).2
    have hlen : offs.length = 3 := by rw [e, List.length_map, (hp.offset lo hlo).1]
    match offs, hlen with
    | [x, y, z], _ => exact ⟨x, y, z, by simp [offsetWords, hlo], e⟩
  have h3 : ∃ x y z, offsetWords c offs = [x, y, z] := by
    cases ho : c.offset with
    | none => exact ⟨_, _, _, by simp [offsetWords, ho]; exact ⟨rfl, rfl, rfl⟩⟩
    | some lo => obtain ⟨x, y, z, h, -⟩ := hoffs lo ho; exact ⟨x, y, z, h⟩
  refine ⟨r, hread, ?_⟩
  refine ⟨e1.trans hid, by rw [e2]; exact hmat, fun h => e3.trans (hden h), by rw [e5]; exact hreg, ?_, ?_, ?_, ?_, ?_, ?_, ?_, ?_, ?_⟩
  · -- universe
    cases hu : c.uni with
    | none =>
      cases hru : r.uni with
      | none => rfl
      | some v =>
        rcases hcases _ ((hcar.uni v).1 hru) with ⟨u, h, -⟩ | ⟨f, -, -, -, h⟩ | ⟨f, t, -, -, h, -⟩ | h
        · rw [hu] at h; cases h
        all_goals cases h
    | some u =>
      refine (hcar.uni u).2 ?_
      obtain ⟨p, hp', hm⟩ := hout ⟨0, (· = .uni u), [c!"u=" ++ u]⟩ (List.mem_append_left _ (List.mem_append_left _ (by simp [Gu, hu])))
      simp only at hm
      rw [← hm]; exact hp'
  · -- fill
    cases hf : c.fill with
    | none =>
      cases hrf : r.fill with
      | none => rfl
      | some v =>
        obtain ⟨d, tr, hm⟩ := (hcar.fill v).1 hrf
        rcases hcases _ hm with ⟨u, -, h⟩ | ⟨f, h, -⟩ | ⟨f, t, h, -⟩ | h
        · cases h
        · rw [hf] at h; cases h
        · rw [hf] at h; cases h
        · cases h
    | some f =>
      refine (hcar.fill f).2 ?_
      by_cases hno : c.offset = none ∧ c.rotation = none
      · obtain ⟨ws, h⟩ := hGf2 f hf hno.1 hno.2
        obtain ⟨p, hp', rfl⟩ := hout _ (List.mem_append_left _ (List.mem_append_right Gu (by rw [h]; exact List.mem_singleton_self _)))
        exact ⟨_, _, hp'⟩
      · obtain ⟨ws, h⟩ := hGf3 f hf hno
        obtain ⟨p, hp', t, rfl, -⟩ := hout _ (List.mem_append_left _ (List.mem_append_right Gu (by rw [h]; exact List.mem_singleton_self _)))
        exact ⟨_, _, hp'⟩
  · have := hcar.importance _ himp
    rw [hfloat] at this
    exact (Except.ok.inj this).symm
  · by_cases hor : c.fill = none ∨ (c.offset = none ∧ c.rotation = none)
    · exact (hcar.noTransform (hnoT hor)).1
    · rw [not_or] at hor
      obtain ⟨x, y, z, h⟩ := h3
      exact (hshift hor.1 hor.2 x y z h).1
  · intro hor
    exact (hcar.noTransform (hnoT hor)).2
  · intro hf lo hlo
    obtain ⟨x, y, z, h, e⟩ := hoffs lo hlo
    rw [(hshift hf (by simp [hlo]) x y z h).2.1]
    have : lo.map (fun e => Entry.txt (e.text io)) = (lo.map (Entry.text io)).map (Entry.txt (K := K)) := by rw [List.map_map]; rfl
    rw [this, ← e]
    rfl
  · intro hf ho hro
    exact (hshift hf (fun h => hro h.2) _ _ _ (by simp [offsetWords, ho])).2.1
  · intro hf lr hlr
    obtain ⟨x, y, z, h⟩ := h3
    have hlen : rots.length = 9 := by rw [← (hp.rotation lr hlr).2.length_eq, (hp.rotation lr hlr).1]
    have hrw : rotationWords c rots = rots := by simp [rotationWords, hlr]
    refine ⟨rots.map .txt, ?_, ?_⟩
    · have := (hshift hf (by simp [hlr]) x y z h).2.2.2 (by rw [hrw]; exact hlen)
      rw [this, hrw]
    · exact rotation_floats io (hp.rotation lr hlr).2
  · intro hf hro
    by_cases ho : c.offset = none
    · exact ((hcar.noTransform (hnoT (Or.inr ⟨ho, hro⟩))).2).2
    · obtain ⟨x, y, z, h⟩ := h3
      exact (hshift hf (fun h => ho h.1) x y z h).2.2.1 (by simp [rotationWords, hro])

end

end Csg
