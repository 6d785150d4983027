import Verif.Model.Blocks
import Verif.Spec.Blocks
import Verif.Lemmas.Merge
import Verif.Lemmas.CellText

/-!
# Lemmas on blocks of cards
-/

namespace Csg

open Spec

theorem isspace_iff {l : Str} : isspace l = true ↔ BlankLine l := by
  unfold isspace BlankLine
  cases l <;> simp

theorem continues_iff {l : Str} : continues l = true ↔ ∃ t, l = c!"     " ++ t := by
  unfold continues
  rw [List.isPrefixOf_iff_prefix]
  constructor
  · rintro ⟨t, rfl⟩; exact ⟨t, rfl⟩
  · rintro ⟨t, rfl⟩; exact ⟨t, rfl⟩

theorem continuation_iff {l : Str} : (continues l = true ∧ ¬ isspace l = true) ↔ Continuation l := by
  rw [continues_iff, isspace_iff]
  exact ⟨fun h => ⟨h.2, h.1⟩, fun h => ⟨h.2, h.1⟩⟩

section
variable {α : Type} (clean : Str → Str) (parse : Str → Py α)

/-- What the rest of a block looks like after a first line. -/
def Rest (card : Str) (ls : List Str) (cs : List α) (rest : List Str) : Prop :=
  ∃ (lines : List Str) (blank : Str) (conts : List Str) (groups : List (List Str)), ls = lines ++ blank :: rest ∧ BlankLine (clean blank) ∧ lines.map clean = conts ++ groups.flatten ∧
    (∀ l ∈ conts, Continuation l) ∧ (∀ g ∈ groups, CardLines g ∧ ∀ l, g.head? = some l → ¬ Continuation l) ∧
    ((card ++ conts.flatten) :: groups.map List.flatten).mapM parse = .ok cs

theorem blockGo_iff (card : Str) (ls : List Str) (cs : List α) (rest : List Str) :
    blockGo clean parse card ls = .ok (cs, rest) ↔ Rest clean parse card ls cs rest := by
  induction ls generalizing card cs with
  | nil =>
    constructor
    · intro h; cases h
    · rintro ⟨lines, blank, conts, groups, h, -⟩
      simp at h
  | cons l ls ih =>
    unfold blockGo
    by_cases hc : continues (clean l) = true ∧ ¬ isspace (clean l) = true
    · rw [if_pos (by simpa using hc), ih]
      have hc := continuation_iff.1 hc
      constructor
      · rintro ⟨lines, blank, conts, groups, h1, h2, h3, h4, h5, h6⟩
        refine ⟨l :: lines, blank, clean l :: conts, groups, by rw [h1]; rfl, h2, by simp [h3], ?_, h5, ?_⟩
        · intro x hx
          rcases List.mem_cons.1 hx with rfl | hx
          · exact hc
          · exact h4 x hx
        · rw [List.flatten_cons, ← List.append_assoc]
          exact h6
      · rintro ⟨lines, blank, conts, groups, h1, h2, h3, h4, h5, h6⟩
        cases lines with
        | nil =>
          obtain ⟨rfl, rfl⟩ : blank = l ∧ rest = ls := by simpa [eq_comm] using h1
          exact absurd h2 hc.1
        | cons l' lines =>
          obtain ⟨rfl, rfl⟩ : l = l' ∧ ls = lines ++ blank :: rest := by simpa using h1
          cases conts with
          | nil =>
            cases groups with
            | nil => simp at h3
            | cons g groups =>
              obtain ⟨⟨first, more, rfl, -, -⟩, h7⟩ := h5 g (by simp)
              have : clean l = first := by
                have := congrArg List.head? h3
                simpa using this
              exact absurd (this ▸ hc) (h7 first rfl)
          | cons x conts =>
            obtain ⟨rfl, h3'⟩ : clean l = x ∧ lines.map clean = conts ++ groups.flatten := by simpa using h3
            refine ⟨lines, blank, conts, groups, rfl, h2, h3', fun y hy => h4 y (by simp [hy]), h5, ?_⟩
            rw [List.flatten_cons, ← List.append_assoc] at h6
            exact h6
    · rw [if_neg (by simpa using hc)]
      by_cases hb : isspace (clean l) = true
      · have hb' := isspace_iff.1 hb
        constructor
        · intro h
          obtain ⟨c, h1, h⟩ := bind_ok h
          rw [if_pos hb] at h
          cases h
          exact ⟨[], l, [], [], rfl, hb', rfl, by simp, by simp, by rw [List.map_nil, List.mapM_cons, List.flatten_nil, List.append_nil, h1]; rfl⟩
        · rintro ⟨lines, blank, conts, groups, h1, h2, h3, h4, h5, h6⟩
          have hl : lines = [] := by
            cases lines with
            | nil => rfl
            | cons l' lines =>
              obtain ⟨rfl, -⟩ : l = l' ∧ ls = lines ++ blank :: rest := by simpa using h1
              exfalso
              cases conts with
              | nil =>
                cases groups with
                | nil => simp at h3
                | cons g groups =>
                  obtain ⟨⟨first, more, rfl, h8, -⟩, h7⟩ := h5 g (by simp)
                  have : clean l = first := by
                    have := congrArg List.head? h3
                    simpa using this
                  exact h8 (this ▸ hb')
              | cons x conts =>
                obtain ⟨rfl, -⟩ : clean l = x ∧ lines.map clean = conts ++ groups.flatten := by simpa using h3
                exact (h4 _ (by simp)).1 hb'
          subst hl
          obtain ⟨rfl, rfl⟩ : blank = l ∧ rest = ls := by simpa [eq_comm] using h1
          have h3 : conts = [] ∧ groups.flatten = [] := by simpa using h3
          obtain ⟨rfl, h3⟩ := h3
          have : groups = [] := by
            cases groups with
            | nil => rfl
            | cons g groups =>
              obtain ⟨⟨first, more, rfl, -, -⟩, -⟩ := h5 g (by simp)
              simp at h3
          subst this
          rw [List.map_nil, List.mapM_cons, List.flatten_nil, List.append_nil] at h6
          obtain ⟨c, h7, h6⟩ := bind_ok h6
          rw [h7]
          cases h6
          show (if isspace (clean blank) = true then _ else _) = _
          rw [if_pos hb]
          rfl
      · have hnb : ¬ BlankLine (clean l) := fun h => hb (isspace_iff.2 h)
        have hnc : ¬ Continuation (clean l) := fun h => hc (continuation_iff.2 h)
        constructor
        · intro h
          obtain ⟨c, h1, h⟩ := bind_ok h
          rw [if_neg hb] at h
          obtain ⟨⟨cs', rest'⟩, h2, h⟩ := bind_ok h
          cases h
          obtain ⟨lines, blank, conts, groups, g1, g2, g3, g4, g5, g6⟩ := (ih _ _).1 h2
          refine ⟨l :: lines, blank, [], (clean l :: conts) :: groups, by rw [g1]; rfl, g2, by simp [g3], by simp, ?_, ?_⟩
          · intro g hg
            rcases List.mem_cons.1 hg with rfl | hg
            · refine ⟨⟨_, _, rfl, hnb, g4⟩, ?_⟩
              intro x hx
              cases hx
              exact hnc
            · exact g5 g hg
          · rw [List.mapM_cons, List.flatten_nil, List.append_nil, h1]
            have e : ((clean l :: conts) :: groups).map List.flatten = (clean l ++ conts.flatten) :: groups.map List.flatten := rfl
            rw [e, g6]
            rfl
        · rintro ⟨lines, blank, conts, groups, h1, h2, h3, h4, h5, h6⟩
          cases lines with
          | nil =>
            obtain ⟨rfl, rfl⟩ : blank = l ∧ rest = ls := by simpa [eq_comm] using h1
            exact absurd h2 hnb
          | cons l' lines =>
            obtain ⟨rfl, rfl⟩ : l = l' ∧ ls = lines ++ blank :: rest := by simpa using h1
            cases conts with
            | cons x conts =>
              obtain ⟨rfl, -⟩ : clean l = x ∧ lines.map clean = conts ++ groups.flatten := by simpa using h3
              exact absurd (h4 _ (by simp)) hnc
            | nil =>
              cases groups with
              | nil => simp at h3
              | cons g groups =>
                obtain ⟨⟨first, more, rfl, h8, h9⟩, h7⟩ := h5 g (by simp)
                obtain ⟨rfl, h3'⟩ : clean l = first ∧ lines.map clean = more ++ groups.flatten := by simpa using h3
                rw [List.mapM_cons, List.flatten_nil, List.append_nil] at h6
                obtain ⟨c, h10, h6⟩ := bind_ok h6
                obtain ⟨cs', h11, h6⟩ := bind_ok h6
                cases h6
                have := (ih (clean l) cs').2 ⟨lines, blank, more, groups, rfl, h2, h3', h9, fun g hg => h5 g (by simp [hg]), by
                  rw [List.map_cons, List.flatten_cons] at h11; exact h11⟩
                rw [h10]
                show (if isspace (clean l) = true then _ else _) = _
                rw [if_neg hb, this]
                rfl

/-- Blocks whose lines correspond give the same cards. -/
theorem blockGo_congr (T : Str → Str → Prop) (S : Str → Str → Prop) (hparse : ∀ t t', T t t' → parse t = parse t')
    (hS : ∀ l l', S l l' → isspace (clean l) = isspace (clean l') ∧ continues (clean l) = continues (clean l') ∧ T (clean l) (clean l') ∧
      (continues (clean l) = true → ∀ t t', T t t' → T (t ++ clean l) (t' ++ clean l')))
    {card card' : Str} (hT : T card card') {ls ls' : List Str} (hls : List.Forall₂ S ls ls') {cs : List α} {rest : List Str}
    (h : blockGo clean parse card ls = .ok (cs, rest)) :
    ∃ rest', blockGo clean parse card' ls' = .ok (cs, rest') ∧ List.Forall₂ S rest rest' := by
  induction hls generalizing card card' cs with
  | nil => cases h
  | @cons l l' ls ls' hl hls ih =>
    obtain ⟨e1, e2, e3, e4⟩ := hS l l' hl
    unfold blockGo at h ⊢
    by_cases hc : continues (clean l) = true ∧ ¬ isspace (clean l) = true
    · rw [if_pos (by simpa using hc)] at h
      rw [if_pos (by rw [← e1, ← e2]; simpa using hc)]
      exact ih (e4 hc.1 _ _ hT) h
    · rw [if_neg (by simpa using hc)] at h
      rw [if_neg (by rw [← e1, ← e2]; simpa using hc)]
      obtain ⟨c, h1, h⟩ := bind_ok h
      rw [hparse _ _ hT] at h1
      rw [h1]
      by_cases hb : isspace (clean l) = true
      · rw [if_pos hb] at h
        cases h
        refine ⟨ls', ?_, hls⟩
        show (if isspace (clean l') = true then _ else _) = _
        rw [if_pos (by rw [← e1]; exact hb)]
      · rw [if_neg hb] at h
        obtain ⟨⟨cs', r⟩, h2, h⟩ := bind_ok h
        cases h
        obtain ⟨rest', g1, g2⟩ := ih e3 h2
        refine ⟨rest', ?_, g2⟩
        show (if isspace (clean l') = true then _ else _) = _
        rw [if_neg (by rw [← e1]; exact hb), g1]
        rfl

theorem block_congr (T : Str → Str → Prop) (S : Str → Str → Prop) (hparse : ∀ t t', T t t' → parse t = parse t')
    (hS : ∀ l l', S l l' → isspace (clean l) = isspace (clean l') ∧ continues (clean l) = continues (clean l') ∧ T (clean l) (clean l') ∧
      (continues (clean l) = true → ∀ t t', T t t' → T (t ++ clean l) (t' ++ clean l')))
    {ls ls' : List Str} (hls : List.Forall₂ S ls ls') {cs : List α} {rest : List Str} (h : block clean parse ls = .ok (cs, rest)) :
    ∃ rest', block clean parse ls' = .ok (cs, rest') ∧ List.Forall₂ S rest rest' := by
  cases hls with
  | nil => cases h
  | @cons l l' _ _ hl hls =>
    obtain ⟨e1, e2, e3, e4⟩ := hS _ _ hl
    unfold block at h ⊢
    simp only at h ⊢
    by_cases hb : isspace (clean l) = true
    · rw [if_pos hb] at h
      cases h
      exact ⟨_, by rw [if_pos (by rw [← e1]; exact hb)], hls⟩
    · rw [if_neg hb] at h
      rw [if_neg (by rw [← e1]; exact hb)]
      exact blockGo_congr clean parse T S hparse hS e3 hls h

end

theorem removeInlineComment_comment {code a : Str} (h : '$' ∉ code) : removeInlineComment (code ++ '$' :: a) = code := by
  unfold removeInlineComment
  rw [if_pos (by simp), findChar_append _ _ _ h]
  simp [sliceTo]

theorem removeInlineComment_plain {code : Str} (h : '$' ∉ code) : removeInlineComment code = code := by
  unfold removeInlineComment
  rw [if_neg (by simpa using h)]

/-- No parameter of a cell card occurs in the text. -/
def NoKey (t : Str) : Prop := ∀ w ∈ cellKeywords, hasInfix w t = false

theorem noKey_append {t s : Str} (ht : NoKey t) (hs : NoKey (' ' :: s)) : NoKey (t ++ ' ' :: s) := by
  intro w hw
  cases h : hasInfix w (t ++ ' ' :: s) with
  | false => rfl
  | true =>
    exfalso
    have hsp : ' ' ∉ w ∧ w ≠ [] := by
      have : ∀ w ∈ cellKeywords, ' ' ∉ w ∧ w ≠ [] := by decide
      exact this w hw
    obtain ⟨a, b, e⟩ := (hasInfix_iff _ _).1 h
    have h1 := ht w hw
    have h2 := hs w hw
    rw [Bool.eq_false_iff] at h1 h2
    rw [List.append_assoc] at e
    rcases List.append_eq_append_iff.1 e with ⟨x, -, e1⟩ | ⟨x, e0, e1⟩
    · exact h2 ((hasInfix_iff _ _).2 ⟨x, b, by rw [e1, List.append_assoc]⟩)
    · rcases List.append_eq_append_iff.1 e1 with ⟨y, e2, -⟩ | ⟨y, hy, e2⟩
      · exact h1 ((hasInfix_iff _ _).2 ⟨a, y, by rw [e0, e2, List.append_assoc]⟩)
      · cases y with
        | nil =>
          simp only [List.append_nil] at hy
          exact h1 ((hasInfix_iff _ _).2 ⟨a, [], by simp [e0, hy]⟩)
        | cons c y =>
          have : c = ' ' := by simpa [eq_comm] using congrArg List.head? e2
          subst this
          exact hsp.1 (by rw [hy]; simp)

section
variable {K : Type} [Field K]

theorem readCell_congr (io : NumIO K) (cosDeg : K → K) {t t' : Str} (h : split (expandText t) = split (expandText t')) (hk : NoKey t) (hk' : NoKey t') :
    readCell io cosDeg t = readCell io cosDeg t' := by
  have key : ∀ t, NoKey t → detectKeywords io cosDeg (.blank : Cell K) t = .ok (.blank, t) := by
    intro t hk
    unfold detectKeywords
    rw [if_pos]
    simpa [NoKey] using hk
  unfold readCell interpret
  rw [key t hk, key t' hk']
  show (do let t0 ← pyGet (split (expandText t)) 0; _) = (do let t0 ← pyGet (split (expandText t')) 0; _)
  rw [h]

end

end Csg
