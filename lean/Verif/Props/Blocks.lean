import Verif.Lemmas.Blocks
import Verif.Spec.Sample

/-!
# C37 and C38: comments and continuation lines
-/

set_option linter.unusedSectionVars false

namespace Csg

open Spec

section
variable {α : Type}

/-- C38. A block is read iff its lines up to the first blank one group into cards, each line that is no continuation beginning a card; the cards are then made from
the joined lines of the groups, in order, and the lines after the blank one are left. -/
theorem C38_block (clean : Str → Str) (parse : Str → Py α) (ls : List Str) (cards : List α) (rest : List Str) :
    block clean parse ls = .ok (cards, rest) ↔
      ∃ (lines : List Str) (blank : Str) (groups : List (List Str)), ls = lines ++ blank :: rest ∧ BlankLine (clean blank) ∧
        lines.map clean = groups.flatten ∧ Grouped groups ∧ (groups.map List.flatten).mapM parse = .ok cards := by
  cases ls with
  | nil =>
    constructor
    · intro h; cases h
    · rintro ⟨lines, blank, groups, h, -⟩
      simp at h
  | cons l ls =>
    unfold block
    simp only
    by_cases hb : isspace (clean l) = true
    · rw [if_pos hb]
      have hb' := isspace_iff.1 hb
      constructor
      · intro h
        cases h
        exact ⟨[], l, [], rfl, hb', rfl, ⟨by simp, by simp⟩, rfl⟩
      · rintro ⟨lines, blank, groups, h1, h2, h3, h4, h5⟩
        have hl : lines = [] := by
          cases lines with
          | nil => rfl
          | cons l' lines =>
            obtain ⟨rfl, -⟩ : l = l' ∧ ls = lines ++ blank :: rest := by simpa using h1
            exfalso
            cases groups with
            | nil => simp at h3
            | cons g groups =>
              obtain ⟨first, more, rfl, h8, -⟩ := h4.1 g (by simp)
              have : clean l = first := by
                have := congrArg List.head? h3
                simpa using this
              exact h8 (this ▸ hb')
        subst hl
        obtain ⟨rfl, rfl⟩ : blank = l ∧ rest = ls := by simpa [eq_comm] using h1
        have : groups = [] := by
          cases groups with
          | nil => rfl
          | cons g groups =>
            obtain ⟨first, more, rfl, -, -⟩ := h4.1 g (by simp)
            simp at h3
        subst this
        cases h5
        rfl
    · rw [if_neg hb, blockGo_iff]
      have hnb : ¬ BlankLine (clean l) := fun h => hb (isspace_iff.2 h)
      constructor
      · rintro ⟨lines, blank, conts, groups, h1, h2, h3, h4, h5, h6⟩
        refine ⟨l :: lines, blank, (clean l :: conts) :: groups, by rw [h1]; rfl, h2, by simp [h3], ⟨?_, ?_⟩, h6⟩
        · intro g hg
          rcases List.mem_cons.1 hg with rfl | hg
          · exact ⟨_, _, rfl, hnb, h4⟩
          · exact (h5 g hg).1
        · intro g hg
          exact (h5 g hg).2
      · rintro ⟨lines, blank, groups, h1, h2, h3, h4, h5⟩
        cases lines with
        | nil =>
          obtain ⟨rfl, rfl⟩ : blank = l ∧ rest = ls := by simpa [eq_comm] using h1
          exact absurd h2 hnb
        | cons l' lines =>
          obtain ⟨rfl, rfl⟩ : l = l' ∧ ls = lines ++ blank :: rest := by simpa using h1
          cases groups with
          | nil => simp at h3
          | cons g groups =>
            obtain ⟨first, more, rfl, h8, h9⟩ := h4.1 g (by simp)
            obtain ⟨rfl, h3'⟩ : clean l = first ∧ lines.map clean = more ++ groups.flatten := by simpa using h3
            exact ⟨lines, blank, more, groups, rfl, h2, h3', h9, fun g hg => ⟨h4.1 g (by simp [hg]), h4.2 g (by simpa using hg)⟩, h5⟩

/-- C38 for the cell block, with the texts of the cards. -/
example : block removeInlineComment (fun t => .ok t) [c!"1 0 -1 $ in\n", c!"     2 imp:n=1\n", c!"2 0 1\n", c!"  \n", c!"1 so 5\n"] =
    .ok ([c!"1 0 -1      2 imp:n=1\n", c!"2 0 1\n"], [c!"1 so 5\n"]) := by decide +kernel

private theorem block_cut {clean : Str → Str} {parse : Str → Py α} {ls rest : List Str} {cards : List α}
    (h : block clean parse (ls ++ rest) = .ok (cards, rest)) : block clean parse ls = .ok (cards, []) := by
  obtain ⟨lines, blank, groups, h1, h2⟩ := (C38_block ..).1 h
  have h1 : ls ++ rest = (lines ++ [blank]) ++ rest := by rw [h1]; simp
  exact (C38_block ..).2 ⟨lines, blank, groups, List.append_cancel_right h1, h2⟩

private theorem block_extend {clean : Str → Str} {parse : Str → Py α} {ls : List Str} (rest : List Str) {cards : List α}
    (h : block clean parse ls = .ok (cards, [])) : block clean parse (ls ++ rest) = .ok (cards, rest) := by
  obtain ⟨lines, blank, groups, h1, h2⟩ := (C38_block ..).1 h
  exact (C38_block ..).2 ⟨lines, blank, groups, by rw [h1]; simp, h2⟩

private theorem block_replace {parse : Str → Py α} (T S : Str → Str → Prop) (hparse : ∀ t t', T t t' → parse t = parse t')
    (hS : ∀ l l', S l l' → isspace (removeInlineComment l) = isspace (removeInlineComment l') ∧
      continues (removeInlineComment l) = continues (removeInlineComment l') ∧ T (removeInlineComment l) (removeInlineComment l') ∧
      (continues (removeInlineComment l) = true → ∀ t t', T t t' → T (t ++ removeInlineComment l) (t' ++ removeInlineComment l')))
    {ls ls' : List Str} (hls : List.Forall₂ S ls ls') (rest : List Str) {cards : List α}
    (h : block removeInlineComment parse (ls ++ rest) = .ok (cards, rest)) : block removeInlineComment parse (ls' ++ rest) = .ok (cards, rest) := by
  obtain ⟨r, h1, h2⟩ := block_congr _ parse T S hparse hS hls (block_cut h)
  cases h2
  exact block_extend rest h1

/-- C37 for lines that have a comment: the text of the comment does not matter. -/
theorem C37_comment_text (parse : Str → Py α) (ls ls' rest : List Str) (cards : List α) (hls : List.Forall₂ OtherComment ls ls')
    (h : block removeInlineComment parse (ls ++ rest) = .ok (cards, rest)) : block removeInlineComment parse (ls' ++ rest) = .ok (cards, rest) := by
  refine block_replace (fun t t' => t = t') OtherComment (fun t t' h => by rw [h]) ?_ hls rest h
  intro l l' hl
  have : removeInlineComment l = removeInlineComment l' := by
    rcases hl with rfl | ⟨code, a, b, hd, rfl, rfl⟩
    · rfl
    · rw [removeInlineComment_comment hd, removeInlineComment_comment hd]
  rw [this]
  exact ⟨rfl, rfl, rfl, fun _ t t' h => by rw [h]⟩

example : List.Forall₂ OtherComment [c!"1 0 -1 $ in\n", c!"2 0 1\n", c!"\n"] [c!"1 0 -1 $ core $\n", c!"2 0 1\n", c!"\n"] :=
  .cons (Or.inr ⟨c!"1 0 -1 ", c!" in\n", c!" core $\n", by decide, rfl, rfl⟩) (.cons (Or.inl rfl) (.cons (Or.inl rfl) .nil))

end

section
variable {K : Type} [Field K]

private theorem split_expand_append (t s : Str) : split (expandText (t ++ ' ' :: s)) = split (expandText t) ++ split (expandText s) := by
  rw [expandText_append, show expandText (' ' :: s) = ' ' :: expandText s from by simp [expandText, replaceChar], split_append_space _ _ _ rfl]

private theorem added_facts {l l' : Str} (h : AddedComment l l') :
    isspace (removeInlineComment l) = isspace (removeInlineComment l') ∧ continues (removeInlineComment l) = continues (removeInlineComment l') ∧
      split (expandText (removeInlineComment l)) = split (expandText (removeInlineComment l')) := by
  rcases h with rfl | ⟨code, a, hd, hne, rfl, rfl⟩
  · exact ⟨rfl, rfl, rfl⟩
  · rw [removeInlineComment_comment hd, removeInlineComment_plain (code := code ++ c!"\n") (by simp [hd])]
    refine ⟨?_, ?_, ?_⟩
    · unfold isspace
      cases code with
      | nil => exact absurd rfl hne
      | cons c code => simp [isSpace]
    · rw [Bool.eq_iff_iff, continues_iff, continues_iff]
      constructor
      · rintro ⟨t, ht⟩
        rcases List.append_eq_append_iff.1 ht with ⟨x, hx, hy⟩ | ⟨x, rfl, -⟩
        · cases x with
          | nil => exact ⟨[], by simpa using hx.symm⟩
          | cons c x =>
            have hc : c = '\n' := by simpa [eq_comm] using congrArg List.head? hy
            subst hc
            have : '\n' ∈ c!"     " := by rw [hx]; simp
            simp at this
        · exact ⟨x, rfl⟩
      · rintro ⟨t, rfl⟩
        exact ⟨t ++ c!"\n", by simp⟩
    · rw [expandText_append]
      exact split_append_spaces _ _ (by decide)

/-- C37 for lines without a comment, in part: a comment added to lines that are not empty, or removed from them, changes no cell, if the lines have
no cell parameters. Missing are lines with parameters, and lines that begin with the comment (see `C37_refuted`). -/
theorem C37_comment_added_partial (io : NumIO K) (cosDeg : K → K) (ls ls' rest : List Str) (cells : List (Cell K)) (hls : List.Forall₂ AddedComment ls ls')
    (hkey : ∀ l ∈ ls ++ ls', ∀ w ∈ cellKeywords, hasInfix w (removeInlineComment l) = false) :
    block removeInlineComment (readCell io cosDeg) (ls ++ rest) = .ok (cells, rest) ↔
      block removeInlineComment (readCell io cosDeg) (ls' ++ rest) = .ok (cells, rest) := by
  let T : Str → Str → Prop := fun t t' => split (expandText t) = split (expandText t') ∧ NoKey t ∧ NoKey t'
  let F : Str → Str → Prop := fun l l' => isspace (removeInlineComment l) = isspace (removeInlineComment l') ∧
    continues (removeInlineComment l) = continues (removeInlineComment l') ∧ T (removeInlineComment l) (removeInlineComment l')
  have hF : ∀ l l', F l l' → isspace (removeInlineComment l) = isspace (removeInlineComment l') ∧
      continues (removeInlineComment l) = continues (removeInlineComment l') ∧ T (removeInlineComment l) (removeInlineComment l') ∧
      (continues (removeInlineComment l) = true → ∀ t t', T t t' → T (t ++ removeInlineComment l) (t' ++ removeInlineComment l')) := by
    rintro l l' ⟨h1, h2, h3⟩
    refine ⟨h1, h2, h3, ?_⟩
    intro hc t t' ht
    have hc' := hc
    rw [h2] at hc'
    obtain ⟨x, hx⟩ := continues_iff.1 hc
    obtain ⟨x', hx'⟩ := continues_iff.1 hc'
    rw [hx, hx'] at h3 ⊢
    refine ⟨?_, noKey_append ht.2.1 h3.2.1, noKey_append ht.2.2 h3.2.2⟩
    have e : ∀ t s : Str, split (expandText (t ++ ' ' :: s)) = split (expandText t) ++ split (expandText (' ' :: s)) := by
      intro t s
      rw [split_expand_append, ← List.nil_append (' ' :: s), split_expand_append]
      rfl
    show split (expandText (t ++ ' ' :: _)) = split (expandText (t' ++ ' ' :: _))
    rw [e, e, ht.1]
    exact congrArg _ h3.1
  have hparse : ∀ t t', T t t' → readCell io cosDeg t = readCell io cosDeg t' := fun t t' h => readCell_congr io cosDeg h.1 h.2.1 h.2.2
  have h1 : List.Forall₂ F ls ls' := by
    have : ∀ l ∈ ls, ∀ l' ∈ ls', AddedComment l l' → F l l' := by
      intro l hl l' hl' h
      obtain ⟨e1, e2, e3⟩ := added_facts h
      exact ⟨e1, e2, e3, hkey l (by simp [hl]), hkey l' (by simp [hl'])⟩
    clear hkey
    induction hls with
    | nil => exact .nil
    | cons hl _ ih => exact .cons (this _ (by simp) _ (by simp) hl) (ih fun l hl l' hl' => this l (by simp [hl]) l' (by simp [hl']))
  have h2 : List.Forall₂ F ls' ls := by
    refine List.Forall₂.flip (forall₂_imp ?_ h1)
    rintro l l' ⟨e1, e2, e3⟩
    exact ⟨e1.symm, e2.symm, e3.1.symm, e3.2.2, e3.2.1⟩
  exact ⟨block_replace T F hparse hF h1 rest, block_replace T F hparse hF h2 rest⟩

example : List.Forall₂ AddedComment [c!"1 0 -1\n", c!"     2\n", c!" \n"] [c!"1 0 -1$ in\n", c!"     2\n", c!" $ end\n"] :=
  .cons (Or.inr ⟨c!"1 0 -1", c!" in\n", by decide, by decide, rfl, rfl⟩)
    (.cons (Or.inl rfl) (.cons (Or.inr ⟨c!" ", c!" end\n", by decide, by decide, rfl, rfl⟩) .nil))

example : ∀ l ∈ [c!"1 0 -1\n", c!"     2\n", c!" \n"] ++ [c!"1 0 -1$ in\n", c!"     2\n", c!" $ end\n"],
    ∀ w ∈ cellKeywords, hasInfix w (removeInlineComment l) = false := by decide

end

/-- C37 is false for a line that begins with the comment: it is neither blank nor a continuation, and a card without text is read. -/
theorem C37_refuted : (∃ cells : List (Cell ℚ), block removeInlineComment (readCell sampleIO id) [c!"1 0 -1\n", c!"\n"] = .ok (cells, [])) ∧
    block removeInlineComment (readCell sampleIO id) [c!"1 0 -1\n", c!"$ end\n"] = .error .indexError ∧
    block removeInlineComment (readCell sampleIO id) [c!"1 0 -1\n", c!"$ world\n", c!"2 0 1\n", c!"\n"] = .error .indexError := by
  refine ⟨⟨[{ (Cell.blank : Cell ℚ) with id := 1, text := [c!"-1"], interpreted := [.op .and, .str c!"-1"], surfaces := [1] }], by decide +kernel⟩,
    by decide +kernel, by decide +kernel⟩

end Csg
