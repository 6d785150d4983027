import Verif.Lemmas.McnpCellLower
import Verif.Props.McnpCellText
import Verif.Spec.Blocks

/-!
# Wrapped cards have no blank line, and written MCNP cells are read back: C81, C82
-/

namespace Csg

open Spec

theorem gapOk_of_no_three {s : Str} (h : ∀ a b, s ≠ a ++ c!"   " ++ b) : ∀ k, k ≤ 2 → (k = 1 → ∀ b, s ≠ ' ' :: ' ' :: b) → (k = 2 → ∀ b, s ≠ ' ' :: b) → gapOk k s := by
  induction s with
  | nil => intro k hk _ _; exact hk
  | cons c s ih =>
    have h' : ∀ a b, s ≠ a ++ c!"   " ++ b := fun a b e => h (c :: a) b (by rw [e]; rfl)
    intro k hk h1 h2
    unfold gapOk
    split
    · rename_i hc
      subst hc
      refine ih h' (k + 1) ?_ ?_ ?_
      · by_contra hk'
        exact h2 (by omega) s rfl
      · intro hk1 b e
        exact h [] b (by rw [e]; rfl)
      · intro hk1 b e
        exact h1 (by omega) b (by rw [e])
    · exact ⟨hk, ih h' 0 (by omega) (by omega) (by omega)⟩

theorem lines_cardLines {l : Str} {ls : List Str} (h : ∀ l' ∈ l :: ls, '\n' ∉ l' ∧ ∃ ch ∈ l', isSpace ch = false) :
    readlines (physical (l :: ls)).flatten = physical (l :: ls) ∧ CardLines (physical (l :: ls)) := by
  constructor
  · have := readlines_lines (physical (l :: ls)) [] (by
      intro x hx
      rcases List.mem_cons.1 hx with rfl | hx
      · exact ⟨l, (h l (by simp)).1, rfl⟩
      · obtain ⟨y, hy, rfl⟩ := List.mem_map.1 hx
        exact ⟨c!"     " ++ y, by simp [(h y (List.mem_cons_of_mem _ hy)).1], rfl⟩)
    simpa [readlines] using this
  · refine ⟨_, _, rfl, ?_, ?_⟩
    · rintro ⟨-, hb⟩
      obtain ⟨ch, hc, hs⟩ := (h l (by simp)).2
      exact absurd (hb ch (List.mem_append_left _ hc)) (by simp [hs])
    · intro x hx
      obtain ⟨y, hy, rfl⟩ := List.mem_map.1 hx
      refine ⟨?_, y ++ c!"\n", by simp⟩
      rintro ⟨-, hb⟩
      obtain ⟨ch, hc, hs⟩ := (h y (List.mem_cons_of_mem _ hy)).2
      exact absurd (hb ch (by simp [hc])) (by simp [hs])

/-- **C81.** A text that is not blank, with no three blanks in a row and at most 69 characters between blanks, is wrapped into the lines of one card: no line is blank, so no reader
takes the card for the end of the block, and all lines but the first continue the card. Missing: words of more than 69 characters and longer gaps (see below). -/
theorem C81_no_blank_line_partial (t : Str) (hr : MaxRun 69 (t ++ c!"\n")) (hsp : ∀ c ∈ t, isSpace c = true → c = ' ') (hg : ∀ a b, t ≠ a ++ c!"   " ++ b)
    (hns : ∃ c ∈ t, isSpace c = false) :
    ∃ out, (∃ fuel₀, ∀ fuel ≥ fuel₀, lineFormatter fuel (t ++ c!"\n") = some out) ∧ CardLines (readlines out) ∧ split out = split t := by
  obtain ⟨l, ls, hf, -, h2, h3⟩ := lineFormatter_lines t hr hsp (gapOk_of_no_three hg 0 (by omega) (by omega) (by omega)) hns
  obtain ⟨h4, h5⟩ := lines_cardLines h2
  exact ⟨_, hf, by rw [h4]; exact h5, h3⟩

/-- `runOk` as a computation. -/
def runCheck (n : Nat) : Nat → Str → Bool
  | k, [] => k.ble n
  | k, c :: cs => bif c == ' ' then k.ble n && runCheck n 0 cs else runCheck n (k + 1) cs

theorem runOk_of_check {n : Nat} {s : Str} : ∀ {k}, runCheck n k s = true → runOk n k s := by
  induction s with
  | nil => intro k h; exact Nat.le_of_ble_eq_true h
  | cons c s ih =>
    intro k h
    unfold runCheck at h
    unfold runOk
    by_cases hc : c = ' '
    · subst hc
      simp only [beq_self_eq_true, cond_true, Bool.and_eq_true] at h
      rw [if_pos rfl]
      exact ⟨Nat.le_of_ble_eq_true h.1, ih h.2⟩
    · rw [if_neg hc]
      rw [show (c == ' ') = false by simp [hc]] at h
      exact ih h

theorem fmtLoop_more {fuel : Nat} : ∀ {new tmp out : Str}, fmtLoop fuel new tmp = some out → fmtLoop (fuel + 1) new tmp = some out := by
  induction fuel with
  | zero => intro new tmp out h; cases h
  | succ fuel ih =>
    intro new tmp out h
    unfold fmtLoop at h ⊢
    split at h
    · rename_i h1
      rw [if_pos h1]
      exact h
    · rename_i h1
      rw [if_neg h1]
      simp only at h ⊢
      split at h
      · rename_i h2
        rw [if_pos h2]
        exact h
      · rename_i h2
        rw [if_neg h2]
        exact ih h

theorem lineFormatter_more {fuel : Nat} {t out : Str} (h : lineFormatter fuel t = some out) : ∀ k, lineFormatter (k + fuel) t = some out := by
  intro k
  induction k with
  | zero => rw [Nat.zero_add]; exact h
  | succ k ih =>
    unfold lineFormatter at ih ⊢
    split at ih
    · rename_i h1
      rw [if_pos h1]
      exact ih
    · rename_i h1
      rw [if_neg h1, Nat.add_right_comm]
      exact fmtLoop_more ih

/-- A text whose second cut falls between two blanks. -/
def gapText : Str := c!"b " ++ List.replicate 69 'a' ++ c!"  " ++ List.replicate 70 'x' ++ c!" y"

/-- The lines of `gapText`: the second is blank. -/
def gapOut : Str := c!"b " ++ List.replicate 69 'a' ++ c!"\n      \n      " ++ List.replicate 70 'x' ++ c!"\n      y\n"

theorem gapText_run : runOk 70 0 (gapText ++ c!"\n") := runOk_of_check (by decide +kernel)

theorem gapText_blanks : ∀ c ∈ gapText, isSpace c = true → c = ' ' := by decide +kernel

theorem gapText_gaps : ¬ c!"   " <:+: gapText := by decide +kernel

theorem fmtLoop_cut {n : Nat} {new tmp a b : Str} {p : Int} (hl : ¬ tmp.length ≤ 72) (hp : rfindChar ' ' (tmp.take 72) = p) (ha : sliceTo tmp p = a) (hb : sliceFrom tmp p = b)
    (hs : isspace b = false) : fmtLoop (n + 1) new tmp = fmtLoop n (new ++ a ++ c!"\n" ++ c!"     ") b := by
  subst hp ha hb
  rw [fmtLoop, if_neg hl]
  simp only [hs]
  rfl

theorem gapText_out : lineFormatter 10 (gapText ++ c!"\n") = some gapOut := by
  unfold lineFormatter
  rw [if_neg (by decide +kernel)]
  rw [fmtLoop_cut (a := c!"b " ++ List.replicate 69 'a') (b := c!"  " ++ List.replicate 70 'x' ++ c!" y\n") (p := 71) (by decide +kernel) (by decide +kernel) (by decide +kernel)
    (by decide +kernel) (by decide +kernel)]
  rw [fmtLoop_cut (a := c!" ") (b := c!" " ++ List.replicate 70 'x' ++ c!" y\n") (p := 1) (by decide +kernel) (by decide +kernel) (by decide +kernel)
    (by decide +kernel) (by decide +kernel)]
  rw [fmtLoop_cut (a := c!" " ++ List.replicate 70 'x') (b := c!" y\n") (p := 71) (by decide +kernel) (by decide +kernel) (by decide +kernel)
    (by decide +kernel) (by decide +kernel)]
  decide +kernel

theorem gapOut_lines : c!"      \n" ∈ readlines gapOut := by decide +kernel

/-- **C81, refuted in general.** Two blanks before a word of 70 characters give a line of blanks; the reader of the file takes it for the end of the block. -/
theorem C81_refuted_blank_line : ∃ t : Str, MaxRun 70 (t ++ c!"\n") ∧ (∀ c ∈ t, isSpace c = true → c = ' ') ∧ (∀ a b, t ≠ a ++ c!"   " ++ b) ∧
    ∃ out, (∃ fuel₀, ∀ fuel ≥ fuel₀, lineFormatter fuel (t ++ c!"\n") = some out) ∧ ∃ l ∈ readlines out, BlankLine l := by
  refine ⟨gapText, maxRun_of_runOk gapText_run, gapText_blanks, fun a b e => gapText_gaps ⟨a, b, e.symm⟩, gapOut, ⟨10, ?_⟩, _, gapOut_lines, by simp, by decide⟩
  intro fuel hf
  obtain ⟨k, rfl⟩ := Nat.exists_eq_add_of_le' hf
  exact lineFormatter_more gapText_out k

section
variable {K : Type} [Field K] [DecidableEq K]

/-- **C82.** The card written for a cell, lowered as the reader of files does, is read as the same cell: number, material, density, region, universe, fill with its transform and importance.
Missing: numbers with exponents in universe, fill or importance (see below), and materials that are not positive whole numbers. -/
theorem C82_card_partial (io : NumIO K) (cosDeg : K → K) (c : Cell K) (offs rots : List Str) (hw : Writable io GeometryWord c) (hp : WritableParams io c offs rots)
    (hr : ReadableCell io c) :
    ∃ out, (∃ fuel₀, ∀ fuel ≥ fuel₀, writeMcnpCell fuel io c true = .ok (some out)) ∧ CardLines (readlines out) ∧
      ∃ r, readCell io cosDeg (lower out) = .ok r ∧ SameCell io c r := by
  obtain ⟨l, ls, h1, -, h2, -, h3⟩ := mcnpCell_back io cosDeg c offs rots hw hp hr
  obtain ⟨h4, h5⟩ := lines_cardLines h2
  exact ⟨_, h1, by rw [h4]; exact h5, h3⟩

end

/-- Numbers are printed as in Python: a hundred-thousandth with an exponent. -/
def exponentIO : NumIO ℚ :=
  { parse := fun s => if s = c!"1e-05" then some (1 / 100000) else sampleIO.parse s
    render := fun q => if q = 1 / 100000 then c!"1e-05" else sampleIO.render q }

/-- `1 0 -1` with importance 0.00001. -/
def faintCell : Cell ℚ := { (Cell.blank : Cell ℚ) with id := 1, interpreted := [.str c!"-1"], importance := 1 / 100000 }

/-- **C82, refuted in general.** An importance that is printed with an exponent, as Python prints 0.00001, is written as it should be and read as 1. -/
theorem C82_refuted_exponent : exponentIO.Good faintCell.importance ∧ Writable exponentIO GeometryWord faintCell ∧ WritableParams exponentIO faintCell [] [] ∧
    writeMcnpCell 5 exponentIO faintCell true = .ok (some c!"1 0 -1 IMP:N=1e-05\n") ∧
    (readCell exponentIO id (lower c!"1 0 -1 IMP:N=1e-05\n")).map Cell.importance = .ok 1 ∧ faintCell.importance ≠ 1 := by
  have hg : exponentIO.Good faintCell.importance := ⟨by decide +kernel, by decide +kernel, by decide +kernel, by decide +kernel⟩
  refine ⟨hg, ⟨?_, ?_, ⟨by decide, by decide, by decide⟩, ⟨by decide, by decide, by decide⟩, fun h => absurd rfl h⟩,
    ⟨fun u hu => (by cases hu), fun u hu => (by cases hu), fun u hu => (by cases hu), fun u hu => (by cases hu), hg⟩, by decide +kernel, ?_, by decide +kernel⟩
  · exact List.isChain_singleton _
  · apply wordsAre_of
    intro i hi
    simp [faintCell] at hi
    subst hi
    exact Or.inr ⟨⟨by decide, by decide, by decide⟩, by decide⟩
  · have e : lower c!"1 0 -1 IMP:N=1e-05\n" = c!"1 0 -1 imp:n=1e-05\n" := by decide +kernel
    rw [e]
    decide +kernel

/-! ## Examples -/

theorem plain_whole {s : Str} (h : s ≠ []) (hd : ∀ c ∈ s, isDigit c = true) : PlainNumber s := .whole [] s (by simp) h hd

theorem writtenCell_legal : Legal (itemSyms writtenCell.interpreted) := by
  refine ⟨.inter (.union (.atom c!"-1") (.atom c!"2")) (.compl (.atom c!"4")), ?_⟩
  refine .one (.inter (w := [.lp, .atom c!"-1", .un, .atom c!"2", .rp]) (w' := [.no, .lp, .atom c!"4", .rp]) (.single ?_) ?_)
  · exact .paren (w := [.atom c!"-1", .un, .atom c!"2"]) (.union (w := [.atom c!"-1"]) (.one (.single (.atom _))) (.single (.atom _)))
  · exact .compl (.paren (w := [.atom c!"4"]) (.one (.single (.atom _))))

theorem writtenCell_readable : ReadableCell sampleIO writtenCell := by
  refine ⟨writtenCell_legal, Or.inr ⟨2, by decide, rfl⟩, fun _ => ⟨⟨⟨c!"-", c!"7", c!".0", [], by decide +kernel, by decide, by decide, by decide,
    Or.inr ⟨c!"0", rfl, by decide⟩, Or.inl rfl⟩, by decide +kernel⟩, by decide +kernel⟩, ?_, ?_, ?_, ?_⟩
  · intro u hu; cases hu; exact plain_whole (by decide) (by decide)
  · intro u hu; cases hu; exact plain_whole (by decide) (by decide)
  · intro l _ hl
    cases hl
    intro e he ch hch
    simp at he
    rcases he with rfl | rfl | rfl <;> simp [Entry.text] at hch <;> subst hch <;> exact Or.inl (by decide)
  · exact .point [] c!"1" c!"0" (by simp) (by decide) (by decide) (by decide) (by decide)

/-- The cell of the example of C28 meets the hypotheses of `C82_card_partial` (the others are shown beside C28), and what is read. -/
example : ReadableCell sampleIO writtenCell ∧
    lower c!"3 2 -7.0 ( -1 : 2 ) # ( 4 ) u=5 fill=6 (1 2 3 ) IMP:N=1.0\n" = c!"3 2 -7.0 ( -1 : 2 ) # ( 4 ) u=5 fill=6 (1 2 3 ) imp:n=1.0\n" ∧
    (readCell sampleIO id c!"3 2 -7.0 ( -1 : 2 ) # ( 4 ) u=5 fill=6 (1 2 3 ) imp:n=1.0\n").map (·.density) = .ok (-7) ∧
    (readCell sampleIO id c!"3 2 -7.0 ( -1 : 2 ) # ( 4 ) u=5 fill=6 (1 2 3 ) imp:n=1.0\n").map (·.fill) = .ok (some c!"6") :=
  ⟨writtenCell_readable, by decide +kernel, by decide +kernel, by decide +kernel⟩

/-- A text that meets the hypotheses of `C81_no_blank_line_partial` and needs a second line. -/
example : MaxRun 69 (List.replicate 60 'a' ++ c!"  " ++ List.replicate 30 'b' ++ c!"\n") ∧
    ¬ c!"   " <:+: List.replicate 60 'a' ++ c!"  " ++ List.replicate 30 'b' ∧ 80 < (List.replicate 60 'a' ++ c!"  " ++ List.replicate 30 'b').length :=
  ⟨maxRun_of_runOk (runOk_of_check (by decide +kernel)), by decide +kernel, by decide +kernel⟩

end Csg
