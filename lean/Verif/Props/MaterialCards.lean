import Verif.Lemmas.Fractions
import Verif.Lemmas.FormatE
import Verif.Lemmas.MixedIO

/-!
# C119: how a material card is written changes nothing

`C119_partial`: a material card may be replaced by one with the same nuclides and fractions. `C119_refuted`: a keyword without an equals sign, or with blanks around it, is taken for a nuclide.
-/

set_option linter.unusedSectionVars false

namespace Csg

open Spec

section
variable {K : Type} [Field K] [LinearOrder K] [IsStrictOrderedRing K]

/-- **C119** (partial). Two texts that differ only in a material card, and in which both cards say the same, give the same run. Missing: keywords without an equals sign next to them, see `C119_refuted`; and cards with the letters `imp` or a continuation line
that looks like a material. -/
theorem C119_partial (e : Env K) (cosDeg : K → K) (quick : Bool) (output : Option (List Str)) (text text' title n : Str) (cells surfs a g g' b : List Str) (h : Blocks text title cells surfs (a ++ (g ++ b)))
    (h' : Blocks text' title cells surfs (a ++ (g' ++ b))) (hcards : EqualCards e.io n g g') (hb : BeginCard b) : convert e cosDeg quick output text' = convert e cosDeg quick output text := by
  have hp : ProportionalCards e.io n 1 g g' := by
    obtain ⟨entries, entries', fracs, k1, k2, k3⟩ := hcards.reads
    refine ⟨hcards.cards, hcards.importance, hcards.material, entries, entries', fracs, k1, ?_, k3⟩
    rwa [show fracs.map (1 * ·) = fracs by simp]
  have key : readDeck e.io cosDeg (readText text') = readDeck e.io cosDeg (readText text) := by
    obtain ⟨b1, b2, k1, k2, k3⟩ := readText_blocks h e.io cosDeg
    obtain ⟨b1', b2', k1', k2', k3'⟩ := readText_blocks h' e.io cosDeg
    obtain ⟨rc, hrc⟩ := block_rest (readCell e.io cosDeg) removeInline_code fun l hl => h.cards l (List.mem_append_left _ hl)
    obtain ⟨rs, hrs⟩ := block_rest (classify e.io) stripDollar_code fun l hl => h.cards l (List.mem_append_right _ hl)
    rw [k3, k3', hrc _ _ k1, hrc _ _ k1']
    cases rc with
    | error x => rfl
    | ok cs =>
      simp only [Except.map, bind, Except.bind]
      rw [hrs _ _ k2, hrs _ _ k2']
      cases rs with
      | error x => rfl
      | ok ss =>
        simp only [Except.map]
        rw [importances_proportional e.io hp, transforms_proportional e.io cosDeg hp, materials_same e.io hp hb]
  unfold convert processDeck
  rw [key]

end

private def env : Env ℚ :=
  { fuel := 100, io := mixedIO, fixed := formatF, sci := formatF, sci4 := fun x => (mixedIO.render x).take 10, sci3 := formatF, sqrt := id, degAtan := id, orderStr := id, orderInt := id }

private def top : Str := c!"title\n1 1 -7 -1 imp:n=1\n2 0 1 imp:n=0\n\n1 so 3\n\n"

/-- With a keyword written as `nlib=70c` the file is converted; with `nlib 70c` or `nlib = 70c` there is an exception. In MCNP all three mean the same. -/
theorem C119_refuted :
    (convert env id true (some [c!"mcnp"]) (top ++ c!"m1 1001 1.0 nlib=70c\n")).run =
      .ok (some [(.mcnp, .text c!"C cell definitions\n1 1 -7.0 -1 IMP:N=1.0\n2 0 1 IMP:N=0.0\n\nC surface definitions\n1 s 0.0 0.0 0.0 3.0\n\nC material definitions\nC Material M1\nM1     1001 1.0\n")]) ∧
    (convert env id true (some [c!"mcnp"]) (top ++ c!"m1 1001 1.0 nlib 70c\n")).run = .error .valueError ∧ (convert env id true (some [c!"mcnp"]) (top ++ c!"m1 1001 1.0 nlib = 70c\n")).run = .error .valueError :=
  ⟨by decide +kernel, by decide +kernel, by decide +kernel⟩

/-! ## Two files that meet the hypotheses -/

private def card (second : Bool) : List Str := if second then [c!"m1 1001.70c 3 8016 1.00\n"] else [c!"m1 nlib=70c 1001.70c 3.0 $ water\n", c!"     8016 1.0\n"]

private def data (second : Bool) : List Str := [c!"m2 8016 1.0\n"] ++ (card second ++ [c!"nps 100\n"])

private theorem blocks (second : Bool) : Blocks (top ++ (data second).flatten) c!"title\n" [c!"1 1 -7 -1 imp:n=1\n", c!"2 0 1 imp:n=0\n"] [c!"1 so 3\n"] (data second) where
  lines := ⟨[c!"1 1 -7 -1 imp:n=1\n", c!"2 0 1 imp:n=0\n"] ++ c!"\n" :: [c!"1 so 3\n"] ++ c!"\n" :: data second, c!"\n", c!"\n", by revert second; decide +kernel,
    fun l hl => line_of (by revert second l; decide +kernel), by revert second; decide +kernel, by unfold BlankLine; decide, by unfold BlankLine; decide⟩
  noMessage := fun a b e => by
    have := (hasInfix_iff c!"message" _).2 ⟨a, b, e⟩
    revert this
    decide +kernel
  cards := by decide +kernel

/-- The hypotheses of `C119_partial`. -/
example : (∀ second, Blocks (top ++ (data second).flatten) c!"title\n" [c!"1 1 -7 -1 imp:n=1\n", c!"2 0 1 imp:n=0\n"] [c!"1 so 3\n"] ([c!"m2 8016 1.0\n"] ++ (card second ++ [c!"nps 100\n"]))) ∧ EqualCards env.io c!"1" (card false) (card true) ∧
    BeginCard [c!"nps 100\n"] := by
  refine ⟨blocks, ⟨fun g hg => ?_, fun l hl => not_imp (by revert l; decide +kernel), fun l hl => ?_, [(c!"1001.70c", c!"3.0"), (c!"8016", c!"1.0")], [(c!"1001.70c", c!"3"), (c!"8016", c!"1.00")], [3, 1],
    ⟨⟨_, _, rfl, by decide, by decide, 0, c!" nlib=70c 1001.70c 3.0 $ water\n", by decide, by decide⟩, by decide +kernel, .cons (by decide +kernel) (.cons (by decide +kernel) .nil)⟩,
    ⟨⟨_, _, rfl, by decide, by decide, 0, c!" 1001.70c 3 8016 1.00\n", by decide, by decide⟩, by decide +kernel, .cons (by decide +kernel) (.cons (by decide +kernel) .nil)⟩, by decide⟩, ?_⟩
  · simp only [List.mem_cons, List.not_mem_nil, or_false] at hg
    rcases hg with rfl | rfl <;>
      exact ⟨_, _, rfl, not_five (by decide), fun l hl => five (by revert l; decide), fun l hl => (line_of (l := l) (by revert l; decide)).imp fun _ h => ⟨h.1, .inr h.2⟩⟩
  · obtain rfl : l = c!"     8016 1.0\n" := by simpa [card] using hl
    exact not_looks (by intro d t h; revert h; simp [List.dropWhile])
  · intro l hl
    cases hl
    exact not_five (by decide)

end Csg
