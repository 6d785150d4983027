import Verif.Props.Indifferent
import Verif.Props.InputFile
import Verif.Lemmas.MixedIO
import Verif.Lemmas.FormatE

/-!
# C104: examples

Two input files that differ in an importance, and two for which the second run fails.
-/

namespace Csg

open Spec

private def env : Env ℚ :=
  { fuel := 100, io := mixedIO, fixed := formatF, sci := formatF, sci4 := fun x => (mixedIO.render x).take 10, sci3 := formatE, sqrt := id, degAtan := (45 * ·), orderStr := id, orderInt := id }

/-- A ball or a cube, and the rest of space with the importance `v`. -/
private def input (v surface : Str) : Str := c!"title\n1 1 -7 -1 imp:n=1\n2 0 1 imp:n=" ++ v ++ c!"\n\n1 " ++ surface ++ c!"\n\nm1 1001 1.0\n"

private theorem edited (surface : Str) (hs : surface = c!"so 9" ∨ surface = c!"rpp 0 1 0 1 0 1") : ImportancesEdited mixedIO (input c!"1" surface) (input c!"0" surface) := by
  refine ⟨c!"title\n", [c!"1 1 -7 -1 imp:n=1\n", c!"2 0 1 imp:n=1\n", c!"\n", c!"1 " ++ surface ++ c!"\n", c!"\n", c!"m1 1001 1.0\n"], [c!"1 1 -7 -1 imp:n=1\n", c!"2 0 1 imp:n=0\n", c!"\n", c!"1 " ++ surface ++ c!"\n", c!"\n", c!"m1 1001 1.0\n"],
    [[c!"1 1 -7 -1 imp:n=1\n"], [c!"2 0 1 imp:n=1\n"]], [[c!"1 1 -7 -1 imp:n=1\n"], [c!"2 0 1 imp:n=0\n"]], c!"\n", [c!"1 " ++ surface ++ c!"\n", c!"\n", c!"m1 1001 1.0\n"], ?_, ?_, ?_, ?_, ?_, ?_, ?_, ?_, ?_⟩
  · rcases hs with rfl | rfl <;> decide
  · rcases hs with rfl | rfl <;> decide
  · intro l hl
    refine line_of ?_
    revert l
    rcases hs with rfl | rfl <;> decide
  · intro a b e
    have : hasInfix c!"message" c!"title\n" = true := (hasInfix_iff _ _).2 ⟨a, b, e⟩
    exact absurd this (by decide)
  · unfold BlankLine; decide
  · rcases hs with rfl | rfl <;> decide
  · rcases hs with rfl | rfl <;> decide
  · have one : ∀ l : Str, l.take 5 ≠ c!"     " → (∃ ch ∈ codeOf l, isSpace ch = false) → CardOf [l] := fun l h1 h2 =>
      ⟨l, [], rfl, not_five h1, by simp, by simpa using h2⟩
    intro g hg
    simp only [List.cons_append, List.nil_append, List.mem_cons, List.not_mem_nil, or_false] at hg
    rcases hg with rfl | rfl | rfl | rfl
    all_goals exact one _ (by decide) (by decide)
  · refine .cons (.inl rfl) (.cons (.inr ?_) .nil)
    have text : ∀ v : Str, v ≠ [] → (∀ c ∈ v, isDigit c = true) → IsParamList [(.importance v, c!"imp:n=" ++ v, c!"\n")] := by
      intro v h1 h2
      refine ⟨?_, by simp, by simp, by simp⟩
      intro e he
      rw [List.mem_singleton] at he
      subst he
      exact ⟨.importance v c!"=" (.inl rfl) (.whole [] v (by simp) h1 h2), by simp [isSpace]⟩
    refine ⟨c!"2 0 1 ", _, _, ?_, ?_, by decide, by decide, text c!"1" (by decide) (by decide), text c!"0" (by decide) (by decide), ?_, ?_, ?_⟩
    · decide
    · decide
    · intro p hp
      simp only [List.map_cons, List.map_nil, List.mem_singleton]
      constructor
      all_goals
        rintro rfl
        exact absurd rfl hp
    · intro v hv
      simp only [List.map_cons, List.map_nil, List.cons_append, List.nil_append, List.mem_cons, List.not_mem_nil, or_false, Param.importance.injEq] at hv
      rcases hv with rfl | rfl
      · exact ⟨1, by decide +kernel⟩
      · exact ⟨0, by decide +kernel⟩
    · simp

/-- The run has finished. -/
private def finished {α : Type} (r : W α) : Bool := match r.run with | .ok (some _) => true | _ => false

private theorem of_finished {α : Type} {r : W α} (h : finished r = true) : ∃ a, Returns r a := by
  unfold finished at h
  unfold Returns
  split at h
  · rename_i a e
    exact ⟨a, e⟩
  · cases h

set_option maxRecDepth 8000 in
/-- The hypotheses of `C104_text` hold for the ball with the rest of space as outside world or not. -/
example : ImportancesEdited env.io (input c!"1" c!"so 9") (input c!"0" c!"so 9") ∧ (∃ files, Returns (convert env id false (some [c!"mcnp", c!"openmc", c!"phits"]) (input c!"1" c!"so 9")) files) ∧
    (∃ files, Returns (convert env id false (some [c!"mcnp", c!"openmc", c!"phits"]) (input c!"0" c!"so 9")) files) ∧
    convert env id false (some [c!"openmc"]) (input c!"1" c!"so 9") ≠ convert env id false (some [c!"openmc"]) (input c!"0" c!"so 9") :=
  ⟨edited _ (.inl rfl), of_finished (by decide +kernel), of_finished (by decide +kernel), fun h => absurd (congrArg OptionT.run h) (by decide +kernel)⟩

set_option maxRecDepth 8000 in
/-- That both runs finish cannot be left out: the importance decides whether there is a run to compare with. With the cube the first run finishes; the second, where only the importance of the cell around the cube differs, fails (see `C27_fails`). -/
theorem C104_refuted_success : ∃ (e : Env ℚ) (text text' : Str), ImportancesEdited e.io text text' ∧ (∃ files, Returns (convert e id false (some [c!"serpent"]) text) files) ∧
    (convert e id false (some [c!"serpent"]) text').run = .error .attributeError :=
  ⟨env, input c!"1" c!"rpp 0 1 0 1 0 1", input c!"0" c!"rpp 0 1 0 1 0 1", edited _ (.inr rfl), of_finished (by decide +kernel), by decide +kernel⟩

end Csg
