import Verif.Lemmas.MaterialText
import Verif.Lemmas.SconeText
import Verif.Spec.Sample

/-!
# C80: importances for PHITS
-/

namespace Csg

open Spec

section
variable {K : Type}

/-- C80: the section for the importances has a line for the columns and then exactly one line for each cell, in the order of the cells, with two words: the number of the cell and its importance. -/
theorem C80_importances (io : NumIO K) (cells : List (Cell K)) (h : ∀ c ∈ cells, PrintsFloat io c.importance) :
    ∃ lines : List Str, phitsImportances io cells = c!"[ I M P O R T A N C E ]\n   reg       imp   \n" ++ lines.flatMap (· ++ c!"\n") ∧
      List.Forall₂ (fun c l => '\n' ∉ l ∧ ∃ t, split l = [intStr c.id, t] ∧ io.parse t = some c.importance) cells lines := by
  let line : Cell K → Str := fun c => c!"    " ++ intStr c.id ++ c!"        " ++ io.render c.importance
  refine ⟨cells.map line, ?_, ?_⟩
  · unfold phitsImportances
    rw [List.flatMap_map]
    rfl
  · have : ∀ cs : List (Cell K), (∀ c ∈ cs, PrintsFloat io c.importance) →
        List.Forall₂ (fun c l => '\n' ∉ l ∧ ∃ t, split l = [intStr c.id, t] ∧ io.parse t = some c.importance) cs (cs.map line) := by
      intro cs
      induction cs with
      | nil => intro _; exact .nil
      | cons c cs ih =>
        intro h
        obtain ⟨h1, h2⟩ := h c (by simp)
        have hp := floatText_plain h1
        obtain ⟨w1, w2⟩ := sconeWord_intStr c.id
        refine .cons ⟨?_, io.render c.importance, ?_, h2⟩ (ih fun c' hc' => h c' (by simp [hc']))
        · simp only [line, List.mem_append, not_or]
          exact ⟨⟨⟨by decide, fun hh => absurd (w2 _ hh).1 (by decide)⟩, by decide⟩, fun hh => (hp _ hh).facts.2.1 (by decide)⟩
        · have e : line c = c!"    " ++ (intStr c.id ++ ' ' :: (c!"       " ++ io.render c.importance)) := by simp [line]
          rw [e, split_spaces_append _ _ (by decide), split_word_space _ _ _ (by decide) (fun c hc => (w2 c hc).1) w1, split_spaces_append _ _ (by decide),
            split_word _ (fun c hc => (hp c hc).facts.1) h1.ne_nil]
    exact this cells h

end

example : phitsImportances sampleIO [{ Cell.blank with id := 1, importance := (4 : ℚ) }, { Cell.blank with id := 20, importance := 0 }] =
    c!"[ I M P O R T A N C E ]\n   reg       imp   \n    1        4.0\n    20        0.0\n" := by decide +kernel

end Csg
