import Verif.Spec.SameImportances
import Verif.Props.SameSurface
import Verif.Props.Importances

/-!
# C123: how the importances are written changes nothing

`C123_partial`: a card with importances may be replaced by one with the same numbers. `C123_refuted`: not if one of them uses a repetition.
-/

set_option linter.unusedSectionVars false

namespace Csg

open Spec

section
variable {K : Type} [Field K] [LinearOrder K] [IsStrictOrderedRing K]

private theorem assign_same (io : NumIO K) {ws ws' : List Str} {values : List K} (h : List.Forall₂ (fun w v => io.float w = .ok v) ws values) (h' : List.Forall₂ (fun w v => io.float w = .ok v) ws' values)
    (cells : List (Cell K)) : assignImportances io cells ws' = assignImportances io cells ws := by
  induction values generalizing ws ws' cells with
  | nil =>
    cases h
    cases h'
    rfl
  | cons v values ih =>
    cases h with
    | cons hv h =>
    cases h' with
    | cons hv' h' =>
    cases cells with
    | nil => rfl
    | cons c cells => simp only [assignImportances, hv, hv', ih h h']

private theorem apply_words (io : NumIO K) (t : Str) (cells : List (Cell K)) : applyImportances io [(.neutron, t)] cells = assignImportances io cells (split t) := by
  have : applyImportances io [(.neutron, t)] cells = if t = [] then .ok cells else assignImportances io cells (split t) := rfl
  rw [this]
  by_cases ht : t = []
  · subst ht
    rw [if_pos rfl, show split [] = [] from rfl]
    cases cells <;> rfl
  · rw [if_neg ht]

/-- The words of the importances are used only when they are assigned to the cells. -/
private theorem finish_same (fuel : Nat) (io : NumIO K) (cosDeg sqrt : K → K) (quick : Bool) (d : Deck K) (imps imps' : List (Particle × Str)) (h : ∀ cells, applyImportances io imps' cells = applyImportances io imps cells) :
    finishDeck fuel io cosDeg sqrt quick { d with importances := imps' } = (finishDeck fuel io cosDeg sqrt quick { d with importances := imps }).map fun r => r.map fun p => { p with importances := imps' } := by
  unfold finishDeck
  simp only
  cases flatten io cosDeg sqrt d.cells d.surfaces d.last with
  | error x => rfl
  | ok r =>
    obtain ⟨cells, surfs, last⟩ := r
    simp only
    cases explodeNots fuel cells with
    | none => rfl
    | some r =>
    cases r with
    | error x => rfl
    | ok cells =>
      simp only [Option.map_some, Option.some.injEq, applyBoundaryConditions, h]
      have push : ∀ {α β γ : Type} (f : β → γ) (a : Py α) (k : α → Py β), (a >>= k).map f = a >>= fun x => (k x).map f := by
        intro α β γ f a k
        cases a <;> rfl
      simp only [push]
      rfl

/-- **C123** (partial). Two texts that differ only in the card with the importances for neutrons, with the same numbers in both, give the same run. Missing: repetitions, see `C123_refuted`; the card is the only one
with importances, and another card follows it. -/
theorem C123_partial (e : Env K) (cosDeg : K → K) (quick : Bool) (output : Option (List Str)) (text text' title : Str) (cells surfs before conts conts' after : List Str) (body body' next : Str) (values : List K)
    (h : Blocks text title cells surfs (before ++ ((c!"imp:n " ++ body) :: conts ++ next :: after))) (h' : Blocks text' title cells surfs (before ++ ((c!"imp:n " ++ body') :: conts' ++ next :: after)))
    (hs : SaysImportances e.io body conts values) (hs' : SaysImportances e.io body' conts' values) (hbefore : ∀ l ∈ before ++ next :: after, ∀ a b, l ≠ a ++ c!"imp" ++ b) (hnext : ¬ FiveBlanks next) :
    convert e cosDeg quick output text' = convert e cosDeg quick output text := by
  have five : ∀ {l : Str}, FiveBlanks l → ∃ x, l = c!"     " ++ x := fun {l} h => h
  have got : ∀ {body : Str} {conts : List Str}, SaysImportances e.io body conts values →
      ∃ t, getImportances (before ++ ((c!"imp:n " ++ body) :: conts ++ next :: after)) = .ok [(.neutron, t)] ∧ split t = split body ++ conts.flatMap split := by
    intro body conts hs
    have := getImportances_card before conts after body next (fun l hl => not_importance (hbefore l hl)) (fun l hl => five (hs.lines l hl).1) (fun hh => hnext hh) hs.plain
    rwa [List.append_assoc] at this
  obtain ⟨t, ht, hw⟩ := got hs
  obtain ⟨t', ht', hw'⟩ := got hs'
  have other : ∀ {body : Str} {conts : List Str}, SaysImportances e.io body conts values → (∀ l ∈ (c!"imp:n " ++ body) :: conts, ¬ LooksLikeMaterial l) ∧ (∀ l ∈ (c!"imp:n " ++ body) :: conts, ∀ d t, l ≠ trName d t) := by
    intro body conts hs
    constructor
    · intro l hl
      rcases List.mem_cons.1 hl with rfl | hl
      · rintro ⟨k, d, t, e, -⟩
        cases k <;> simp [List.replicate_succ] at e
      · exact (hs.lines l hl).2
    · intro l hl d t
      rcases List.mem_cons.1 hl with rfl | hl
      · cases d <;> simp [trName]
      · obtain ⟨x, rfl⟩ := (hs.lines l hl).1
        cases d <;> simp [trName]
  have begins : ∀ (body : Str) (conts : List Str), BeginCard ((c!"imp:n " ++ body) :: conts) := by
    rintro body conts l hl ⟨x, rfl⟩
    simp at hl
  have begins' : BeginCard (next :: after) := by
    intro l hl
    cases hl
    exact hnext
  have key : ∃ r : Py (Deck K), readDeck e.io cosDeg (readText text) = r.map (fun d => { d with importances := [(.neutron, t)] }) ∧ readDeck e.io cosDeg (readText text') = r.map (fun d => { d with importances := [(.neutron, t')] }) := by
    obtain ⟨b1, b2, k1, k2, k3⟩ := readText_blocks h e.io cosDeg
    obtain ⟨b1', b2', k1', k2', k3'⟩ := readText_blocks h' e.io cosDeg
    obtain ⟨rc, hrc⟩ := block_rest (readCell e.io cosDeg) removeInline_code fun l hl => h.cards l (List.mem_append_left _ hl)
    obtain ⟨rs, hrs⟩ := block_rest (classify e.io) stripDollar_code fun l hl => h.cards l (List.mem_append_right _ hl)
    rw [k3, k3', hrc _ _ k1, hrc _ _ k1']
    cases rc with
    | error x => exact ⟨.error x, rfl, rfl⟩
    | ok cs =>
      simp only [Except.map, bind, Except.bind]
      rw [hrs _ _ k2, hrs _ _ k2']
      cases rs with
      | error x => exact ⟨.error x, rfl, rfl⟩
      | ok ss =>
        simp only [Except.map]
        rw [ht, ht', transforms_extra e.io cosDeg (other hs).2 (begins _ _) begins' (.inl (by simp)), transforms_extra e.io cosDeg (other hs').2 (begins _ _) begins' (.inl (by simp)),
          materials_extra e.io (other hs).1 (begins _ _) begins', materials_extra e.io (other hs').1 (begins _ _) begins']
        simp only
        cases getTransformCards e.io cosDeg [] (before ++ next :: after) with
        | error x => exact ⟨.error x, rfl, rfl⟩
        | ok trs =>
          simp only
          cases getMaterialCards e.io [] (before ++ next :: after) with
          | error x => exact ⟨.error x, rfl, rfl⟩
          | ok mats =>
            exact ⟨.ok { title := title, cells := cs, surfaces := ss, last := ss.foldl (fun m s => if m < s.id then s.id else m) 0, importances := [], transforms := trs, materials := mats, bounding := [0, 0, 0, 0, 0, 0] }, rfl, rfl⟩
  obtain ⟨r, hr, hr'⟩ := key
  unfold convert processDeck
  rw [hr, hr']
  cases r with
  | error x => rfl
  | ok d =>
    simp only [Except.map]
    rw [finish_same e.fuel e.io cosDeg e.sqrt quick d [(.neutron, t)] [(.neutron, t')] fun cells => by rw [apply_words, apply_words, hw, hw', assign_same e.io hs.values hs'.values]]
    cases finishDeck e.fuel e.io cosDeg e.sqrt quick { d with importances := [(.neutron, t)] } with
    | none => rfl
    | some r => cases r <;> rfl

end

private def env : Env ℚ :=
  { fuel := 100, io := mixedIO, fixed := formatF, sci := formatF, sci4 := fun x => (mixedIO.render x).take 10, sci3 := formatF, sqrt := id, degAtan := id, orderStr := id, orderInt := id }

private def top : Str := c!"title\n1 0 -1\n2 0 1 -2\n3 0 2 -3\n4 0 3\n\n1 so 3\n2 so 5\n3 so 7\n\n"

/-- The importances 5, 5, 5 and 0, written with a repetition: the third cell gets 0 and the fourth, the outside world, 1. -/
theorem C123_refuted :
    (convert env id true (some [c!"mcnp"]) (top ++ c!"imp:n 5 5 5 0\nnps 5\n")).run =
      .ok (some [(.mcnp, .text c!"C cell definitions\n1 0 -1 IMP:N=5.0\n2 0 1 -2 IMP:N=5.0\n3 0 2 -3 IMP:N=5.0\n4 0 3 IMP:N=0.0\n\nC surface definitions\n1 s 0.0 0.0 0.0 3.0\n2 s 0.0 0.0 0.0 5.0\n3 s 0.0 0.0 0.0 7.0\n\nC material definitions\n")]) ∧
    (convert env id true (some [c!"mcnp"]) (top ++ c!"imp:n 5 2r 0\nnps 5\n")).run =
      .ok (some [(.mcnp, .text c!"C cell definitions\n1 0 -1 IMP:N=5.0\n2 0 1 -2 IMP:N=5.0\n3 0 2 -3 IMP:N=0.0\n4 0 3 IMP:N=1.0\n\nC surface definitions\n1 s 0.0 0.0 0.0 3.0\n2 s 0.0 0.0 0.0 5.0\n3 s 0.0 0.0 0.0 7.0\n\nC material definitions\n")]) :=
  ⟨by decide +kernel, by decide +kernel⟩

/-! ## Two files that meet the hypotheses -/

private def cellLines : List Str := [c!"1 0 -1\n", c!"2 0 1 -2\n", c!"3 0 2\n"]
private def surfaceLines : List Str := [c!"1 so 3\n", c!"2 so 5\n"]
private def said (second : Bool) : List Str := if second then [c!"imp:n 2.50\n", c!"       1 0.0\n"] else [c!"imp:n 2.5 1 0\n"]
private def dataLines (second : Bool) : List Str := [c!"mode n\n"] ++ (said second ++ [c!"nps 5\n"])
private def text (second : Bool) : Str := c!"title\n" ++ cellLines.flatten ++ c!"\n" ++ surfaceLines.flatten ++ c!"\n" ++ (dataLines second).flatten

private theorem blocks (second : Bool) : Blocks (text second) c!"title\n" cellLines surfaceLines (dataLines second) where
  lines := ⟨cellLines ++ c!"\n" :: surfaceLines ++ c!"\n" :: dataLines second, c!"\n", c!"\n", by revert second; decide +kernel, fun l hl => line_of (by revert second l; decide +kernel), by revert second; decide +kernel,
    by unfold BlankLine; decide, by unfold BlankLine; decide⟩
  noMessage := fun a b e => by
    have := (hasInfix_iff _ _).2 ⟨a, b, e⟩
    revert this
    decide +kernel
  cards := by decide +kernel

/-- The hypotheses of `C123_partial`: the importances on one line, and on two with other words. -/
example : Blocks (text false) c!"title\n" cellLines surfaceLines ([c!"mode n\n"] ++ ((c!"imp:n " ++ c!"2.5 1 0\n") :: [] ++ c!"nps 5\n" :: [])) ∧
    Blocks (text true) c!"title\n" cellLines surfaceLines ([c!"mode n\n"] ++ ((c!"imp:n " ++ c!"2.50\n") :: [c!"       1 0.0\n"] ++ c!"nps 5\n" :: [])) ∧
    SaysImportances env.io c!"2.5 1 0\n" [] [5 / 2, 1, 0] ∧ SaysImportances env.io c!"2.50\n" [c!"       1 0.0\n"] [5 / 2, 1, 0] ∧
    (∀ l ∈ [c!"mode n\n"] ++ c!"nps 5\n" :: [], ∀ a b, l ≠ a ++ c!"imp" ++ b) ∧ ¬ FiveBlanks c!"nps 5\n" := by
  refine ⟨blocks false, blocks true, ⟨by simp, by decide +kernel, ?_⟩, ⟨?_, by decide +kernel, ?_⟩, ?_, not_five (by decide)⟩
  · rw [show split c!"2.5 1 0\n" ++ [].flatMap split = [c!"2.5", c!"1", c!"0"] from by decide +kernel]
    exact .cons (by decide +kernel) (.cons (by decide +kernel) (.cons (by decide +kernel) .nil))
  · intro l hl
    simp only [List.mem_singleton] at hl
    subst hl
    exact ⟨five (by decide), not_looks (by intro d t e; simp at e)⟩
  · rw [show split c!"2.50\n" ++ [c!"       1 0.0\n"].flatMap split = [c!"2.50", c!"1", c!"0.0"] from by decide +kernel]
    exact .cons (by decide +kernel) (.cons (by decide +kernel) (.cons (by decide +kernel) .nil))
  · intro l hl a b e
    have := (hasInfix_iff _ _).2 ⟨a, b, e⟩
    revert this
    clear e
    revert l
    decide +kernel

end Csg
