import Verif.Spec.Motions
import Verif.Props.OtherCards
import Verif.Props.InputFile
import Verif.Lemmas.FormatE
import Verif.Lemmas.MixedIO

/-!
# C120: how a TR card is written changes nothing

`C120_partial`: a TR card may be replaced by one with the same displacement and the same cosines, whether these are given as cosines or as angles. `C120_refuted`: not if there is a comment after `$`.
-/

set_option linter.unusedSectionVars false

namespace Csg

open Spec

section
variable {K : Type} [Field K] [LinearOrder K] [IsStrictOrderedRing K]

private theorem trName_id (degrees : Bool) (n : Str) : sliceFrom (trName degrees n) (findChar 'r' (trName degrees n) + 1) = n := by
  cases degrees
  · exact congrArg (fun i => sliceFrom (c!"tr" ++ n) (i + 1)) (findChar_append 'r' c!"t" n (by decide))
  · exact congrArg (fun i => sliceFrom (c!"*tr" ++ n) (i + 1)) (findChar_append 'r' c!"*t" n (by decide))

private theorem trName_star (degrees : Bool) (n : Str) (hn : '*' ∉ n) : (trName degrees n).elem '*' = degrees := by
  cases degrees
  · simpa [trName] using hn
  · rfl

private theorem float3_ok (io : NumIO K) (tokens : List Str) (i : Nat) {a b c : Str} {x y z : K} (ha : tokens[i]? = some a) (hb : tokens[i + 1]? = some b)
    (hc : tokens[i + 2]? = some c) (hx : io.float a = .ok x) (hy : io.float b = .ok y) (hz : io.float c = .ok z) :
    float3 io tokens i = .ok ⟨x, y, z⟩ := by
  unfold float3 pyGet
  rw [ha, hb, hc]
  simp only [bind, Except.bind]
  rw [hx, hy, hz]

/-- A card with three values: the shift. -/

private theorem nine (io : NumIO K) (cosDeg : K → K) (text n : Str) (degrees : Bool) (ws : List Str) (x y z a1 a2 a3 b1 b2 b3 : K) (hn : '*' ∉ n)
    (ht : split text = trName degrees n :: ws) (hw : List.Forall₂ (fun w v => io.float w = .ok v) ws [x, y, z, a1, a2, a3, b1, b2, b3]) :
    parseTransform io cosDeg text = .ok (n, ⟨⟨x, y, z⟩, trRow cosDeg degrees a1 a2 a3, trRow cosDeg degrees b1 b2 b3,
      cross (trRow cosDeg degrees a1 a2 a3) (trRow cosDeg degrees b1 b2 b3)⟩) := by
  obtain _ | ⟨h1, _ | ⟨h2, _ | ⟨h3, _ | ⟨h4, _ | ⟨h5, _ | ⟨h6, _ | ⟨h7, _ | ⟨h8, _ | ⟨h9, _ | _⟩⟩⟩⟩⟩⟩⟩⟩⟩ := hw
  unfold parseTransform
  rw [ht]
  simp only [bind, Except.bind, pyGet, List.getElem?_cons_zero]
  rw [float3_ok io _ 1 rfl rfl rfl h1 h2 h3]
  simp only
  rw [if_neg (by simp), if_pos (by simp), float3_ok io _ 4 rfl rfl rfl h4 h5 h6, float3_ok io _ 7 rfl rfl rfl h7 h8 h9]
  simp only [trName_id, trName_star _ _ hn, trRow]


theorem tr_first {g : List Str} {d : Bool} {n : Str} (h : IsTransformCard g d n) :
    ∃ first more ws, g = first :: more ∧ isTransformLine first = true ∧ split first = trName d n :: ws := by
  obtain ⟨h1, h2, h3, t, more, rfl, ht⟩ := h
  have hw : NoSpace (trName d n) := by
    intro c hc
    have : c ∈ c!"*tr" ∨ c ∈ n := by
      cases d
      · rcases List.mem_append.1 hc with hc | hc
        · left
          have all : ∀ c ∈ c!"tr", c ∈ c!"*tr" := by decide
          exact all c hc
        · exact Or.inr hc
      · rcases List.mem_append.1 hc with hc | hc
        · exact Or.inl hc
        · exact Or.inr hc
    rcases this with h | h
    · have all : ∀ c ∈ c!"*tr", isSpace c = false := by decide
      exact all c h
    · exact h2 c h
  have hne : trName d n ≠ [] := by cases d <;> simp [trName]
  have : isTransformLine (trName d n ++ t) = true := isTransformLine_iff.2 ⟨d, n ++ t, by cases d <;> simp [trName]⟩
  cases t with
  | nil => exact ⟨_, more, [], rfl, this, by rw [List.append_nil, split_word _ hw hne]⟩
  | cons c t => exact ⟨_, more, split t, rfl, this, split_word_space _ _ _ (ht c rfl) hw hne⟩


/-- What is read from a card, given its cosines. -/
theorem parse_cosines (io : NumIO K) (cosDeg : K → K) {text n : Str} {d : Bool} {ws : List Str} {values : List K} (hn : '*' ∉ n) (hlen : values.length = 3 ∨ values.length = 9 ∨ values.length = 12) (ht : split text = trName d n :: ws)
    (hw : List.Forall₂ (fun w v => io.float w = .ok v) ws values) :
    ∃ r : List K → Transform K, (∀ d' values', cosines cosDeg d' values' = cosines cosDeg d values → ∀ text' ws', split text' = trName d' n :: ws' → List.Forall₂ (fun w v => io.float w = .ok v) ws' values' →
      parseTransform io cosDeg text' = .ok (n, r (cosines cosDeg d values))) ∧ parseTransform io cosDeg text = .ok (n, r (cosines cosDeg d values)) := by
  have row : ∀ (d : Bool) (x y z : K), trRow cosDeg d x y z = ⟨if d then cosDeg x else x, if d then cosDeg y else y, if d then cosDeg z else z⟩ := fun d x y z => by cases d <;> rfl
  have length : ∀ (d : Bool) (values : List K), (cosines cosDeg d values).length = values.length := fun d values => by
    unfold cosines
    rw [List.length_append, List.length_map, ← List.length_append, List.take_append_drop]
  suffices key : ∃ r : List K → Transform K, ∀ d' values', (cosines cosDeg d' values').length = values.length → ∀ text' ws', split text' = trName d' n :: ws' → List.Forall₂ (fun w v => io.float w = .ok v) ws' values' →
      parseTransform io cosDeg text' = .ok (n, r (cosines cosDeg d' values')) by
    obtain ⟨r, hr⟩ := key
    exact ⟨r, fun d' values' e text' ws' h1 h2 => by rw [hr d' values' (by rw [e, length]) text' ws' h1 h2, e], hr d values (length d values) text ws ht hw⟩
  rcases hlen with hlen | hlen | hlen <;> rw [hlen]
  · refine ⟨fun vs => match vs with | [x, y, z] => ⟨⟨x, y, z⟩, ⟨1, 0, 0⟩, ⟨0, 1, 0⟩, ⟨0, 0, 1⟩⟩ | _ => ⟨⟨0, 0, 0⟩, ⟨0, 0, 0⟩, ⟨0, 0, 0⟩, ⟨0, 0, 0⟩⟩, fun d' values' hl text' ws' h1 h2 => ?_⟩
    rw [length] at hl
    obtain ⟨x, y, z, rfl⟩ := List.length_eq_three.1 hl
    exact C41_shift io cosDeg _ n d' ws' x y z h1 h2
  · refine ⟨fun vs => match vs with | [x, y, z, a1, a2, a3, b1, b2, b3] => ⟨⟨x, y, z⟩, ⟨a1, a2, a3⟩, ⟨b1, b2, b3⟩, cross ⟨a1, a2, a3⟩ ⟨b1, b2, b3⟩⟩ | _ => ⟨⟨0, 0, 0⟩, ⟨0, 0, 0⟩, ⟨0, 0, 0⟩, ⟨0, 0, 0⟩⟩, fun d' values' hl text' ws' h1 h2 => ?_⟩
    rw [length] at hl
    match values', hl with
    | [x, y, z, a1, a2, a3, b1, b2, b3], _ =>
      rw [nine io cosDeg _ n d' ws' x y z a1 a2 a3 b1 b2 b3 hn h1 h2, row, row]
      rfl
  · refine ⟨fun vs => match vs with | [x, y, z, a1, a2, a3, b1, b2, b3, c1, c2, c3] => ⟨⟨x, y, z⟩, ⟨a1, a2, a3⟩, ⟨b1, b2, b3⟩, ⟨c1, c2, c3⟩⟩ | _ => ⟨⟨0, 0, 0⟩, ⟨0, 0, 0⟩, ⟨0, 0, 0⟩, ⟨0, 0, 0⟩⟩, fun d' values' hl text' ws' h1 h2 => ?_⟩
    rw [length] at hl
    match values', hl with
    | [x, y, z, a1, a2, a3, b1, b2, b3, c1, c2, c3], _ =>
      rw [C41_full io cosDeg _ n d' ws' x y z a1 a2 a3 b1 b2 b3 c1 c2 c3 hn h1 h2, row, row, row]
      rfl

theorem tr_card_words {first n : Str} {more : List Str} {d : Bool} (hi : IsTransformCard (first :: more) d n) (hm : ∀ l ∈ more, FiveBlanks l) :
    split (first ++ more.flatten) = trName d n :: (cardWords (first :: more)).drop 1 := by
  obtain ⟨f, mo, ws, e, -, hs⟩ := tr_first hi
  cases e
  rw [transform_words hm hi.2.2.1]
  unfold cardWords
  rw [List.flatMap_cons]
  have : first.takeWhile (· ≠ '$') = first := by
    have := List.takeWhile_append_of_pos (p := fun x : Char => decide (x ≠ '$')) (l₁ := first) (l₂ := []) fun c hc => by
      simp only [decide_eq_true_eq]; rintro rfl; exact hi.2.2.1 first (by simp) hc
    simpa using this
  rw [this, hs]
  rfl

private theorem parse_same (io : NumIO K) (cosDeg : K → K) {n : Str} {first first' : Str} {more more' : List Str} (h : SameMotion io cosDeg n (first :: more) (first' :: more')) :
    parseTransform io cosDeg (first' ++ more'.flatten) = parseTransform io cosDeg (first ++ more.flatten) := by
  obtain ⟨f, mo, e, -, hf, -⟩ := h.cards (first :: more) (by simp)
  cases e
  obtain ⟨f, mo, e, -, hf', -⟩ := h.cards (first' :: more') (by simp)
  cases e
  obtain ⟨d, d', values, values', ⟨hi, hl, hv⟩, ⟨hi', -, hv'⟩, e⟩ := h.reads
  obtain ⟨r, h1, h2⟩ := parse_cosines io cosDeg hi.1 hl (tr_card_words hi hf) hv
  rw [h2, h1 d' values' e _ _ (tr_card_words hi' hf') hv']

private theorem transforms_motion (io : NumIO K) (cosDeg : K → K) {n : Str} {g g' b : List Str} (h : SameMotion io cosDeg n g g') (hb : BeginCard b) (a : List Str) (trs : List (Str × Transform K)) :
    getTransformCards io cosDeg trs (a ++ (g' ++ b)) = getTransformCards io cosDeg trs (a ++ (g ++ b)) := by
  obtain ⟨first, more, rfl, k1, k2, -⟩ := h.cards g (by simp)
  obtain ⟨first', more', rfl, k1', k2', -⟩ := h.cards g' (by simp)
  have begin1 : BeginCard ((first :: more) ++ b) := fun l hl => by cases hl; exact k1
  have begin2 : BeginCard ((first' :: more') ++ b) := fun l hl => by cases hl; exact k1'
  induction a generalizing trs with
  | nil =>
    obtain ⟨d, d', values, values', ⟨hi, -⟩, ⟨hi', -⟩, -⟩ := h.reads
    obtain ⟨f, mo, ws, e, hl, -⟩ := tr_first hi
    cases e
    obtain ⟨f, mo, ws, e, hl', -⟩ := tr_first hi'
    cases e
    have all : ∀ {more : List Str}, (∀ l ∈ more, FiveBlanks l) → (more ++ b).all continues = b.all continues := fun hm => by
      rw [List.all_append, List.all_eq_true.2 fun l hl => fiveBlanks_iff.2 (hm l hl), Bool.true_and]
    have take : ∀ {more : List Str}, (∀ l ∈ more, FiveBlanks l) → (more ++ b).takeWhile continues = more := fun hm => by
      rw [takeWhile_begin hb]
      exact List.takeWhile_eq_self_iff.2 fun l hl => fiveBlanks_iff.2 (hm l hl)
    rw [List.nil_append, List.nil_append, List.cons_append, List.cons_append, getTransformCards, getTransformCards, if_pos hl, if_pos hl', all k2, all k2', take k2, take k2', parse_same io cosDeg h]
    simp only [transforms_skip io cosDeg fun l hl => five_not_transform (k2 l hl), transforms_skip io cosDeg fun l hl => five_not_transform (k2' l hl)]
  | cons l a ih =>
    rw [List.cons_append (as := a), List.cons_append (as := a), getTransformCards, getTransformCards]
    split
    · rw [all_begin begin1 (by simp), all_begin begin2 (by simp), if_neg (by simp), if_neg (by simp), takeWhile_begin begin1, takeWhile_begin begin2]
      simp only [ih]
    · exact ih _

private theorem materials_motion (io : NumIO K) {cosDeg : K → K} {n : Str} {g g' : List Str} (h : SameMotion io cosDeg n g g') (a b : List Str) (mats : List (Str × Material K)) :
    getMaterialCards io mats (a ++ (g' ++ b)) = getMaterialCards io mats (a ++ (g ++ b)) := by
  obtain ⟨first, more, rfl, k1, -⟩ := h.cards g (by simp)
  obtain ⟨first', more', rfl, k1', -⟩ := h.cards g' (by simp)
  have begin1 : BeginCard ((first :: more) ++ b) := fun l hl => by cases hl; exact k1
  have begin2 : BeginCard ((first' :: more') ++ b) := fun l hl => by cases hl; exact k1'
  induction a generalizing mats with
  | nil => rw [List.nil_append, List.nil_append, materials_skip io fun l hl => h.material l (List.mem_append_left _ hl), materials_skip io fun l hl => h.material l (List.mem_append_right _ hl)]
  | cons l a ih =>
    rw [List.cons_append (as := a), List.cons_append (as := a), getMaterialCards, getMaterialCards]
    have e : getMaterialCard io l (a ++ ((first' :: more') ++ b)) = getMaterialCard io l (a ++ ((first :: more) ++ b)) := by
      unfold getMaterialCard
      rw [takeWhile_begin begin1, takeWhile_begin begin2]
    rw [e]
    simp only [ih]

private theorem importances_motion (io : NumIO K) {cosDeg : K → K} {n : Str} {g g' : List Str} (h : SameMotion io cosDeg n g g') (a b : List Str) : getImportances (a ++ (g' ++ b)) = getImportances (a ++ (g ++ b)) := by
  have key : importancesGo [] none (a ++ (g' ++ b)) = importancesGo [] none (a ++ (g ++ b)) := by
    refine go_congr (fun d cur => ?_) a [] none
    have s1 := fun d => go_skip (ls := g) (fun l hl => h.importance l (by simp [hl])) d b
    have s2 := fun d => go_skip (ls := g') (fun l hl => h.importance l (by simp [hl])) d b
    cases cur with
    | none => rw [s1, s2]
    | some pt =>
      obtain ⟨p, t⟩ := pt
      obtain ⟨first, more, rfl, k1, -⟩ := h.cards g (by simp)
      obtain ⟨first', more', rfl, k1', -⟩ := h.cards g' (by simp)
      rw [List.cons_append, List.cons_append, go_ends k1, go_ends k1', ← List.cons_append, ← List.cons_append, s1, s2]
  unfold getImportances
  rw [key]

/-- **C120** (partial). Two texts that differ only in a TR card, and in which both cards have the same displacement and the same cosines, give the same run. Missing: cards with comments, see `C120_refuted`; cards that do not begin in the first column, with another number of
entries than 3, 9 or 12, or with the letters `imp`. -/
theorem C120_partial (e : Env K) (cosDeg : K → K) (quick : Bool) (output : Option (List Str)) (text text' title n : Str) (cells surfs a g g' b : List Str) (h : Blocks text title cells surfs (a ++ (g ++ b)))
    (h' : Blocks text' title cells surfs (a ++ (g' ++ b))) (hcards : SameMotion e.io cosDeg n g g') (hb : BeginCard b) : convert e cosDeg quick output text' = convert e cosDeg quick output text := by
  have key : readDeck e.io cosDeg (readText text') = readDeck e.io cosDeg (readText text) := by
    obtain ⟨b1, b2, k1, k2, k3⟩ := readText_blocks h e.io cosDeg
    obtain ⟨b1', b2', k1', k2', k3'⟩ := readText_blocks h' e.io cosDeg
    obtain ⟨rc, hrc⟩ := block_rest (readCell e.io cosDeg) removeInline_code fun l hl => h.cards l (List.mem_append_left _ hl)
    obtain ⟨rs, hrs⟩ := block_rest (classify e.io) stripDollar_code fun l hl => h.cards l (List.mem_append_right _ hl)
    rw [k3, k3', hrc _ _ k1, hrc _ _ k1']
    cases rc with
    | error x => rfl
    | ok cs =>
      simp only [Except.map, bind, Except.bind]
      rw [hrs _ _ k2, hrs _ _ k2']
      cases rs with
      | error x => rfl
      | ok ss =>
        simp only [Except.map]
        rw [importances_motion e.io hcards, transforms_motion e.io cosDeg hcards hb, materials_motion e.io hcards]
  unfold convert processDeck
  rw [key]

end

/-- The cosines of whole quarter turns; nothing is said of other angles. -/
private def quarter (x : ℚ) : ℚ := if x = 0 then 1 else if x = 180 then -1 else 0

private def env : Env ℚ :=
  { fuel := 100, io := mixedIO, fixed := formatF, sci := formatF, sci4 := fun x => (mixedIO.render x).take 10, sci3 := formatF, sqrt := id, degAtan := id, orderStr := id, orderInt := id }

private def top : Str := c!"title\n1 1 -7 -1 imp:n=1\n2 0 1 imp:n=0\n\n1 5 px 3\n\n"

private def written (text : Str) : Option Str :=
  match (convert env quarter true (some [c!"mcnp"]) text).run with
  | .ok (some [(_, .text t)]) => some t
  | _ => none

/-- A quarter turn, which is lost if there is a comment on the card. -/
theorem C120_refuted :
    written (top ++ c!"tr5 0 0 0 0 1 0 -1 0 0 0 0 1\nm1 1001 1.0\n") = some c!"C cell definitions\n1 1 -7.0 -1 IMP:N=1.0\n2 0 1 IMP:N=0.0\n\nC surface definitions\n1 p 0.0 1.0 0.0 3.0\n\nC material definitions\nC Material M1\nM1     1001 1.0\n" ∧
    written (top ++ c!"tr5 0 0 0 0 1 0 -1 0 0 0 0 1 $ turn it\nm1 1001 1.0\n") = some c!"C cell definitions\n1 1 -7.0 -1 IMP:N=1.0\n2 0 1 IMP:N=0.0\n\nC surface definitions\n1 p 1.0 0.0 0.0 3.0\n\nC material definitions\nC Material M1\nM1     1001 1.0\n" :=
  ⟨by decide +kernel, by decide +kernel⟩

/-! ## Two files that meet the hypotheses -/

private def card (second : Bool) : List Str := if second then [c!"*tr5 2.0 0 0 90 0 90\n", c!"     180 90 90\n", c!"     90 90 0\n"] else [c!"tr5 2 0 0 0 1 0 -1 0 0 0 0 1\n"]

private def data (second : Bool) : List Str := [c!"nps 100\n"] ++ (card second ++ [c!"m1 1001 1.0\n"])

private theorem blocks (second : Bool) : Blocks (top ++ (data second).flatten) c!"title\n" [c!"1 1 -7 -1 imp:n=1\n", c!"2 0 1 imp:n=0\n"] [c!"1 5 px 3\n"] (data second) where
  lines := ⟨[c!"1 1 -7 -1 imp:n=1\n", c!"2 0 1 imp:n=0\n"] ++ c!"\n" :: [c!"1 5 px 3\n"] ++ c!"\n" :: data second, c!"\n", c!"\n", by revert second; decide +kernel,
    fun l hl => line_of (by revert second l; decide +kernel), by revert second; decide +kernel, by unfold BlankLine; decide, by unfold BlankLine; decide⟩
  noMessage := fun a b e => by
    have := (hasInfix_iff c!"message" _).2 ⟨a, b, e⟩
    revert this
    decide +kernel
  cards := by decide +kernel

private theorem reads_all {io : NumIO ℚ} : ∀ {ws : List Str} {vs : List ℚ}, ws.map io.float = vs.map .ok → List.Forall₂ (fun w v => io.float w = .ok v) ws vs
  | [], [], _ => .nil
  | [], _ :: _, h => by cases h
  | _ :: _, [], h => by cases h
  | w :: ws, v :: vs, h => by
    rw [List.map_cons, List.map_cons, List.cons.injEq] at h
    exact .cons h.1 (reads_all h.2)

/-- The hypotheses of `C120_partial`: a quarter turn, with cosines on one line and with angles on three. -/
example : (∀ second, Blocks (top ++ (data second).flatten) c!"title\n" [c!"1 1 -7 -1 imp:n=1\n", c!"2 0 1 imp:n=0\n"] [c!"1 5 px 3\n"] ([c!"nps 100\n"] ++ (card second ++ [c!"m1 1001 1.0\n"]))) ∧ SameMotion env.io quarter c!"5" (card false) (card true) ∧
    BeginCard [c!"m1 1001 1.0\n"] := by
  refine ⟨blocks, ⟨fun g hg => ?_, fun l hl => not_imp (by revert l; decide +kernel), fun l hl => ?_, false, true, [2, 0, 0, 0, 1, 0, -1, 0, 0, 0, 0, 1], [2, 0, 0, 90, 0, 90, 180, 90, 90, 90, 90, 0],
    ⟨⟨by decide, by unfold IsTransformCard.NoBlank; decide, by decide, c!" 2 0 0 0 1 0 -1 0 0 0 0 1\n", _, rfl, by decide⟩, by decide, reads_all (by decide +kernel)⟩,
    ⟨⟨by decide, by unfold IsTransformCard.NoBlank; decide, by decide, c!" 2.0 0 0 90 0 90\n", _, rfl, by decide⟩, by decide, reads_all (by decide +kernel)⟩, by decide +kernel⟩, ?_⟩
  · simp only [List.mem_cons, List.not_mem_nil, or_false] at hg
    rcases hg with rfl | rfl <;>
      exact ⟨_, _, rfl, not_five (by decide), fun l hl => five (by revert l; decide), fun l hl => (line_of (l := l) (by revert l; decide)).imp fun _ h => ⟨h.1, .inr h.2⟩⟩
  · simp only [card, if_true, if_false, Bool.false_eq_true, List.cons_append, List.nil_append, List.mem_cons, List.not_mem_nil, or_false] at hl
    rcases hl with rfl | rfl | rfl | rfl <;> exact not_looks (by intro d t h; revert h; simp [List.dropWhile])
  · intro l hl
    cases hl
    exact not_five (by decide)

end Csg
