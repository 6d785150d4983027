import Verif.Spec.OtherCards
import Verif.Lemmas.InputFile
import Verif.Lemmas.CellText
import Verif.Lemmas.MixedIO
import Verif.Lemmas.FormatE
import Verif.Model.Outputs

/-!
# C112 and C113: other data cards, and lines after the blank line that ends the data block
-/

set_option linter.unusedSectionVars false

namespace Csg

open Spec

private theorem continues_false {l : Str} (h : ¬ FiveBlanks l) : continues l = false := by
  by_contra hh
  exact h (continues_iff.1 (by simpa using hh))

private theorem code_space {l : Str} (h : ∃ ch ∈ codeOf l, isSpace ch = false) : isspace (codeOf l) = false := by
  obtain ⟨ch, h1, h2⟩ := h
  by_contra hh
  simp only [isspace, Bool.not_eq_false, Bool.and_eq_true, List.all_eq_true] at hh
  rw [hh.2 ch h1] at h2
  cases h2

private theorem blank_space {l : Str} (h : BlankLine l) : isspace (codeOf l) = true := by
  have hd : '$' ∉ l := fun hm => absurd (h.2 _ hm) (by decide)
  rw [codeOf_plain hd]
  simp only [isspace, Bool.and_eq_true, List.all_eq_true]
  exact ⟨by cases l; exact absurd rfl h.1; rfl, h.2⟩

/-- A block does not depend on the lines after it. -/
theorem block_rest {α : Type} {clean : Str → Str} (parse : Str → Py α) (hclean : ∀ l, clean l = codeOf l) {ls : List Str} (h : ∀ l ∈ ls, ∃ ch ∈ codeOf l, isSpace ch = false) :
    ∃ r : Py (List α), ∀ blank rest, BlankLine blank → block clean parse (ls ++ blank :: rest) = r.map (·, rest) := by
  have go : ∀ (ls : List Str), (∀ l ∈ ls, ∃ ch ∈ codeOf l, isSpace ch = false) → ∀ card, ∃ r : Py (List α), ∀ blank rest, BlankLine blank → blockGo clean parse card (ls ++ blank :: rest) = r.map (·, rest) := by
    intro ls
    induction ls with
    | nil =>
      intro _ card
      cases hp : parse card with
      | error x =>
        refine ⟨.error x, fun blank rest hb => ?_⟩
        rw [List.nil_append, blockGo, hclean, blank_space hb, hp, if_neg (by simp)]
        rfl
      | ok c =>
        refine ⟨.ok [c], fun blank rest hb => ?_⟩
        rw [List.nil_append, blockGo, hclean, blank_space hb, hp, if_neg (by simp)]
        rfl
    | cons l ls ih =>
      intro h card
      have hl := code_space (h l (by simp))
      have ih := ih fun x hx => h x (List.mem_cons_of_mem _ hx)
      by_cases hc : continues (codeOf l) = true
      · obtain ⟨r, hr⟩ := ih (card ++ codeOf l)
        refine ⟨r, fun blank rest hb => ?_⟩
        rw [List.cons_append, blockGo, hclean, if_pos ⟨hc, by rw [hl]; simp⟩, hr _ _ hb]
      · cases hp : parse card with
        | error x =>
          refine ⟨.error x, fun blank rest hb => ?_⟩
          rw [List.cons_append, blockGo, hclean, if_neg fun h => hc h.1, hp]
          rfl
        | ok c =>
          obtain ⟨r, hr⟩ := ih (codeOf l)
          refine ⟨r.map (c :: ·), fun blank rest hb => ?_⟩
          rw [List.cons_append, blockGo, hclean, if_neg fun h => hc h.1, hp]
          simp only [bind, Except.bind, hl, hr _ _ hb, Bool.false_eq_true, if_false]
          cases r <;> rfl
  cases ls with
  | nil => exact ⟨.ok [], fun blank rest hb => by rw [List.nil_append, block, hclean, blank_space hb, if_pos rfl]; rfl⟩
  | cons l ls =>
    obtain ⟨r, hr⟩ := go ls (fun x hx => h x (List.mem_cons_of_mem _ hx)) (codeOf l)
    exact ⟨r, fun blank rest hb => by rw [List.cons_append, block, hclean, code_space (h l (by simp)), if_neg (by simp), hr _ _ hb]⟩

theorem takeWhile_begin {a x : List Str} (h : BeginCard x) : (a ++ x).takeWhile continues = a.takeWhile continues := by
  induction a with
  | nil =>
    cases x with
    | nil => rfl
    | cons l x =>
      have : continues l = false := continues_false (h l rfl)
      rw [List.nil_append, List.takeWhile_cons, this]
      rfl
  | cons l a ih =>
    rw [List.cons_append, List.takeWhile_cons, List.takeWhile_cons, ih]

private theorem not_material {l : Str} (h : ¬ LooksLikeMaterial l) : isMaterialLine l = false := by
  by_contra hh
  exact h (isMaterialLine_iff.1 (by simpa using hh))

private theorem not_transform {l : Str} (h : ∀ d t, l ≠ trName d t) : isTransformLine l = false := by
  by_contra hh
  unfold isTransformLine at hh
  split at hh
  · exact h true _ rfl
  · exact h false _ rfl
  · simp at hh

theorem not_importance {l : Str} (h : ∀ a b, l ≠ a ++ c!"imp" ++ b) : hasInfix c!"imp" l = false := by
  by_contra hh
  obtain ⟨a, b, e⟩ := (hasInfix_iff _ _).1 (by simpa using hh)
  exact h a b e

section
variable {K : Type} [Field K] [LinearOrder K]
variable {a extra b : List Str}

/-- Lines can be put before the rest, for each of the three readers. -/
theorem materials_extra (io : NumIO K) (hx : ∀ l ∈ extra, ¬ LooksLikeMaterial l) (h1 : BeginCard extra) (h2 : BeginCard b) (mats : List (Str × Material K)) :
    getMaterialCards io mats (a ++ (extra ++ b)) = getMaterialCards io mats (a ++ b) := by
  have h12 : BeginCard (extra ++ b) := by
    cases extra with
    | nil => exact h2
    | cons => exact h1
  induction a generalizing mats with
  | nil =>
    rw [List.nil_append, List.nil_append]
    clear h1 h12
    induction extra with
    | nil => rfl
    | cons l ls ih =>
      rw [List.cons_append, getMaterialCards, not_material (hx l (by simp)), if_neg (by simp)]
      exact ih fun x h => hx x (List.mem_cons_of_mem _ h)
  | cons l a ih =>
    rw [List.cons_append, List.cons_append, getMaterialCards, getMaterialCards]
    have e : getMaterialCard io l (a ++ (extra ++ b)) = getMaterialCard io l (a ++ b) := by
      unfold getMaterialCard
      rw [takeWhile_begin h12, takeWhile_begin h2]
    rw [e, ih]
    simp only [ih]

theorem all_begin {x : List Str} (h : BeginCard x) (hx : x ≠ []) : (a ++ x).all continues = false := by
  cases x with
  | nil => exact absurd rfl hx
  | cons l x =>
    have : continues l = false := continues_false (h l rfl)
    simp [this]

theorem five_not_transform {l : Str} (h : FiveBlanks l) : isTransformLine l = false := by
  obtain ⟨t, rfl⟩ := h
  rfl

/-- After every line that begins like a TR card comes a line that is not its continuation. -/
def Followed (a : List Str) : Prop := ∀ p l q, a = p ++ l :: q → isTransformLine l = true → q.all continues = false

private theorem followed_of (h : EndOther a) : Followed a := by
  rintro p l q e hl
  rcases h with rfl | ⟨before, l', more, rfl, h1, h2, -, h4⟩
  · simp at e
  · by_contra hq
    have hq : ∀ x ∈ q, continues x = true := by simpa using hq
    rcases List.append_eq_append_iff.1 e with ⟨as, e1, e2⟩ | ⟨cs, e1, e2⟩
    · cases as with
      | nil =>
        rw [List.nil_append] at e2
        cases e2
        rw [not_transform h2] at hl
        cases hl
      | cons y as =>
        rw [List.cons_append, List.cons.injEq] at e2
        have : l ∈ more := by rw [e2.2]; simp
        rw [five_not_transform (h4 l this).1] at hl
        cases hl
    · cases cs with
      | nil =>
        rw [List.nil_append] at e2
        cases e2
        rw [not_transform h2] at hl
        cases hl
      | cons y cs =>
        rw [List.cons_append, List.cons.injEq] at e2
        have := hq l' (by rw [e2.2]; simp)
        rw [continues_false h1] at this
        cases this

theorem transforms_extra (io : NumIO K) (cosDeg : K → K) (hx : ∀ l ∈ extra, ∀ d t, l ≠ trName d t) (h1 : BeginCard extra) (h2 : BeginCard b) (hend : b ≠ [] ∨ Followed a) (trs : List (Str × Transform K)) :
    getTransformCards io cosDeg trs (a ++ (extra ++ b)) = getTransformCards io cosDeg trs (a ++ b) := by
  have h12 : BeginCard (extra ++ b) := by
    cases extra with
    | nil => exact h2
    | cons => exact h1
  induction a generalizing trs with
  | nil =>
    rw [List.nil_append, List.nil_append]
    clear h1 h12 hend
    induction extra with
    | nil => rfl
    | cons l ls ih =>
      rw [List.cons_append, getTransformCards, not_transform (hx l (by simp)), if_neg (by simp)]
      exact ih fun x h => hx x (List.mem_cons_of_mem _ h)
  | cons l a ih =>
    have ih := ih (hend.imp id fun h p l' q e => h (l :: p) l' q (by rw [e]; rfl))
    rw [List.cons_append, List.cons_append, getTransformCards, getTransformCards]
    by_cases hl : isTransformLine l = true
    · have e1 : (a ++ b).all continues = false := by
        rcases hend with h | h
        · exact all_begin h2 h
        · rw [List.all_append, h [] l a rfl hl]; rfl
      have e2 : (a ++ (extra ++ b)).all continues = false := by
        rcases hend with h | h
        · exact all_begin h12 (by simp [h])
        · rw [List.all_append, h [] l a rfl hl]; rfl
      rw [if_pos hl, if_pos hl, e1, e2, if_neg (by simp), if_neg (by simp), takeWhile_begin h12, takeWhile_begin h2]
      simp only [ih]
    · rw [if_neg hl, if_neg hl, ih]

theorem go_congr {t t' : List Str} (h : ∀ d cur, importancesGo d cur t = importancesGo d cur t') (a : List Str) (d : List (Particle × Str)) (cur : Option (Particle × Str)) :
    importancesGo d cur (a ++ t) = importancesGo d cur (a ++ t') := by
  induction a generalizing d cur with
  | nil => exact h d cur
  | cons l a ih =>
    simp only [List.cons_append, importancesGo, ih]

theorem go_skip {ls : List Str} (h : ∀ l ∈ ls, ∀ a b, l ≠ a ++ c!"imp" ++ b) (d : List (Particle × Str)) (b : List Str) : importancesGo d none (ls ++ b) = importancesGo d none b := by
  induction ls with
  | nil => rfl
  | cons l ls ih =>
    rw [List.cons_append, importancesGo]
    simp only [not_importance (h l (by simp)), Bool.false_eq_true, if_false]
    exact ih fun x hx => h x (List.mem_cons_of_mem _ hx)

/-- A line that does not continue a card ends the card before it. -/
theorem go_ends {l : Str} (h : ¬ FiveBlanks l) (ls : List Str) (d : List (Particle × Str)) (p : Particle) (t : Str) : importancesGo d (some (p, t)) (l :: ls) = importancesGo (dictSet d p t) none (l :: ls) := by
  rw [importancesGo, importancesGo]
  simp only [continues_false h, Bool.false_eq_true, if_false]

private theorem importances_extra (hx : ∀ l ∈ extra, OtherLine l) (h1 : BeginCard extra) (h2 : BeginCard b) (hend : b ≠ [] ∨ EndOther a) :
    getImportances (a ++ (extra ++ b)) = getImportances (a ++ b) := by
  have key : importancesGo [] none (a ++ (extra ++ b)) = importancesGo [] none (a ++ b) := by
    have hx' : ∀ l ∈ extra, ∀ a b, l ≠ a ++ c!"imp" ++ b := fun l hl => (hx l hl).importance
    by_cases hb : b = []
    · subst hb
      rw [List.append_nil, List.append_nil]
      rcases hend.resolve_left (fun h => h rfl) with rfl | ⟨before, l, more, rfl, k1, -, k2, k3⟩
      · rw [List.nil_append, ← List.append_nil extra, go_skip hx']
      · have e : ∀ ls : List Str, (∀ x ∈ ls, ∀ a b, x ≠ a ++ c!"imp" ++ b) → ∀ d cur, importancesGo d cur (before ++ l :: ls) = importancesGo d cur (before ++ [l]) := by
          intro ls hls
          apply go_congr
          have none : ∀ d, importancesGo d none (l :: ls) = importancesGo d none [l] := by
            intro d
            rw [importancesGo, importancesGo]
            simp only [not_importance k2, Bool.false_eq_true, if_false]
            rw [← List.append_nil ls, go_skip hls]
          intro d cur
          cases cur with
          | none => exact none d
          | some pt => rw [go_ends k1, go_ends k1, none]
        rw [List.append_assoc, List.cons_append, e _ ?_, e _ fun x hx => (k3 x hx).2]
        intro x hm
        rcases List.mem_append.1 hm with hm | hm
        exacts [(k3 x hm).2, hx' x hm]
    · refine go_congr (fun d cur => ?_) a [] none
      cases cur with
      | none => exact go_skip hx' d b
      | some pt =>
        obtain ⟨p, t⟩ := pt
        match b, hb, h2 with
        | y :: b, _, h2 =>
          rw [go_ends (h2 y rfl)]
          match extra, h1, hx' with
          | [], _, _ => rw [List.nil_append, go_ends (h2 y rfl)]
          | x :: ex, h1, hx' => rw [List.cons_append, go_ends (h1 x rfl), ← List.cons_append, go_skip hx']
  unfold getImportances
  rw [key]

theorem readText_blocks {text title : Str} {cells surfs data : List Str} (h : Blocks text title cells surfs data) (io : NumIO K) (cosDeg : K → K) :
    ∃ blank₁ blank₂, BlankLine blank₁ ∧ BlankLine blank₂ ∧ readDeck io cosDeg (readText text) = (do
      let (cells, lines) ← block removeInlineComment (readCell io cosDeg) (cells ++ blank₁ :: (surfs ++ blank₂ :: data))
      let (surfs, lines) ← block stripDollar (classify io) lines
      let imps ← getImportances lines
      let trs ← getTransformCards io cosDeg [] lines
      let mats ← getMaterialCards io [] lines
      .ok { title := title, cells := cells, surfaces := surfs, last := surfs.foldl (fun m s => if m < s.id then s.id else m) 0, importances := imps, transforms := trs,
            materials := mats, bounding := [0, 0, 0, 0, 0, 0] }) := by
  obtain ⟨body, b1, b2, k1, k2, k3, k4, k5⟩ := h.lines
  refine ⟨b1, b2, k4, k5, ?_⟩
  have hm : hasInfix c!"message" title = false := by
    by_contra hh
    obtain ⟨a, b, e⟩ := (hasInfix_iff _ _).1 (by simpa using hh)
    exact h.noMessage a b e
  have hs : setTitle (title :: body) = .ok (title, body) := by
    unfold setTitle
    show (if hasInfix c!"message" title = true then _ else _) = _
    rw [hm]
    rfl
  have hd : dropComments body = .ok (cells ++ b1 :: (surfs ++ b2 :: data)) := by
    rw [dropComments_filter, k3]
    intro l hl e
    obtain ⟨t, -, e'⟩ := k2 l (List.mem_cons_of_mem _ hl)
    rw [e] at e'
    simp at e'
  rw [readText_layout k1 k2]
  unfold readDeck
  rw [hs]
  simp only [bind, Except.bind]
  rw [hd]

/-- **C112** (partial). Two texts that differ in lines of the data block that belong to no material, TR or importance card give the same run. The lines are inserted between cards. Missing: other cards whose lines look
like those of materials or contain the letters `imp`; and a text that ends in a TR card or an importance card, which the program cannot read (`hend`). -/
theorem C112_partial (e : Env K) (cosDeg : K → K) (quick : Bool) (output : Option (List Str)) (text text' title : Str) (cells surfs a extra b : List Str) (h : Blocks text title cells surfs (a ++ b))
    (h' : Blocks text' title cells surfs (a ++ (extra ++ b))) (hx : ∀ l ∈ extra, OtherLine l) (h1 : BeginCard extra) (h2 : BeginCard b) (hend : b ≠ [] ∨ EndOther a) :
    convert e cosDeg quick output text' = convert e cosDeg quick output text := by
  have key : readDeck e.io cosDeg (readText text') = readDeck e.io cosDeg (readText text) := by
    obtain ⟨b1, b2, k1, k2, k3⟩ := readText_blocks h e.io cosDeg
    obtain ⟨b1', b2', k1', k2', k3'⟩ := readText_blocks h' e.io cosDeg
    obtain ⟨rc, hrc⟩ := block_rest (readCell e.io cosDeg) removeInline_code fun l hl => h.cards l (List.mem_append_left _ hl)
    obtain ⟨rs, hrs⟩ := block_rest (classify e.io) stripDollar_code fun l hl => h.cards l (List.mem_append_right _ hl)
    rw [k3, k3', hrc _ _ k1, hrc _ _ k1']
    cases rc with
    | error x => rfl
    | ok cs =>
      simp only [Except.map, bind, Except.bind]
      rw [hrs _ _ k2, hrs _ _ k2']
      cases rs with
      | error x => rfl
      | ok ss =>
        simp only [Except.map]
        rw [importances_extra hx h1 h2 hend, transforms_extra e.io cosDeg (fun l hl => (hx l hl).transform) h1 h2 (hend.imp id followed_of), materials_extra e.io (fun l hl => (hx l hl).material) h1 h2]
  unfold convert processDeck
  rw [key]

private theorem blank_other {l : Str} (h : BlankLine l) : OtherLine l where
  material := by
    rintro ⟨k, d, t, e, -⟩
    exact absurd (h.2 'm' (by rw [e]; simp)) (by decide)
  transform := by
    intro d t e
    exact absurd (h.2 'r' (by rw [e]; cases d <;> simp [trName])) (by decide)
  importance := by
    intro a b e
    exact absurd (h.2 'm' (by rw [e]; simp)) (by decide)

/-- **C113** (partial). Lines after the blank line that ends the data block change nothing. Missing: lines that look like those of materials, TR cards and importance cards. -/
theorem C113_partial (e : Env K) (cosDeg : K → K) (quick : Bool) (output : Option (List Str)) (text text' title blank : Str) (cells surfs data after : List Str) (h : Blocks text title cells surfs data)
    (h' : Blocks text' title cells surfs (data ++ blank :: after)) (hb : BlankLine blank) (hb' : ¬ FiveBlanks blank) (hx : ∀ l ∈ after, OtherLine l) (hend : EndOther data) :
    convert e cosDeg quick output text' = convert e cosDeg quick output text := by
  refine C112_partial e cosDeg quick output text text' title cells surfs data (blank :: after) [] (by rwa [List.append_nil]) (by rwa [List.append_nil]) ?_ ?_ ?_ (.inr hend)
  · intro l hl
    rcases List.mem_cons.1 hl with rfl | hl
    exacts [blank_other hb, hx l hl]
  · intro l hl
    cases hl
    exact hb'
  · intro l hl
    cases hl

/-- What comes after that line is read as if the line were not there. -/
theorem C113_read_on (e : Env K) (cosDeg : K → K) (quick : Bool) (output : Option (List Str)) (text text' title blank l : Str) (cells surfs data after : List Str)
    (h : Blocks text title cells surfs (data ++ l :: after)) (h' : Blocks text' title cells surfs (data ++ blank :: l :: after)) (hb : BlankLine blank) (hb' : ¬ FiveBlanks blank) (hl : ¬ FiveBlanks l) :
    convert e cosDeg quick output text' = convert e cosDeg quick output text := by
  refine C112_partial e cosDeg quick output text text' title cells surfs data [blank] (l :: after) h h' ?_ ?_ ?_ (.inl (by simp))
  · intro x hx
    obtain rfl := List.mem_singleton.1 hx
    exact blank_other hb
  · intro x hx
    cases hx
    exact hb'
  · intro x hx
    cases hx
    exact hl

end

private def env : Env ℚ :=
  { fuel := 100, io := mixedIO, fixed := formatF, sci := formatF, sci4 := fun x => (mixedIO.render x).take 10, sci3 := formatF, sqrt := id, degAtan := id, orderStr := id, orderInt := id }

private def top : Str := c!"title\n1 1 -7 -1 imp:n=1\n2 0 1 imp:n=0\n\n1 so 3\n\n"

/-- The MCNP file that a run writes. -/
private def written (text : Str) : Option Str :=
  match (convert env id true (some [c!"mcnp"]) text).run with
  | .ok (some [(_, .text t)]) => some t
  | _ => none

/-- A comment for a tally that contains the letters `imp`, as in `simple`: there is an exception. -/
theorem C112_refuted : (written (top ++ c!"m1 1001 1.0\nnps 100\n")).isSome = true ∧ (written (top ++ c!"m1 1001 1.0\nfc4 a plain sphere\nnps 100\n")).isSome = true ∧
    (convert env id true (some [c!"mcnp"]) (top ++ c!"m1 1001 1.0\nfc4 a simple sphere\nnps 100\n")).run = .error .indexError :=
  ⟨by decide +kernel, by decide +kernel, by decide +kernel⟩

/-- A material after the blank line that ends the data block replaces the one before it. -/
theorem C113_refuted :
    written (top ++ c!"m1 1001 1.0\n\nsome notes\n") = some c!"C cell definitions\n1 1 -7.0 -1 IMP:N=1.0\n2 0 1 IMP:N=0.0\n\nC surface definitions\n1 s 0.0 0.0 0.0 3.0\n\nC material definitions\nC Material M1\nM1     1001 1.0\n" ∧
    written (top ++ c!"m1 1001 1.0\n\nm1 8016 1.0\n") = some c!"C cell definitions\n1 1 -7.0 -1 IMP:N=1.0\n2 0 1 IMP:N=0.0\n\nC surface definitions\n1 s 0.0 0.0 0.0 3.0\n\nC material definitions\nC Material M1\nM1     8016 1.0\n" :=
  ⟨by decide +kernel, by decide +kernel⟩

/-! Cases that meet the hypotheses. -/

private def topCells : List Str := [c!"1 1 -7 -1 imp:n=1\n", c!"2 0 1 imp:n=0\n"]

private theorem line_of {l : Str} (h : l.getLast? = some '\n' ∧ '\n' ∉ l.dropLast) : ∃ t, '\n' ∉ t ∧ l = t ++ c!"\n" :=
  ⟨l.dropLast, h.2, by
    have := List.dropLast_append_getLast? _ h.1
    exact this.symm⟩

private theorem top_blocks (data : List Str) (h : ∀ l ∈ data, (l.getLast? = some '\n' ∧ '\n' ∉ l.dropLast) ∧ l.head? ≠ some 'c' ∧ l.map Char.toLower = l) :
    Blocks (top ++ data.flatten) c!"title\n" topCells [c!"1 so 3\n"] data where
  lines := by
    refine ⟨topCells ++ c!"\n" :: c!"1 so 3\n" :: c!"\n" :: data, c!"\n", c!"\n", ?_, ?_, ?_, ⟨by decide, by decide⟩, ⟨by decide, by decide⟩⟩
    · rw [List.map_append, show top.map Char.toLower = top by decide +kernel, List.map_flatten, List.map_congr_left fun l hl => (h l hl).2.2, List.map_id']
      rfl
    · intro l hl
      simp only [topCells, List.cons_append, List.nil_append, List.mem_cons] at hl
      rcases hl with rfl | rfl | rfl | rfl | rfl | rfl | hl
      all_goals first | exact line_of (h l hl).1 | exact line_of (by decide)
    · have e : data.filter (fun l => l.head? ≠ some 'c') = data := List.filter_eq_self.2 fun l hl => by simpa using (h l hl).2.1
      rw [show topCells ++ c!"\n" :: c!"1 so 3\n" :: c!"\n" :: data = (topCells ++ [c!"\n", c!"1 so 3\n", c!"\n"]) ++ data from rfl, List.filter_append, e]
      rfl
  noMessage := fun a b e => by
    have := (hasInfix_iff c!"message" _).2 ⟨a, b, e⟩
    revert this
    decide +kernel
  cards := by decide +kernel

private theorem other_importance {l : Str} (h : hasInfix c!"imp" l = false) : ∀ a b, l ≠ a ++ c!"imp" ++ b := fun a b e => by
  rw [(hasInfix_iff c!"imp" l).2 ⟨a, b, e⟩] at h
  cases h

private theorem other_of {l : Str} (h1 : isMaterialLine l = false) (h2 : isTransformLine l = false) (h3 : hasInfix c!"imp" l = false) : OtherLine l where
  material := fun h => by rw [isMaterialLine_iff.2 h] at h1; cases h1
  transform := by
    rintro d t rfl
    cases d <;> cases h2
  importance := other_importance h3

private theorem not_five {l : Str} (h : continues l = false) : ¬ FiveBlanks l := fun hh => by
  rw [continues_iff.2 hh] at h
  cases h

/-- `C112_partial`: a comment for a tally is put between the material and the last card. -/
example (output : Option (List Str)) : convert env id true output (top ++ [c!"m1 1001 1.0\n", c!"fc4 a plain sphere\n", c!"     of water\n", c!"nps 100\n"].flatten) =
    convert env id true output (top ++ [c!"m1 1001 1.0\n", c!"nps 100\n"].flatten) := by
  refine C112_partial env id true output _ _ c!"title\n" topCells [c!"1 so 3\n"] [c!"m1 1001 1.0\n"] [c!"fc4 a plain sphere\n", c!"     of water\n"] [c!"nps 100\n"] (top_blocks _ (by decide +kernel))
    (top_blocks _ (by decide +kernel)) ?_ ?_ ?_ (.inl (by simp))
  · intro l hl
    simp only [List.mem_cons, List.not_mem_nil, or_false] at hl
    rcases hl with rfl | rfl <;> exact other_of (by decide +kernel) (by decide +kernel) (by decide +kernel)
  · intro l hl
    cases hl
    exact not_five (by decide)
  · intro l hl
    cases hl
    exact not_five (by decide)

/-- `C113_partial`. -/
example (output : Option (List Str)) : convert env id true output (top ++ [c!"m1 1001 1.0\n", c!"\n", c!"some notes\n"].flatten) = convert env id true output (top ++ [c!"m1 1001 1.0\n"].flatten) := by
  refine C113_partial env id true output _ _ c!"title\n" c!"\n" topCells [c!"1 so 3\n"] [c!"m1 1001 1.0\n"] [c!"some notes\n"] (top_blocks _ (by decide +kernel)) (top_blocks _ (by decide +kernel))
    ⟨by decide, by decide⟩ (not_five (by decide)) ?_ ?_
  · intro l hl
    obtain rfl := List.mem_singleton.1 hl
    exact other_of (by decide +kernel) (by decide +kernel) (by decide +kernel)
  · refine .inr ⟨[], _, [], rfl, not_five (by decide), ?_, (other_importance (by decide +kernel)), by simp⟩
    rintro d t e
    cases d <;> simp [trName] at e

/-- `C113_read_on`. -/
example (output : Option (List Str)) : convert env id true output (top ++ [c!"m1 1001 1.0\n", c!"\n", c!"m2 8016 1.0\n"].flatten) =
    convert env id true output (top ++ [c!"m1 1001 1.0\n", c!"m2 8016 1.0\n"].flatten) :=
  C113_read_on env id true output _ _ c!"title\n" c!"\n" c!"m2 8016 1.0\n" topCells [c!"1 so 3\n"] [c!"m1 1001 1.0\n"] [] (top_blocks _ (by decide +kernel)) (top_blocks _ (by decide +kernel))
    ⟨by decide, by decide⟩ (not_five (by decide)) (not_five (by decide))

end Csg
