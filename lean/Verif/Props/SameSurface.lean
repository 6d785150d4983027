import Verif.Spec.SameSurface
import Verif.Props.OtherCards
import Verif.Props.InputFile
import Verif.Lemmas.FormatE
import Verif.Lemmas.MixedIO

/-!
# C121: how a surface card is written changes nothing

`C121_partial`: surface cards may be replaced by others with the same words for number, TR number and mnemonic and the same values. `C121_refuted`: not if a line is continued with `&`, or a number is written with the letter `d`.
-/

set_option linter.unusedSectionVars false

namespace Csg

open Spec

section
variable {K : Type} [Field K] [LinearOrder K] [IsStrictOrderedRing K]

private theorem classify_same (io : NumIO K) {g g' : List Str} (h : SameSurfaceCard io g g') : classify io (cardText g') = classify io (cardText g) := by
  obtain ⟨number, tr, mnemonic, ws, ws', values, h1, h2, h3, h4, h5⟩ := h
  have plain : ∀ g : List Str, stripDollar (cardText g) = cardText g := by
    intro g
    rw [stripDollar_code]
    refine codeOf_plain fun hd => ?_
    obtain ⟨l, -, hl⟩ := List.mem_flatMap.1 hd
    have := List.mem_takeWhile_imp hl
    simp at this
  have len : ws'.length = ws.length := h5.length_eq.trans h4.length_eq.symm
  have words : Coeffs.ofWords io ws' = Coeffs.ofWords io ws := by
    unfold Coeffs.ofWords
    rw [len]
    congr 1
    funext i
    have get : ∀ {ws : List Str}, List.Forall₂ (fun w v => io.float w = .ok v) ws values → (pyGet ws i >>= fun w => io.float w) = pyGet values i := by
      intro ws h
      unfold pyGet
      by_cases hi : i < ws.length
      · have hi' : i < values.length := h.length_eq ▸ hi
        rw [List.getElem?_eq_getElem hi, List.getElem?_eq_getElem hi']
        exact (List.forall₂_iff_get.1 h).2 i hi hi'
      · rw [List.getElem?_eq_none (by omega), List.getElem?_eq_none (by rw [← h.length_eq]; omega)]
        rfl
    exact (get h5).trans (get h4).symm
  unfold classify
  rw [plain, plain, h1, h2]
  congr 1
  rcases h3 with ⟨rfl, hp⟩ | ⟨t, rfl, hp⟩
  · have no : ∀ ws, hasTransform io (number :: ([] ++ mnemonic :: ws)) = false := fun ws => by
      show (io.parse mnemonic).isSome = false
      rw [hp]
      rfl
    unfold readFields
    rw [no, no]
    simp only [Bool.false_eq_true, if_false, List.nil_append, List.drop_succ_cons, List.drop_zero, words]
    rfl
  · have yes : ∀ ws, hasTransform io (number :: ([t] ++ mnemonic :: ws)) = true := fun ws => hp
    unfold readFields
    rw [yes, yes]
    simp only [if_true, List.cons_append, List.nil_append, List.drop_succ_cons, List.drop_zero, words]
    rfl

private theorem not_blank {l : Str} (h : ∃ ch ∈ codeOf l, isSpace ch = false) : isspace (codeOf l) = false := by
  cases hh : isspace (codeOf l) with
  | false => rfl
  | true =>
    obtain ⟨ch, hch, hs⟩ := h
    rw [(isspace_iff.1 hh).2 ch hch] at hs
    cases hs

private theorem code_continues {l : Str} : continues (codeOf l) = true ↔ FiveBlanks l := by
  rw [fiveBlanks_iff]
  constructor
  · rintro ⟨t, e⟩
    exact ⟨t ++ l.dropWhile (· ≠ '$'), by rw [← List.append_assoc, ← e]; exact (List.takeWhile_append_dropWhile).symm⟩
  · rintro ⟨t, rfl⟩
    exact ⟨codeOf t, by simp [codeOf]⟩

/-- A block of cards, read or not. -/
theorem block_all {α : Type} {clean : Str → Str} (parse : Str → Py α) (hclean : ∀ l, clean l = codeOf l) {gs : List (List Str)} (h : ∀ g ∈ gs, CardOf g) {blank : Str} (hb : BlankLine blank) (rest : List Str) :
    block clean parse (gs.flatten ++ blank :: rest) = ((gs.map cardText).mapM parse).map (·, rest) := by
  have hblank : isspace (codeOf blank) = true := by
    rw [codeOf_plain fun hd => absurd (hb.2 _ hd) (by decide)]
    exact isspace_iff.2 hb
  have more : ∀ (more : List Str), (∀ l ∈ more, FiveBlanks l ∧ ∃ ch ∈ codeOf l, isSpace ch = false) → ∀ card r, blockGo clean parse card (more ++ r) = blockGo clean parse (card ++ more.flatMap codeOf) r := by
    intro more
    induction more with
    | nil => intro _ card r; simp
    | cons l more ih =>
      intro hm card r
      rw [List.cons_append, blockGo, hclean, if_pos ⟨code_continues.2 (hm l (by simp)).1, by rw [not_blank (hm l (by simp)).2]; simp⟩, ih (fun x hx => hm x (by simp [hx])), List.flatMap_cons, List.append_assoc]
  have go : ∀ (gs : List (List Str)), (∀ g ∈ gs, CardOf g) → ∀ card, blockGo clean parse card (gs.flatten ++ blank :: rest) = ((card :: gs.map cardText).mapM parse).map (·, rest) := by
    intro gs
    induction gs with
    | nil =>
      intro _ card
      rw [List.flatten_nil, List.nil_append, blockGo, hclean, hblank, if_neg (by simp), List.map_nil, List.mapM_cons, List.mapM_nil]
      cases parse card <;> rfl
    | cons g gs ih =>
      intro hg card
      obtain ⟨first, m, rfl, k1, k2, k3⟩ := hg g (by simp)
      rw [List.flatten_cons, List.append_assoc, List.cons_append, blockGo, hclean, if_neg fun hh => k1 (code_continues.1 hh.1), not_blank (k3 first (by simp)), more m fun l hl => ⟨k2 l hl, k3 l (by simp [hl])⟩,
        ih fun x hx => hg x (by simp [hx])]
      rw [List.map_cons, show cardText (first :: m) = codeOf first ++ m.flatMap codeOf from rfl]
      generalize (codeOf first ++ m.flatMap codeOf) :: gs.map cardText = cards
      rw [List.mapM_cons]
      cases parse card with
      | error x => rfl
      | ok c => cases List.mapM parse cards <;> rfl
  cases gs with
  | nil =>
    rw [List.flatten_nil, List.nil_append, block, hclean, hblank, if_pos rfl]
    rfl
  | cons g gs =>
    obtain ⟨first, m, rfl, k1, k2, k3⟩ := h g (by simp)
    rw [List.flatten_cons, List.append_assoc, List.cons_append, block, hclean, not_blank (k3 first (by simp)), if_neg (by simp), more m fun l hl => ⟨k2 l hl, k3 l (by simp [hl])⟩, go gs fun x hx => h x (by simp [hx])]
    rfl

theorem blocks_of {text title : Str} {cells surfs data : List (List Str)} (h : Layout text title cells surfs data) : Blocks text title cells.flatten surfs.flatten data.flatten where
  lines := by
    obtain ⟨body, b1, b2, k1, k2, -, k3, k4, k5⟩ := h.lines
    exact ⟨body, b1, b2, k1, k2, k3, k4, k5⟩
  noMessage := h.noMessage
  cards := by
    intro l hl
    rw [← List.flatten_append] at hl
    obtain ⟨g, hg, hl⟩ := List.mem_flatten.1 hl
    obtain ⟨first, more, rfl, -, -, k⟩ := h.cards g hg
    exact k l hl

/-- **C121** (partial). Two texts that differ only in surface cards, each of which says the same in both, give the same run. Missing: lines continued with `&` and numbers written with the letter `d`, see `C121_refuted`. -/
theorem C121_partial (e : Env K) (cosDeg : K → K) (quick : Bool) (output : Option (List Str)) (text text' title : Str) (cells surfs surfs' data : List (List Str)) (h : Layout text title cells surfs data)
    (h' : Layout text' title cells surfs' data) (hs : List.Forall₂ (SameSurfaceCard e.io) surfs surfs') : convert e cosDeg quick output text' = convert e cosDeg quick output text := by
  have same : (surfs'.map cardText).mapM (classify e.io) = (surfs.map cardText).mapM (classify e.io) := by
    clear h h'
    induction hs with
    | nil => rfl
    | cons hg _ ih => rw [List.map_cons, List.map_cons, List.mapM_cons, List.mapM_cons, ih, classify_same e.io hg]
  have key : readDeck e.io cosDeg (readText text') = readDeck e.io cosDeg (readText text) := by
    obtain ⟨b1, b2, k1, k2, k3⟩ := readText_blocks (blocks_of h) e.io cosDeg
    obtain ⟨b1', b2', k1', k2', k3'⟩ := readText_blocks (blocks_of h') e.io cosDeg
    obtain ⟨rc, hrc⟩ := block_rest (readCell e.io cosDeg) removeInline_code fun l hl => (blocks_of h).cards l (List.mem_append_left _ hl)
    rw [k3, k3', hrc _ _ k1, hrc _ _ k1']
    cases rc with
    | error x => rfl
    | ok cs =>
      simp only [Except.map, bind, Except.bind]
      rw [block_all (classify e.io) stripDollar_code (fun g hg => h.cards g (List.mem_append_right _ hg)) k2, block_all (classify e.io) stripDollar_code (fun g hg => h'.cards g (List.mem_append_right _ hg)) k2', same]
  unfold convert processDeck
  rw [key]

end

private def env : Env ℚ :=
  { fuel := 100, io := mixedIO, fixed := formatF, sci := formatF, sci4 := fun x => (mixedIO.render x).take 10, sci3 := formatF, sqrt := id, degAtan := id, orderStr := id, orderInt := id }

private def top : Str := c!"title\n1 1 -7 -1 imp:n=1\n2 0 1 imp:n=0\n\n"

/-- A sphere that is read from one line is not read from two lines with `&` at the end of the first, and not if its radius is written as `3d0`. -/
theorem C121_refuted :
    (convert env id true (some [c!"mcnp"]) (top ++ c!"1 s 1 0 0 3\n\nm1 1001 1.0\n")).run =
      .ok (some [(.mcnp, .text c!"C cell definitions\n1 1 -7.0 -1 IMP:N=1.0\n2 0 1 IMP:N=0.0\n\nC surface definitions\n1 s 1.0 0.0 0.0 3.0\n\nC material definitions\nC Material M1\nM1     1001 1.0\n")]) ∧
    (convert env id true (some [c!"mcnp"]) (top ++ c!"1 s 1 0 &\n0 3\n\nm1 1001 1.0\n")).run = .error .valueError ∧ (convert env id true (some [c!"mcnp"]) (top ++ c!"1 s 1 0 0 3d0\n\nm1 1001 1.0\n")).run = .error .valueError :=
  ⟨by decide +kernel, by decide +kernel, by decide +kernel⟩

/-! ## Two files that meet the hypotheses -/

private def surfaces (second : Bool) : List (List Str) :=
  if second then [[c!"1  s 1.0 0.0 $ the ball\n", c!"      0 3 $ radius\n"], [c!"2 5 so 9.00\n"]] else [[c!"1 s 1 0 0 3\n"], [c!"2 5 so 9\n"]]
private def saidCells : List (List Str) := [[c!"1 1 -7 -1 imp:n=1\n"], [c!"2 0 1 -2 imp:n=1\n"], [c!"3 0 2 imp:n=0\n"]]
private def saidData : List (List Str) := [[c!"tr5 0 0 1\n"], [c!"m1 1001 1.0\n"]]
private def text (second : Bool) : Str := c!"title\n" ++ saidCells.flatten.flatten ++ c!"\n" ++ (surfaces second).flatten.flatten ++ c!"\n" ++ saidData.flatten.flatten

private theorem layout (second : Bool) : Layout (text second) c!"title\n" saidCells (surfaces second) saidData where
  lines := ⟨saidCells.flatten ++ c!"\n" :: (surfaces second).flatten ++ c!"\n" :: saidData.flatten, c!"\n", c!"\n", by revert second; decide +kernel,
    fun l hl => line_of (by revert second l; decide +kernel), fun l hl => comment_iff (by revert second l; decide +kernel) (by revert second l; decide +kernel), by revert second; decide +kernel, by unfold BlankLine; decide, by unfold BlankLine; decide⟩
  noMessage := fun a b e => by
    have := (hasInfix_iff _ _).2 ⟨a, b, e⟩
    revert this
    decide +kernel
  cards := by
    intro g hg
    cases second <;> simp only [saidCells, surfaces, List.cons_append, List.nil_append, List.mem_cons, List.not_mem_nil, or_false, if_true, if_false, Bool.false_eq_true] at hg <;>
      rcases hg with rfl | rfl | rfl | rfl | rfl <;> exact ⟨_, _, rfl, not_five (by decide), fun l hl => five (by revert l; decide), by decide +kernel⟩
  dataCards := by
    intro g hg
    simp only [saidData, List.mem_cons, List.not_mem_nil, or_false] at hg
    rcases hg with rfl | rfl <;>
      exact ⟨_, _, rfl, not_five (by decide), fun l hl => five (by revert l; decide), fun l hl => (line_of (l := l) (by revert l; decide)).imp fun _ h => ⟨h.1, .inr h.2⟩⟩

/-- The hypotheses of `C121_partial`: a sphere on one line and on two, with comments, and a sphere with a TR number. -/
example : (∀ second, Layout (text second) c!"title\n" saidCells (surfaces second) saidData) ∧ List.Forall₂ (SameSurfaceCard env.io) (surfaces false) (surfaces true) := by
  refine ⟨layout, .cons ⟨c!"1", [], c!"s", [c!"1", c!"0", c!"0", c!"3"], [c!"1.0", c!"0.0", c!"0", c!"3"], [1, 0, 0, 3], by decide +kernel, by decide +kernel, .inl ⟨rfl, by decide +kernel⟩, ?_, ?_⟩
    (.cons ⟨c!"2", [c!"5"], c!"so", [c!"9"], [c!"9.00"], [9], by decide +kernel, by decide +kernel, .inr ⟨_, rfl, by decide +kernel⟩, .cons (by decide +kernel) .nil, .cons (by decide +kernel) .nil⟩ .nil)⟩ <;>
    exact .cons (by decide +kernel) (.cons (by decide +kernel) (.cons (by decide +kernel) (.cons (by decide +kernel) .nil)))

end Csg
