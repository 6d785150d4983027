import Verif.Spec.SameCell
import Verif.Props.SameSurface
import Verif.Props.Parameters
import Verif.Lemmas.SplitParts

/-!
# C122: how a cell card is written changes nothing

`C122_partial`: cell cards may be replaced by others with the same number, material, density and geometry and with the same parameters in any order. `C122_refuted`: not if an importance is written with an exponent, or there are two blanks before an equals sign.
-/

set_option linter.unusedSectionVars false

namespace Csg

open Spec

section
variable {K : Type} [Field K] [LinearOrder K] [IsStrictOrderedRing K]

/-- Parameters that say the same give a cell the same values. -/
private theorem carries_same {io : NumIO K} {cosDeg : K → K} {ps ps' : List Param} (h : SameParameters io ps ps') (hr : ReadableParameters io ps) {c c' : Cell K}
    (hc : Carries io cosDeg ps c) (hc' : Carries io cosDeg ps' c') :
    c.uni = c'.uni ∧ c.fill = c'.fill ∧ c.importance = c'.importance ∧ c.offset = c'.offset ∧ c.rotation = c'.rotation ∧ c.trId = c'.trId := by
  have opt : ∀ {a b : Option Str}, (∀ v, a = some v ↔ b = some v) → a = b := fun {a b} h => Option.ext h
  have imp : c.importance = c'.importance := by
    by_cases hv : ∃ v, .importance v ∈ ps
    · obtain ⟨v, hv⟩ := hv
      obtain ⟨v', hv', e⟩ := (h.importance _).1 ⟨v, hv, hc.importance v hv⟩
      have := hc'.importance v' hv'
      rw [e] at this
      exact Except.ok.inj this
    · have none : ∀ v, .importance v ∉ ps' := by
        intro v' hv'
        obtain ⟨v, hv1, -⟩ := (h.importance _).2 ⟨v', hv', hc'.importance v' hv'⟩
        exact hv ⟨v, hv1⟩
      rw [hc.noImportance fun v hv1 => hv ⟨v, hv1⟩, hc'.noImportance none]
  have tr : c.offset = c'.offset ∧ c.rotation = c'.rotation ∧ c.trId = c'.trId := by
    by_cases ht : ∃ d v t, .fill d v (some t) ∈ ps
    · obtain ⟨d, v, t, ht⟩ := ht
      obtain ⟨t', ht', e⟩ := (h.fill d v (some (split t))).1 ⟨_, ht, rfl⟩
      cases t' with
      | none => cases e
      | some t' =>
        have e : split t' = split t := by simpa using e
        rcases hw : split t with _ | ⟨x, _ | ⟨y, _ | ⟨z, rest⟩⟩⟩
        · exact absurd (hr.words d v t ht) (by rw [hw]; simp)
        · obtain ⟨a1, a2, a3⟩ := hc.card d v t x ht hw
          obtain ⟨b1, b2, b3⟩ := hc'.card d v t' x ht' (e.trans hw)
          exact ⟨a2.trans b2.symm, a3.trans b3.symm, a1.trans b1.symm⟩
        · exact absurd (hr.words d v t ht) (by rw [hw]; simp)
        · obtain ⟨a1, a2, a3, a4, a5⟩ := hc.shift d v t x y z rest ht hw
          obtain ⟨b1, b2, b3, b4, b5⟩ := hc'.shift d v t' x y z rest ht' (e.trans hw)
          refine ⟨a2.trans b2.symm, ?_, a1.trans b1.symm⟩
          by_cases hn : rest.length < 9
          · rw [a3 hn, b3 hn]
          · cases d with
            | false => rw [a4 rfl (by omega), b4 rfl (by omega)]
            | true =>
              obtain ⟨xs, e1, e2⟩ := a5 rfl (by omega)
              obtain ⟨ys, e3, e4⟩ := b5 rfl (by omega)
              rw [e1] at e3
              cases e3
              rw [e2, e4]
    · have none : ∀ d v t, .fill d v (some t) ∉ ps' := by
        intro d v t' ht'
        obtain ⟨t, ht1, e⟩ := (h.fill d v (some (split t'))).2 ⟨_, ht', rfl⟩
        cases t with
        | none => cases e
        | some t => exact ht ⟨d, v, t, ht1⟩
      obtain ⟨a1, a2, a3⟩ := hc.noTransform fun d v t ht1 => ht ⟨d, v, t, ht1⟩
      obtain ⟨b1, b2, b3⟩ := hc'.noTransform none
      exact ⟨a2.trans b2.symm, a3.trans b3.symm, a1.trans b1.symm⟩
  refine ⟨opt fun v => (hc.uni v).trans ((h.uni v).trans (hc'.uni v).symm), opt fun v => ?_, imp, tr⟩
  rw [hc.fill, hc'.fill]
  constructor
  · rintro ⟨d, t, ht⟩
    obtain ⟨t', ht', -⟩ := (h.fill d v _).1 ⟨t, ht, rfl⟩
    exact ⟨d, t', ht'⟩
  · rintro ⟨d, t, ht⟩
    obtain ⟨t', ht', -⟩ := (h.fill d v _).2 ⟨t, ht, rfl⟩
    exact ⟨d, t', ht'⟩

private theorem cellWords_eq (s : Str) : split (expandText s) = cellWords s := by
  unfold cellWords
  congr 1
  induction s with
  | nil => rfl
  | cons ch s ih =>
    rw [show ch :: s = [ch] ++ s from rfl, expandText_append, ih, List.flatMap_append]
    congr 1
    by_cases h1 : ch = '('
    · subst h1; decide
    by_cases h2 : ch = ')'
    · subst h2; decide
    by_cases h3 : ch = ':'
    · subst h3; decide
    by_cases h4 : ch = '+'
    · subst h4; decide
    rw [expandText_id (by simp [h1, h2, h3, h4])]
    simp [h1, h2, h3, h4]

private theorem readCell_head (io : NumIO K) (cosDeg : K → K) {pre pre' : Str} (h : SameHead io pre pre') (hpre : ∀ x ∈ pre, x ∉ ['u', 'f', 'i', 'v', 't', '*', '$']) (hpre' : ∀ x ∈ pre', x ∉ ['u', 'f', 'i', 'v', 't', '*', '$']) :
    readCell io cosDeg pre' = readCell io cosDeg pre := by
  unfold readCell interpret
  rw [detectKeywords_none io cosDeg _ hpre, detectKeywords_none io cosDeg _ hpre']
  show (do let t0 ← pyGet (split (expandText pre')) 0; _) = (do let t0 ← pyGet (split (expandText pre)) 0; _)
  rw [cellWords_eq, cellWords_eq]
  rcases h with h | ⟨n, m, d, d', geo, x, e, e', hm, hl, hp, hl', hp'⟩
  · rw [h]
  · rw [e, e']
    have hi : pyInt (natStr m) = .ok (m : Int) := pyInt_intStr m
    have g0 : ∀ d, pyGet (n :: natStr m :: d :: geo) 0 = .ok n := fun _ => rfl
    have g1 : ∀ d, pyGet (n :: natStr m :: d :: geo) 1 = .ok (natStr m) := fun _ => rfl
    have g2 : ∀ d, pyGet (n :: natStr m :: d :: geo) 2 = .ok d := fun _ => rfl
    have hok : ∀ {α β : Type} (a : α) (k : α → Py β), ((.ok a : Py α) >>= k) = k a := fun _ _ => rfl
    have hm' : (0 : Int) < m := by exact_mod_cast hm
    simp only [g0, g1, g2, hok, hi, if_pos hm', fortranNumber_literal io hl hp, fortranNumber_literal io hl' hp', List.drop_succ_cons, List.drop_zero]

private theorem readCell_same (io : NumIO K) (cosDeg : K → K) {g g' : List Str} (h : SameCellCard io g g') : readCell io cosDeg (cardText g') = readCell io cosDeg (cardText g) := by
  obtain ⟨pre, pre', l, l', e, e', hw, hne, hne', hx, hl, hl', hs, hr, hr'⟩ := h
  have hpre : ∀ x ∈ pre, x ∉ ['u', 'f', 'i', 'v', 't', '*', '$'] := fun x h => hx x (List.mem_append_left _ h)
  have hpre' : ∀ x ∈ pre', x ∉ ['u', 'f', 'i', 'v', 't', '*', '$'] := fun x h => hx x (List.mem_append_right _ h)
  obtain ⟨u, f, x, off, rot, tid, hc, k⟩ := readCell_params io cosDeg hne hpre hl hr.importance hr.angles
  obtain ⟨u', f', x', off', rot', tid', hc', k'⟩ := readCell_params io cosDeg hne' hpre' hl' hr'.importance hr'.angles
  obtain ⟨h1, h2, h3, h4, h5, h6⟩ := carries_same hs hr hc hc'
  simp only at h1 h2 h3 h4 h5 h6
  subst h1 h2 h3 h4 h5 h6
  rw [e, e', k, k', readCell_head io cosDeg hw hpre hpre']

/-- **C122** (partial). Two texts that differ only in cell cards, each of which says the same in both, give the same run. Missing: the ways to write parameters in `C122_refuted` and in the refutations of C70. -/
theorem C122_partial (e : Env K) (cosDeg : K → K) (quick : Bool) (output : Option (List Str)) (text text' title : Str) (cells cells' surfs data : List (List Str)) (h : Layout text title cells surfs data)
    (h' : Layout text' title cells' surfs data) (hs : List.Forall₂ (SameCellCard e.io) cells cells') : convert e cosDeg quick output text' = convert e cosDeg quick output text := by
  have same : (cells'.map cardText).mapM (readCell e.io cosDeg) = (cells.map cardText).mapM (readCell e.io cosDeg) := by
    clear h h'
    induction hs with
    | nil => rfl
    | cons hg _ ih => rw [List.map_cons, List.map_cons, List.mapM_cons, List.mapM_cons, ih, readCell_same e.io cosDeg hg]
  have key : readDeck e.io cosDeg (readText text') = readDeck e.io cosDeg (readText text) := by
    obtain ⟨b1, b2, k1, k2, k3⟩ := readText_blocks (blocks_of h) e.io cosDeg
    obtain ⟨b1', b2', k1', k2', k3'⟩ := readText_blocks (blocks_of h') e.io cosDeg
    rw [k3, k3', block_all (readCell e.io cosDeg) removeInline_code (fun g hg => h.cards g (List.mem_append_left _ hg)) k1, block_all (readCell e.io cosDeg) removeInline_code (fun g hg => h'.cards g (List.mem_append_left _ hg)) k1', same]
    cases (cells.map cardText).mapM (readCell e.io cosDeg) with
    | error x => rfl
    | ok cs =>
      simp only [Except.map, bind, Except.bind]
      rw [block_all (classify e.io) stripDollar_code (fun g hg => h.cards g (List.mem_append_right _ hg)) k2, block_all (classify e.io) stripDollar_code (fun g hg => h'.cards g (List.mem_append_right _ hg)) k2']
  unfold convert processDeck
  rw [key]

end

private def env : Env ℚ :=
  { fuel := 100, io := sampleIO, fixed := formatF, sci := formatF, sci4 := fun x => (sampleIO.render x).take 10, sci3 := formatF, sqrt := id, degAtan := id, orderStr := id, orderInt := id }

private def rest : Str := c!"2 0 1 imp:n=0\n\n1 so 3\n\nm1 1001 1.0\n"

/-- The importance 10 written as `1e1` becomes 1, and two blanks before an equals sign end the run with an exception. -/
theorem C122_refuted :
    (convert env id true (some [c!"mcnp"]) (c!"title\n1 1 -7 -1 imp:n=10\n" ++ rest)).run =
      .ok (some [(.mcnp, .text c!"C cell definitions\n1 1 -7.0 -1 IMP:N=10.0\n2 0 1 IMP:N=0.0\n\nC surface definitions\n1 s 0.0 0.0 0.0 3.0\n\nC material definitions\nC Material M1\nM1     1001 1.0\n")]) ∧
    (convert env id true (some [c!"mcnp"]) (c!"title\n1 1 -7 -1 imp:n=1e1\n" ++ rest)).run =
      .ok (some [(.mcnp, .text c!"C cell definitions\n1 1 -7.0 -1 IMP:N=1.0\n2 0 1 IMP:N=0.0\n\nC surface definitions\n1 s 0.0 0.0 0.0 3.0\n\nC material definitions\nC Material M1\nM1     1001 1.0\n")]) ∧
    (convert env id true (some [c!"mcnp"]) (c!"title\n1 1 -7 -1 imp:n  = 10\n" ++ rest)).run = .error .typeError ∧ sampleIO.float c!"1e1" = .ok 10 :=
  ⟨by decide +kernel, by decide +kernel, by decide +kernel, by decide +kernel⟩

/-! ## Two files that meet the hypotheses -/

private def saidCells (second : Bool) : List (List Str) :=
  if second then [[c!"1  1 -70.0e-1 $ ball\n", c!"      ( +5:-1 )$ only the inside\n", c!"      u = 3 vol=5 imp:n=2.50\n"], [c!"2 0 1  imp:n=0 fill=3( 0 0  1)\n"]]
  else [[c!"1 1 -7.0 (5 : -1) imp:n=2.5 u=3\n"], [c!"2 0 1 fill=3 (0 0 1) imp:n=0\n"]]
private def saidSurfaces : List (List Str) := [[c!"1 so 3\n"], [c!"5 px 9\n"]]
private def saidData : List (List Str) := [[c!"tr5 0 0 1\n"], [c!"m1 1001 1.0\n"]]
private def text (second : Bool) : Str := c!"title\n" ++ (saidCells second).flatten.flatten ++ c!"\n" ++ saidSurfaces.flatten.flatten ++ c!"\n" ++ saidData.flatten.flatten

private theorem layout (second : Bool) : Layout (text second) c!"title\n" (saidCells second) saidSurfaces saidData where
  lines := ⟨(saidCells second).flatten ++ c!"\n" :: saidSurfaces.flatten ++ c!"\n" :: saidData.flatten, c!"\n", c!"\n", by revert second; decide +kernel,
    fun l hl => line_of (by revert second l; decide +kernel), fun l hl => comment_iff (by revert second l; decide +kernel) (by revert second l; decide +kernel), by revert second; decide +kernel, by unfold BlankLine; decide, by unfold BlankLine; decide⟩
  noMessage := fun a b e => by
    have := (hasInfix_iff _ _).2 ⟨a, b, e⟩
    revert this
    decide +kernel
  cards := by
    intro g hg
    cases second <;> simp only [saidCells, saidSurfaces, List.cons_append, List.nil_append, List.mem_cons, List.not_mem_nil, or_false, if_true, if_false, Bool.false_eq_true] at hg <;>
      rcases hg with rfl | rfl | rfl | rfl <;> exact ⟨_, _, rfl, not_five (by decide), fun l hl => five (by revert l; decide), by decide +kernel⟩
  dataCards := by
    intro g hg
    simp only [saidData, List.mem_cons, List.not_mem_nil, or_false] at hg
    rcases hg with rfl | rfl <;>
      exact ⟨_, _, rfl, not_five (by decide), fun l hl => five (by revert l; decide), fun l hl => (line_of (l := l) (by revert l; decide)).imp fun _ h => ⟨h.1, .inr h.2⟩⟩

private def first : List (Param × Str × Str) := [(.importance c!"2.5", c!"imp:n=2.5", c!" "), (.uni c!"3", c!"u=3", c!"\n")]
private def first' : List (Param × Str × Str) := [(.uni c!"3", c!"u = 3", c!" "), (.volume c!"5", c!"vol=5", c!" "), (.importance c!"2.50", c!"imp:n=2.50", c!"\n")]
private def second : List (Param × Str × Str) := [(.fill false c!"3" (some c!"0 0 1"), c!"fill=3 (0 0 1)", c!" "), (.importance c!"0", c!"imp:n=0", c!"\n")]
private def second' : List (Param × Str × Str) := [(.importance c!"0", c!"imp:n=0", c!" "), (.fill false c!"3" (some c!" 0 0  1"), c!"fill=3( 0 0  1)", c!"\n")]

private theorem params : IsParamList first ∧ IsParamList first' ∧ IsParamList second ∧ IsParamList second' := by
  have i : ∀ {a : Str}, a ≠ [] → (∀ c ∈ a, isDigit c = true) → ParamText (.importance a) (c!"imp:n=" ++ a) := fun h1 h2 => .importance _ c!"=" (by simp [EqualsSign]) (.whole [] _ (by decide) h1 h2)
  have d : ∀ {a b : Str}, a ≠ [] → (∀ c ∈ a, isDigit c = true) → b ≠ [] → (∀ c ∈ b, isDigit c = true) → ParamText (.importance (a ++ '.' :: b)) (c!"imp:n=" ++ (a ++ '.' :: b)) :=
    fun h1 h2 h3 h4 => .importance _ c!"=" (by simp [EqualsSign]) (.point [] _ _ (by decide) h1 h2 h3 h4)
  refine ⟨⟨?_, by decide, by decide, by decide⟩, ⟨?_, by decide, by decide, by decide⟩, ⟨?_, by decide, by decide, by decide⟩, ⟨?_, by decide, by decide, by decide⟩⟩
  · intro e he
    simp only [first, List.mem_cons, List.not_mem_nil, or_false] at he
    rcases he with rfl | rfl
    · exact ⟨d (a := c!"2") (b := c!"5") (by decide) (by decide) (by decide) (by decide), by decide⟩
    · exact ⟨.uni c!"3" c!"=" (by simp [EqualsSign]) (.whole [] c!"3" (by decide) (by decide) (by decide)), by decide⟩
  · intro e he
    simp only [first', List.mem_cons, List.not_mem_nil, or_false] at he
    rcases he with rfl | rfl | rfl
    · exact ⟨.uni c!"3" c!" = " (by simp [EqualsSign]) (.whole [] c!"3" (by decide) (by decide) (by decide)), by decide⟩
    · exact ⟨.volume c!"5" c!"=" (by simp [EqualsSign]) (by decide) (by simp only [NumberChar]; decide), by decide⟩
    · exact ⟨d (a := c!"2") (b := c!"50") (by decide) (by decide) (by decide) (by decide), by decide⟩
  · intro e he
    simp only [second, List.mem_cons, List.not_mem_nil, or_false] at he
    rcases he with rfl | rfl
    · exact ⟨.filled false c!"3" c!"=" c!" " c!"0 0 1" (by simp [EqualsSign]) (.whole [] c!"3" (by decide) (by decide) (by decide)) (by decide) (by simp only [NumberChar]; decide), by decide⟩
    · exact ⟨i (a := c!"0") (by decide) (by decide), by decide⟩
  · intro e he
    simp only [second', List.mem_cons, List.not_mem_nil, or_false] at he
    rcases he with rfl | rfl
    · exact ⟨i (a := c!"0") (by decide) (by decide), by decide⟩
    · exact ⟨.filled false c!"3" c!"=" [] c!" 0 0  1" (by simp [EqualsSign]) (.whole [] c!"3" (by decide) (by decide) (by decide)) (by decide) (by simp only [NumberChar]; decide), by decide⟩

private theorem floats : env.io.float c!"2.5" = .ok (5 / 2) ∧ env.io.float c!"2.50" = .ok (5 / 2) ∧ env.io.float c!"0" = .ok 0 := ⟨by decide +kernel, by decide +kernel, by decide +kernel⟩

private theorem d1 : Literal c!"-7.0" (-7 : ℚ) := by
  have := Literal.mk _ _ _ _ (Mantissa.point (K := ℚ) c!"-" c!"7" c!"0" _ .minus (by decide) (by unfold Digits; decide) (by unfold Digits; decide)) .absent
  have e : (((-1 : Int) : ℚ) * (digitsValue (c!"7" ++ c!"0") / 10 ^ (c!"0" : Str).length)) * 10 ^ (0 : Int) = -7 := by decide +kernel
  rw [e] at this
  exact this

private theorem d2 : Literal c!"-70.0e-1" (-7 : ℚ) := by
  have := Literal.mk _ _ _ _ (Mantissa.point (K := ℚ) c!"-" c!"70" c!"0" _ .minus (by decide) (by unfold Digits; decide) (by unfold Digits; decide)) (.letter c!"-" c!"1" _ .minus (by decide) (by unfold Digits; decide))
  have e : (((-1 : Int) : ℚ) * (digitsValue (c!"70" ++ c!"0") / 10 ^ (c!"0" : Str).length)) * 10 ^ ((-1 : Int) * digitsValue c!"1") = -7 := by decide +kernel
  rw [e] at this
  exact this

/-- The hypotheses of `C122_partial`: a cell on one line and on three, with another word for the density, parameters in another order and a volume, and a cell with a fill. -/
example : (∀ second, Layout (text second) c!"title\n" (saidCells second) saidSurfaces saidData) ∧ List.Forall₂ (SameCellCard env.io) (saidCells false) (saidCells true) := by
  obtain ⟨p1, p2, p3, p4⟩ := params
  obtain ⟨f1, f2, f3⟩ := floats
  have w : split c!" 0 0  1" = [c!"0", c!"0", c!"1"] ∧ split c!"0 0 1" = [c!"0", c!"0", c!"1"] := by decide +kernel
  refine ⟨layout, .cons ⟨c!"1 1 -7.0 (5 : -1) ", c!"1  1 -70.0e-1       ( +5:-1 )      ", first, first', by decide +kernel, by decide +kernel,
      .inr ⟨c!"1", 1, c!"-7.0", c!"-70.0e-1", [c!"(", c!"5", c!":", c!"-1", c!")"], -7, by decide +kernel, by decide +kernel, by decide, d1, decimal_literal d1, d2, decimal_literal d2⟩, by decide, by decide, by decide +kernel, p1, p2, ⟨?_, ?_, ?_⟩, ⟨?_, ?_, ?_⟩, ⟨?_, ?_, ?_⟩⟩
    (.cons ⟨c!"2 0 1 ", c!"2 0 1  ", second, second', by decide +kernel, by decide +kernel, .inl (by decide +kernel), by decide, by decide, by decide +kernel, p3, p4, ⟨?_, ?_, ?_⟩, ⟨?_, ?_, ?_⟩, ⟨?_, ?_, ?_⟩⟩ .nil)⟩ <;>
    simp [first, first', second, second', f1, f2, f3, w.1, w.2]

end Csg
