import Mathlib.Algebra.Order.BigOperators.Group.List
import Verif.Lemmas.CellText
import Verif.Lemmas.Merge
import Verif.Model.OpenMCInput
import Verif.Spec.Universes

/-!
# Unused universes are removed for OpenMC (C54)
-/

namespace Csg

open Spec

private theorem numbers_ok {e : OpenMCCellElem} {p : Int × Option Int} : elemNumbers e = .ok p ↔ InUniverse e p.1 ∧ (e.filled = none ∧ p.2 = none ∨ ∃ f, FilledWith e f ∧ p.2 = some f) := by
  obtain ⟨u, f⟩ := p
  unfold elemNumbers InUniverse FilledWith pyInt
  cases h : parseInt e.uni with
  | none => simp [bind, Except.bind]
  | some v =>
    cases hf : e.filled with
    | none =>
      simp [bind, Except.bind]
      exact fun _ => eq_comm
    | some st =>
      obtain ⟨s, t⟩ := st
      cases hs : parseInt s with
      | none => simp [bind, Except.bind, hs]
      | some w =>
        simp only [bind, Except.bind, hs, Except.ok.injEq, Prod.mk.injEq, Option.some.injEq]
        constructor
        · rintro ⟨rfl, rfl⟩
          exact ⟨rfl, Or.inr ⟨w, ⟨s, t, ⟨rfl, rfl⟩, hs⟩, rfl⟩⟩
        · rintro ⟨rfl, h | ⟨f', ⟨s', t', ⟨rfl, rfl⟩, h⟩, rfl⟩⟩
          · cases h.1
          · rw [hs] at h; cases h; exact ⟨rfl, rfl⟩

private theorem within_inj {e : OpenMCCellElem} {u v : Int} (h : InUniverse e u) (h' : InUniverse e v) : u = v := Option.some.inj (h.symm.trans h')

private theorem unused_iff {es : List OpenMCCellElem} (hn : Numbered es) :
    ∃ l : List Int, unusedFills es = .ok l ∧ l.Nodup ∧ ∀ u, u ∈ l ↔ (∃ e ∈ es, InUniverse e u) ∧ ∀ e ∈ es, ¬ FilledWith e u := by
  have hnum : ∀ e ∈ es, ∃ p, elemNumbers e = .ok p := by
    intro e he
    obtain ⟨⟨u, hu⟩, hf⟩ := hn e he
    cases h : e.filled with
    | none => exact ⟨(u, none), numbers_ok.2 ⟨hu, Or.inl ⟨h, rfl⟩⟩⟩
    | some st =>
      obtain ⟨f, hff⟩ := hf st.1 st.2 h
      exact ⟨(u, some f), numbers_ok.2 ⟨hu, Or.inr ⟨f, ⟨st.1, st.2, h, hff⟩, rfl⟩⟩⟩
  have : ∃ ps, es.mapM elemNumbers = .ok ps := by
    clear hn
    induction es with
    | nil => exact ⟨[], rfl⟩
    | cons e es ih =>
      obtain ⟨p, hp⟩ := hnum e (by simp)
      obtain ⟨ps, hps⟩ := ih fun x hx => hnum x (by simp [hx])
      exact ⟨p :: ps, by rw [List.mapM_cons, hp, hps]; rfl⟩
  obtain ⟨ps, hps⟩ := this
  have hall := mapM_ok_iff.1 hps
  refine ⟨_, by unfold unusedFills; rw [hps]; rfl, (List.nodup_dedup _).filter _, fun u => ?_⟩
  have h1 : u ∈ ps.map Prod.fst ↔ ∃ e ∈ es, InUniverse e u := by
    clear hps
    induction hall with
    | nil => simp
    | @cons e p es ps hp _ ih =>
      have := ih (fun x hx => hn x (by simp [hx])) (fun x hx => hnum x (by simp [hx]))
      rw [List.map_cons, List.mem_cons, this]
      have hw := (numbers_ok.1 hp).1
      constructor
      · rintro (rfl | ⟨x, hx, h⟩)
        · exact ⟨e, by simp, hw⟩
        · exact ⟨x, by simp [hx], h⟩
      · rintro ⟨x, hx, h⟩
        rcases List.mem_cons.1 hx with rfl | hx
        · exact Or.inl (within_inj h hw)
        · exact Or.inr ⟨x, hx, h⟩
  have h2 : u ∈ ps.filterMap Prod.snd ↔ ∃ e ∈ es, FilledWith e u := by
    clear hps h1
    induction hall with
    | nil => simp
    | @cons e p es ps hp _ ih =>
      have := ih (fun x hx => hn x (by simp [hx])) (fun x hx => hnum x (by simp [hx]))
      rw [List.mem_filterMap] at this
      rw [List.mem_filterMap]
      have hw := (numbers_ok.1 hp).2
      constructor
      · rintro ⟨q, hq, h⟩
        rcases List.mem_cons.1 hq with rfl | hq
        · rcases hw with ⟨_, h'⟩ | ⟨f, hf, h'⟩
          · rw [h'] at h; cases h
          · rw [h'] at h; cases h; exact ⟨e, by simp, hf⟩
        · obtain ⟨x, hx, hf⟩ := this.1 ⟨q, hq, h⟩
          exact ⟨x, by simp [hx], hf⟩
      · rintro ⟨x, hx, s, t, h, hs⟩
        rcases List.mem_cons.1 hx with rfl | hx
        · rcases hw with ⟨h', _⟩ | ⟨f, ⟨s', t', hf, hs'⟩, h'⟩
          · rw [h'] at h; cases h
          · rw [hf] at h; cases h
            rw [hs] at hs'; cases hs'
            exact ⟨p, by simp, h'⟩
        · obtain ⟨q, hq, h⟩ := this.2 ⟨x, hx, s, t, h, hs⟩
          exact ⟨q, by simp [hq], h⟩
  rw [List.mem_filter, List.mem_dedup, h1]
  simp only [h2, decide_eq_true_eq]
  constructor
  · rintro ⟨a, b⟩; exact ⟨a, fun e he hf => b ⟨e, he, hf⟩⟩
  · rintro ⟨a, b⟩; exact ⟨a, fun ⟨e, he, hf⟩ => b e he hf⟩

/-- One round, or the end. -/
private theorem check_step {es : List OpenMCCellElem} (hn : Numbered es) :
    ∃ l : List Int, l.Nodup ∧ (∀ u, u ∈ l ↔ (∃ e ∈ es, InUniverse e u) ∧ ∀ e ∈ es, ¬ FilledWith e u) ∧
      (l.length ≤ 1 → ∀ fuel, checkUnusedUniverses fuel es = some (.ok es)) ∧
      (1 < l.length → ∃ es', es'.Sublist es ∧ es'.length < es.length ∧ (∀ e ∈ es, e ∈ es' ↔ ¬ ∃ u ∈ l, u ≠ 0 ∧ InUniverse e u) ∧
        ∀ fuel, checkUnusedUniverses (fuel + 1) es = checkUnusedUniverses fuel es') := by
  obtain ⟨l, hl, hnd, hmem⟩ := unused_iff hn
  refine ⟨l, hnd, hmem, fun h fuel => ?_, fun h => ?_⟩
  · unfold checkUnusedUniverses
    rw [hl]
    simp only []
    rw [if_neg (by omega)]
  · have hkeep : ∀ e, (!l.any fun u => decide (u ≠ 0) && decide (pyInt e.uni = .ok u)) = true ↔ ¬ ∃ u ∈ l, u ≠ 0 ∧ InUniverse e u := by
      intro e
      simp only [Bool.not_eq_true', List.any_eq_false, Bool.and_eq_true, decide_eq_true_eq, not_and, not_exists, pyInt_ok, InUniverse]
    refine ⟨es.filter fun e => !l.any fun u => decide (u ≠ 0) && decide (pyInt e.uni = .ok u), List.filter_sublist, ?_, ?_, ?_⟩
    · obtain ⟨u, hu, hu0⟩ : ∃ u ∈ l, u ≠ 0 := by
        by_contra hc
        push Not at hc
        have : l = List.replicate l.length 0 := List.eq_replicate_iff.2 ⟨rfl, hc⟩
        rw [this] at hnd
        exact absurd (List.nodup_replicate.1 hnd) (by omega)
      obtain ⟨⟨e, he, hw⟩, _⟩ := (hmem u).1 hu
      refine List.length_filter_lt_length_iff_exists.2 ⟨e, he, fun hk => ?_⟩
      exact (hkeep e).1 hk ⟨u, hu, hu0, hw⟩
    · intro e he
      rw [List.mem_filter, hkeep]
      exact ⟨fun h => h.2, fun h => ⟨he, h⟩⟩
    · intro fuel
      conv_lhs => rw [checkUnusedUniverses]
      rw [hl]
      simp only []
      rw [if_pos h]

private theorem numbered_sub {es es' : List OpenMCCellElem} (h : es'.Sublist es) (hn : Numbered es) : Numbered es' := fun e he => hn e (h.subset he)

/-- A universe in the geometry of `es` is in the geometry of a list that has all its cells. -/
private theorem reachable_keep {es es' : List OpenMCCellElem} (h : ∀ e ∈ es, ∀ u, InUniverse e u → Reachable es u → e ∈ es') {u : Int} (hr : Reachable es u) : Reachable es' u := by
  induction hr with
  | root => exact .root
  | fill he hw hr hf ih => exact .fill (h _ he _ hw hr) hw ih hf

/-- C54, first part: the removal ends after at most as many rounds as there are cells, removes only whole cells, and keeps every cell of every universe that is part of the geometry, in
particular of universe 0. -/
theorem C54_keeps_geometry (es : List OpenMCCellElem) (hn : Numbered es) (fuel : Nat) (hf : es.length ≤ fuel) :
    ∃ es', checkUnusedUniverses fuel es = some (.ok es') ∧ es'.Sublist es ∧ ∀ e ∈ es, ∀ u, InUniverse e u → Reachable es u → e ∈ es' := by
  induction fuel generalizing es with
  | zero =>
    have : es = [] := List.length_eq_zero_iff.1 (by omega)
    subst this
    exact ⟨[], rfl, .slnil, by simp⟩
  | succ fuel ih =>
    obtain ⟨l, _, hmem, hend, hstep⟩ := check_step hn
    by_cases h : l.length ≤ 1
    · exact ⟨es, hend h _, List.Sublist.refl _, fun e he _ _ _ => he⟩
    · obtain ⟨es', hs, hlen, hk, hstep⟩ := hstep (by omega)
      obtain ⟨es'', h1, h2, h3⟩ := ih es' (numbered_sub hs hn) (by omega)
      have hkeep : ∀ e ∈ es, ∀ u, InUniverse e u → Reachable es u → e ∈ es' := by
        intro e he u hw hr
        refine (hk e he).2 ?_
        rintro ⟨v, hv, hv0, hwv⟩
        cases within_inj hw hwv
        cases hr with
        | root => exact hv0 rfl
        | fill he' _ _ hf' => exact ((hmem u).1 hv).2 _ he' hf'
      exact ⟨es'', by rw [hstep, h1], h2.trans hs, fun e he u hw hr => h3 e (hkeep e he u hw hr) u hw (reachable_keep hkeep hr)⟩

/-- C54, second part: what is left has no universe other than 0 that fills no cell. Partial: some cell must be in universe 0, and no cell may be filled with universe 0; see `C54_refuted`. -/
theorem C54_drops_unused_partial (es : List OpenMCCellElem) (hn : Numbered es) (h0 : ∃ e ∈ es, InUniverse e 0) (hf0 : ∀ e ∈ es, ¬ FilledWith e 0) (fuel : Nat) (es' : List OpenMCCellElem)
    (h : checkUnusedUniverses fuel es = some (.ok es')) : ∀ e ∈ es', ∀ u, InUniverse e u → u ≠ 0 → ∃ d ∈ es', FilledWith d u := by
  induction fuel generalizing es with
  | zero =>
    obtain ⟨l, hnd, hmem, hend, hstep⟩ := check_step hn
    by_cases hl : l.length ≤ 1
    · rw [hend hl] at h
      cases h
      intro e he u hw hu
      by_contra hc
      push Not at hc
      have m0 : (0 : Int) ∈ l := (hmem 0).2 ⟨h0, hf0⟩
      have mu : u ∈ l := (hmem u).2 ⟨⟨e, he, hw⟩, hc⟩
      match l, hl, m0, mu with
      | [x], _, m0, mu => exact hu ((List.mem_singleton.1 mu).trans (List.mem_singleton.1 m0).symm)
      | [], _, m0, _ => cases m0
    · obtain ⟨l', hl', hnd', hmem'⟩ := unused_iff hn
      have e : l'.length = l.length := (List.perm_ext_iff_of_nodup hnd' hnd).2 (fun u => (hmem' u).trans (hmem u).symm) |>.length_eq
      unfold checkUnusedUniverses at h
      rw [hl'] at h
      simp only [] at h
      rw [if_pos (by omega)] at h
      cases h
  | succ fuel ih =>
    obtain ⟨l, hnd, hmem, hend, hstep⟩ := check_step hn
    by_cases hl : l.length ≤ 1
    · rw [hend hl] at h
      cases h
      intro e he u hw hu
      by_contra hc
      push Not at hc
      have m0 : (0 : Int) ∈ l := (hmem 0).2 ⟨h0, hf0⟩
      have mu : u ∈ l := (hmem u).2 ⟨⟨e, he, hw⟩, hc⟩
      match l, hl, m0, mu with
      | [x], _, m0, mu => exact hu ((List.mem_singleton.1 mu).trans (List.mem_singleton.1 m0).symm)
      | [], _, m0, _ => cases m0
    · obtain ⟨es1, hs, _, hk, hstep⟩ := hstep (by omega)
      rw [hstep] at h
      obtain ⟨e, he, hw⟩ := h0
      exact ih es1 (numbered_sub hs hn) ⟨e, (hk e he).2 fun ⟨v, _, hv0, hwv⟩ => hv0 (within_inj hwv hw), hw⟩ (fun e he => hf0 e (hs.subset he)) h

/-- C54: if no universe contains itself, directly or not, then the cells that are left are exactly those of the universes that are part of the geometry. (`depth` counts how far down fills
go.) -/
theorem C54_exactly_geometry_partial (es : List OpenMCCellElem) (hn : Numbered es) (h0 : ∃ e ∈ es, InUniverse e 0) (hf0 : ∀ e ∈ es, ¬ FilledWith e 0)
    (depth : Int → Nat) (hacyclic : ∀ e ∈ es, ∀ u f, InUniverse e u → FilledWith e f → depth f < depth u) (fuel : Nat) (hfuel : es.length ≤ fuel) :
    ∃ es', checkUnusedUniverses fuel es = some (.ok es') ∧ es'.Sublist es ∧ ∀ e ∈ es, e ∈ es' ↔ ∃ u, InUniverse e u ∧ Reachable es u := by
  obtain ⟨es', h1, h2, h3⟩ := C54_keeps_geometry es hn fuel hfuel
  refine ⟨es', h1, h2, fun e he => ⟨fun hk => ?_, fun ⟨u, hw, hr⟩ => h3 e he u hw hr⟩⟩
  have hdrop := C54_drops_unused_partial es hn h0 hf0 fuel es' h1
  -- no universe is deeper than the sum of all the depths
  obtain ⟨B, hB⟩ : ∃ B, ∀ e ∈ es, ∀ u, InUniverse e u → depth u ≤ B := by
    clear h1 h2 h3 hdrop hk he hacyclic hf0 h0 hfuel
    induction es with
    | nil => exact ⟨0, by simp⟩
    | cons x es ih =>
      obtain ⟨B, hB⟩ := ih fun y hy => hn y (by simp [hy])
      obtain ⟨⟨v, hv⟩, _⟩ := hn x (by simp)
      refine ⟨max B (depth v), fun y hy u hw => ?_⟩
      rcases List.mem_cons.1 hy with rfl | hy
      · rw [within_inj hw hv]; exact le_max_right _ _
      · exact (hB y hy u hw).trans (le_max_left _ _)
  have key : ∀ (k : Nat) (e : OpenMCCellElem), e ∈ es' → ∀ u, InUniverse e u → B - depth u ≤ k → Reachable es u := by
    intro k
    induction k with
    | zero =>
      intro e he u hw hk
      by_cases hu : u = 0
      · subst hu; exact .root
      obtain ⟨d, hd, hf⟩ := hdrop e he u hw hu
      obtain ⟨⟨v, hv⟩, _⟩ := hn d (h2.subset hd)
      have a := hacyclic d (h2.subset hd) v u hv hf
      have b := hB d (h2.subset hd) v hv
      omega
    | succ k ih =>
      intro e he u hw hk
      by_cases hu : u = 0
      · subst hu; exact .root
      obtain ⟨d, hd, hf⟩ := hdrop e he u hw hu
      obtain ⟨⟨v, hv⟩, _⟩ := hn d (h2.subset hd)
      have a := hacyclic d (h2.subset hd) v u hv hf
      have b := hB d (h2.subset hd) v hv
      exact .fill (h2.subset hd) hv (ih d hd v hv (by omega)) hf
  obtain ⟨⟨u, hw⟩, _⟩ := hn e he
  exact ⟨u, hw, key _ e hk u hw le_rfl⟩

/-- A cell element with the given number, universe and fill. -/
private def el (id uni : Str) (fill : Option Str) : OpenMCCellElem := { id := id, material := none, region := c!"1", uni := uni, filled := fill.map fun f => (f, [], []) }

/-- Universe 0 has a cell filled with universe 1; universe 3, used nowhere, has a cell filled with universe 2. Both 2 and 3 are removed, in two rounds. -/
example : checkUnusedUniverses 5 [el c!"1" c!"0" (some c!"1"), el c!"2" c!"0" none, el c!"3" c!"1" none, el c!"4" c!"2" none, el c!"5" c!"3" (some c!"2")] =
    some (.ok [el c!"1" c!"0" (some c!"1"), el c!"2" c!"0" none, el c!"3" c!"1" none]) := by decide +kernel

example : Numbered [el c!"1" c!"0" (some c!"1"), el c!"3" c!"1" none] ∧ Reachable [el c!"1" c!"0" (some c!"1"), el c!"3" c!"1" none] 1 := by
  refine ⟨?_, .fill (e := el c!"1" c!"0" (some c!"1")) (u := 0) (by simp) (by unfold InUniverse; decide +kernel) .root ⟨c!"1", _, rfl, by decide +kernel⟩⟩
  intro e he
  simp only [List.mem_cons, List.not_mem_nil, or_false] at he
  rcases he with rfl | rfl
  · exact ⟨⟨0, by unfold InUniverse; decide +kernel⟩, fun s t h => by cases h; exact ⟨1, by decide +kernel⟩⟩
  · exact ⟨⟨1, by unfold InUniverse; decide +kernel⟩, fun s t h => by cases h⟩

/-- C54 does not hold in general: without a cell in universe 0 one unused universe is left. -/
theorem C54_refuted : ∃ es es', Numbered es ∧ checkUnusedUniverses es.length es = some (.ok es') ∧ ∃ e ∈ es', InUniverse e 5 ∧ ∀ d ∈ es', ¬ FilledWith d 5 := by
  refine ⟨[el c!"1" c!"5" none], [el c!"1" c!"5" none], ?_, by decide +kernel, el c!"1" c!"5" none, by simp, by unfold InUniverse; decide +kernel, ?_⟩
  · intro e he
    rw [List.mem_singleton.1 he]
    exact ⟨⟨5, by unfold InUniverse; decide +kernel⟩, fun s t h => by cases h⟩
  · intro d hd
    rw [List.mem_singleton.1 hd]
    rintro ⟨s, t, h, _⟩
    cases h

end Csg
