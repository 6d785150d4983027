import Verif.Lemmas.Material
import Mathlib.Data.List.Perm.Subperm
import Mathlib.Data.List.Nodup

/-!
# Lemmas on `__reorganise_materials`
-/

set_option linter.unusedSectionVars false

namespace Csg

open Spec

/-! ## Free numbers -/

theorem nextFreeGo_full (keys : List Str) : ∀ fuel idx, natStr (nextFreeGo keys fuel idx) ∈ keys → ∀ i ≤ fuel, natStr (idx + i) ∈ keys := by
  intro fuel
  induction fuel with
  | zero =>
    intro idx h i hi
    obtain rfl : i = 0 := by omega
    exact h
  | succ fuel ih =>
    intro idx h i hi
    unfold nextFreeGo at h
    by_cases hk : natStr idx ∈ keys
    · rw [if_pos hk] at h
      cases i with
      | zero => exact hk
      | succ i =>
        have := ih (idx + 1) h i (by omega)
        rwa [show idx + 1 + i = idx + (i + 1) by omega] at this
    · rw [if_neg hk] at h
      exact absurd h hk

theorem nextFreeGo_ge (keys : List Str) : ∀ fuel idx, idx ≤ nextFreeGo keys fuel idx := by
  intro fuel
  induction fuel with
  | zero => intro idx; exact le_refl _
  | succ fuel ih =>
    intro idx
    unfold nextFreeGo
    split
    · exact Nat.le_of_succ_le (ih (idx + 1))
    · exact le_refl _

theorem nextFreeInt_fresh (keys : List Str) : nextFreeInt keys ∉ keys := by
  intro h
  have hall := nextFreeGo_full keys keys.length 1 h
  have hnd : ((List.range (keys.length + 1)).map fun i => natStr (1 + i)).Nodup := by
    refine List.Nodup.map ?_ List.nodup_range
    intro a b hab
    have := natStr_injective hab
    omega
  have hsub : ((List.range (keys.length + 1)).map fun i => natStr (1 + i)) ⊆ keys := by
    intro w hw
    obtain ⟨i, hi, rfl⟩ := List.mem_map.1 hw
    exact hall i (by have := List.mem_range.1 hi; omega)
  have := (hnd.subperm hsub).length_le
  simp at this

/-! ## The dictionary of densities -/

section
variable {K : Type} [Field K] [LinearOrder K]

/-- What the dictionary of densities has to satisfy after some cells. -/
structure DensityDict (d : List (Int × List K)) (P : Int → K → Prop) : Prop where
  nodup : (d.map Prod.fst).Nodup
  mem : ∀ z x, (∃ ds, (z, ds) ∈ d ∧ x ∈ ds) ↔ P z x
  good : ∀ z ds, (z, ds) ∈ d → ds.Nodup ∧ ds ≠ []

private theorem step_none {d : List (Int × List K)} {P : Int → K → Prop} (h : DensityDict d P) {z : Int} (hz : d.lookup z = none) (x : K) :
    DensityDict (dictSet d z [x]) fun z' x' => P z' x' ∨ (z' = z ∧ x' = x) := by
  have hk := lookup_none_iff.1 hz
  have hmem : ∀ e, e ∈ dictSet d z [x] ↔ e ∈ d ∨ e = (z, [x]) := by
    intro e; rw [dictSet_fresh hk]; simp
  refine ⟨dictSet_nodup h.nodup _ _, ?_, ?_⟩
  · intro z' x'
    rw [← h.mem]
    simp only [hmem]
    constructor
    · rintro ⟨ds, h1 | h1, h2⟩
      · exact Or.inl ⟨ds, h1, h2⟩
      · cases h1; exact Or.inr ⟨rfl, by simpa using h2⟩
    · rintro (⟨ds, h1, h2⟩ | ⟨rfl, rfl⟩)
      · exact ⟨ds, Or.inl h1, h2⟩
      · exact ⟨_, Or.inr rfl, by simp⟩
  · intro z' ds h1
    rcases (hmem _).1 h1 with h1 | h1
    · exact h.good _ _ h1
    · cases h1; simp

private theorem step_some {d : List (Int × List K)} {P : Int → K → Prop} (h : DensityDict d P) {z : Int} {ds : List K} (hz : d.lookup z = some ds) (x : K) :
    DensityDict (if x ∈ ds then d else dictSet d z (ds ++ [x])) fun z' x' => P z' x' ∨ (z' = z ∧ x' = x) := by
  have hd := (lookup_iff_mem h.nodup).1 hz
  split
  · rename_i hx
    refine ⟨h.nodup, ?_, h.good⟩
    intro z' x'
    rw [h.mem]
    constructor
    · exact Or.inl
    · rintro (h1 | ⟨rfl, rfl⟩)
      · exact h1
      · exact (h.mem _ _).1 ⟨ds, hd, hx⟩
  · rename_i hx
    have hmem : ∀ z' ds', (z', ds') ∈ dictSet d z (ds ++ [x]) ↔ ((z', ds') ∈ d ∧ z' ≠ z) ∨ (z' = z ∧ ds' = ds ++ [x]) := by
      intro z' ds'
      rw [← lookup_iff_mem (dictSet_nodup h.nodup _ _), lookup_dictSet, ← lookup_iff_mem h.nodup]
      by_cases e : z' = z
      · rw [if_pos e]; simp only [e, Option.some.injEq, ne_eq, not_true, and_false, false_or, true_and]
        exact eq_comm
      · rw [if_neg e]; simp [e]
    refine ⟨dictSet_nodup h.nodup _ _, ?_, ?_⟩
    · intro z' x'
      rw [← h.mem]
      simp only [hmem]
      constructor
      · rintro ⟨ds', ⟨h1, h2⟩ | ⟨rfl, rfl⟩, h3⟩
        · exact Or.inl ⟨ds', h1, h3⟩
        · rcases List.mem_append.1 h3 with h3 | h3
          · exact Or.inl ⟨ds, hd, h3⟩
          · exact Or.inr ⟨rfl, by simpa using h3⟩
      · rintro (⟨ds', h1, h2⟩ | ⟨rfl, rfl⟩)
        · by_cases e : z' = z
          · subst e
            have : ds' = ds := by
              have := (lookup_iff_mem h.nodup).2 h1
              rw [hz] at this
              exact (Option.some.inj this).symm
            subst this
            exact ⟨_, Or.inr ⟨rfl, rfl⟩, by simp [h2]⟩
          · exact ⟨ds', Or.inl ⟨h1, e⟩, h2⟩
        · exact ⟨_, Or.inr ⟨rfl, rfl⟩, by simp⟩
    · intro z' ds' h1
      rcases (hmem _ _).1 h1 with ⟨h1, -⟩ | ⟨rfl, rfl⟩
      · exact h.good _ _ h1
      · refine ⟨?_, by simp⟩
        rw [List.nodup_append]
        refine ⟨(h.good _ _ hd).1, by simp, ?_⟩
        intro a ha b hb e
        rw [List.mem_singleton] at hb
        subst hb; subst e
        exact hx ha

theorem DensityDict.congr {d : List (Int × List K)} {P Q : Int → K → Prop} (h : DensityDict d P) (e : ∀ z x, P z x ↔ Q z x) : DensityDict d Q :=
  ⟨h.nodup, fun z x => (h.mem z x).trans (e z x), h.good⟩

theorem materialDensity_spec (cells : List (Cell K)) (hint : ∀ c ∈ cells, ∃ z, c.material = .int z) : ∀ (d : List (Int × List K)) (P : Int → K → Prop), DensityDict d P →
    ∃ d', materialDensity d cells = .ok d' ∧ DensityDict d' fun z x => P z x ∨ ∃ c ∈ cells, c.material = .int z ∧ c.density = x := by
  induction cells with
  | nil => intro d P h; exact ⟨d, rfl, h.congr (by simp)⟩
  | cons c cs ih =>
    intro d P h
    have ih := ih fun c hc => hint c (by simp [hc])
    obtain ⟨z, hz⟩ := hint c (by simp)
    unfold materialDensity
    rw [hz]
    simp only
    have fin : ∀ d1, DensityDict d1 (fun z' x' => P z' x' ∨ (z' = z ∧ x' = c.density)) →
        ∃ d', materialDensity d1 cs = .ok d' ∧ DensityDict d' fun z x => P z x ∨ ∃ c' ∈ c :: cs, c'.material = .int z ∧ c'.density = x := by
      intro d1 h1
      obtain ⟨d', h2, h3⟩ := ih d1 _ h1
      refine ⟨d', h2, h3.congr ?_⟩
      intro z' x'
      simp only [List.mem_cons, exists_eq_or_imp, hz, MatNum.int.injEq]
      constructor
      · rintro ((a | ⟨rfl, rfl⟩) | a)
        · exact Or.inl a
        · exact Or.inr (Or.inl ⟨rfl, rfl⟩)
        · exact Or.inr (Or.inr a)
      · rintro (a | ⟨rfl, rfl⟩ | a)
        · exact Or.inl (Or.inl a)
        · exact Or.inl (Or.inr ⟨rfl, rfl⟩)
        · exact Or.inr a
    split
    · rename_i ds hl
      exact fin _ (step_some h hl _)
    · rename_i hl
      exact fin _ (step_none h hl _)

/-! ## Copies -/

/-- The renaming of a cell: `f z d` is the number of the copy for material `z` and density `d`. -/
def renCell (f : Int → K → Option Str) (c : Cell K) : Cell K :=
  match c.material with
  | .str _ => c
  | .int z => match f z c.density with
    | some k => { c with material := .str k }
    | none => c

/-- The invariant of the loops. -/
structure CopyInv (mats0 mats : List (Str × Material K)) (f : Int → K → Option Str) : Prop where
  nodup : (mats.map Prod.fst).Nodup
  fresh : ∀ z d k, f z d = some k → k ∉ mats0.map Prod.fst
  pos : ∀ z d k, f z d = some k → ∃ n, 0 < n ∧ k = natStr n
  copy : ∀ z d k, f z d = some k → ∃ m0 m, mats0.lookup (intStr z) = some m0 ∧ mats.lookup k = some m ∧ m.composition = m0.composition ∧ m.density = d ∧ m.number = k
  inj : ∀ z d z' d' k, f z d = some k → f z' d' = some k → z = z' ∧ d = d'
  orig : ∀ k m0, mats0.lookup k = some m0 → ∃ m, mats.lookup k = some m ∧ m.composition = m0.composition ∧ m.number = m0.number
  only : ∀ k, k ∈ mats.map Prod.fst → k ∈ mats0.map Prod.fst ∨ ∃ z d, f z d = some k

private theorem lookup_some_mem {mats : List (Str × Material K)} {k : Str} {m : Material K} (h : mats.lookup k = some m) : k ∈ mats.map Prod.fst := by
  by_contra hk
  rw [lookup_none_iff.2 hk] at h
  cases h

private theorem renCell_update (f : Int → K → Option Str) (z : Int) (x : K) (k : Str) (hf : f z x = none) (c : Cell K) :
    (if (renCell f c).material = .int z ∧ (renCell f c).density = x then { renCell f c with material := .str k } else renCell f c) =
      renCell (fun z' x' => if z' = z ∧ x' = x then some k else f z' x') c := by
  unfold renCell
  rcases hm : c.material with z' | s
  · simp only
    by_cases h : z' = z ∧ c.density = x
    · obtain ⟨rfl, rfl⟩ := h
      rw [hf]
      simp [hm]
    · rw [if_neg h]
      split
      · simp
      · rw [if_neg]
        rw [hm]
        intro hh
        exact h ⟨by simpa using hh.1, hh.2⟩
  · simp [hm]

theorem copyMaterials_spec (io : NumIO K) (mats0 : List (Str × Material K)) (cells : List (Cell K)) (z : Int) : ∀ (ds : List K) (mats : List (Str × Material K)) (f : Int → K → Option Str),
    ds.Nodup → (∀ d ∈ ds, f z d = none) → intStr z ∈ mats0.map Prod.fst → CopyInv mats0 mats f →
    ∃ mats' f', copyMaterials io z ds mats (cells.map (renCell f)) = .ok (mats', cells.map (renCell f')) ∧ CopyInv mats0 mats' f' ∧
      (∀ d ∈ ds, f' z d ≠ none) ∧ (∀ z' d', ¬ (z' = z ∧ d' ∈ ds) → f' z' d' = f z' d') ∧
      ∀ k ∈ mats0.map Prod.fst, mats'.lookup k = mats.lookup k := by
  intro ds
  induction ds with
  | nil =>
    intro mats f _ _ _ hinv
    exact ⟨mats, f, rfl, hinv, by simp, by simp, by simp⟩
  | cons x ds ih =>
    intro mats f hnd hf hz hinv
    rw [List.nodup_cons] at hnd
    obtain ⟨m0, hm0⟩ : ∃ m0, mats0.lookup (intStr z) = some m0 := by
      rcases h : mats0.lookup (intStr z) with _ | m0
      · exact absurd hz (lookup_none_iff.1 h)
      · exact ⟨m0, rfl⟩
    obtain ⟨m, hm, hmc, hmn⟩ := hinv.orig _ _ hm0
    unfold copyMaterials
    rw [hm]
    simp only
    generalize hk : nextFreeInt (mats.map Prod.fst) = k
    have hfresh : k ∉ mats.map Prod.fst := hk ▸ nextFreeInt_fresh _
    have hk0 : k ∉ mats0.map Prod.fst := by
      intro h
      rcases h' : mats0.lookup k with _ | m1
      · exact lookup_none_iff.1 h' h
      · obtain ⟨m2, h2, -⟩ := hinv.orig _ _ h'
        exact hfresh (lookup_some_mem h2)
    have hkf : ∀ z' d', f z' d' ≠ some k := by
      intro z' d' h
      obtain ⟨_, m2, -, h2, -⟩ := hinv.copy _ _ _ h
      exact hfresh (lookup_some_mem h2)
    rw [List.map_map]
    have hmap : (cells.map ((fun c : Cell K => if c.material = .int z ∧ c.density = x then { c with material := .str k } else c) ∘ renCell f)) =
        cells.map (renCell fun z' x' => if z' = z ∧ x' = x then some k else f z' x') := by
      apply List.map_congr_left
      intro c _
      exact renCell_update f z x k (hf x (by simp)) c
    rw [hmap]
    have hinv' : CopyInv mats0 (dictSet mats k { m with density := x, number := k, name := c!"Copy of Material " ++ intStr z ++ c!" with density " ++ io.render x })
        (fun z' x' => if z' = z ∧ x' = x then some k else f z' x') := by
      refine ⟨dictSet_nodup hinv.nodup _ _, ?_, ?_, ?_, ?_, ?_, ?_⟩
      · intro z' d' k' h
        split at h
        · cases h; exact hk0
        · exact hinv.fresh _ _ _ h
      · intro z' d' k' h
        split at h
        · cases h
          exact ⟨_, nextFreeGo_ge (mats.map Prod.fst) _ 1, hk.symm⟩
        · exact hinv.pos _ _ _ h
      · intro z' d' k' h
        split at h
        · rename_i e
          obtain ⟨rfl, rfl⟩ := e
          cases h
          refine ⟨m0, { m with density := d', number := k, name := c!"Copy of Material " ++ intStr z' ++ c!" with density " ++ io.render d' }, hm0,
            by rw [lookup_dictSet, if_pos rfl], hmc, rfl, rfl⟩
        · obtain ⟨m1, m2, h1, h2, h3, h4, h6⟩ := hinv.copy _ _ _ h
          refine ⟨m1, m2, h1, ?_, h3, h4, h6⟩
          rw [lookup_dictSet, if_neg, h2]
          rintro rfl
          exact hkf _ _ h
      · intro z1 d1 z2 d2 k' h1 h2
        split at h1
        · rename_i e1
          cases h1
          split at h2
          · rename_i e2
            exact ⟨e1.1.trans e2.1.symm, e1.2.trans e2.2.symm⟩
          · exact absurd h2 (hkf _ _)
        · split at h2
          · cases h2; exact absurd h1 (hkf _ _)
          · exact hinv.inj _ _ _ _ _ h1 h2
      · intro k' m1 h1
        obtain ⟨m2, h2, h3⟩ := hinv.orig _ _ h1
        refine ⟨m2, ?_, h3⟩
        rw [lookup_dictSet, if_neg, h2]
        rintro rfl
        exact hk0 (lookup_some_mem h1)
      · intro k' hk'
        rcases dictSet_mem_keys.1 hk' with rfl | h
        · exact Or.inr ⟨z, x, by simp⟩
        · rcases hinv.only _ h with h | ⟨z', d', h⟩
          · exact Or.inl h
          · refine Or.inr ⟨z', d', ?_⟩
            rw [if_neg, h]
            rintro ⟨rfl, rfl⟩
            rw [hf _ (by simp)] at h
            cases h
    obtain ⟨mats', f', h1, h2, h3, h4, h5⟩ := ih _ _ hnd.2 (by
      intro d hd
      simp only
      rw [if_neg (by rintro ⟨-, rfl⟩; exact hnd.1 hd)]
      exact hf d (by simp [hd])) hz hinv'
    refine ⟨mats', f', h1, h2, ?_, ?_, ?_⟩
    · intro d hd
      rcases List.mem_cons.1 hd with rfl | hd
      · by_cases hh : d ∈ ds
        · exact h3 d hh
        · rw [h4 z d (fun h => hh h.2)]; simp
      · exact h3 d hd
    · intro z' d' hn
      rw [h4 z' d' (fun h => hn ⟨h.1, by simp [h.2]⟩)]
      rw [if_neg (fun h => hn ⟨h.1, by simp [h.2]⟩)]
    · intro k' hk'
      rw [h5 k' hk', lookup_dictSet, if_neg]
      rintro rfl
      exact hk0 hk'

theorem assignDensities_spec (io : NumIO K) (mats0 : List (Str × Material K)) (cells : List (Cell K)) : ∀ (md : List (Int × List K)) (mats : List (Str × Material K)) (f : Int → K → Option Str),
    (md.map Prod.fst).Nodup → (∀ z ds, (z, ds) ∈ md → ds.Nodup ∧ ds ≠ [] ∧ intStr z ∈ mats0.map Prod.fst ∧ ∀ d, f z d = none) → CopyInv mats0 mats f →
    ∃ mats' f', assignDensities io md mats (cells.map (renCell f)) = .ok (mats', cells.map (renCell f')) ∧ CopyInv mats0 mats' f' ∧
      (∀ z ds, (z, ds) ∈ md → ∃ d0 m, d0 ∈ ds ∧ f' z d0 = none ∧ mats'.lookup (intStr z) = some m ∧ m.density = d0 ∧ ∀ d ∈ ds, d ≠ d0 → f' z d ≠ none) ∧
      (∀ z d, z ∉ md.map Prod.fst → f' z d = f z d) ∧
      ∀ k ∈ mats0.map Prod.fst, (∀ z ∈ md.map Prod.fst, k ≠ intStr z) → mats'.lookup k = mats.lookup k := by
  intro md
  induction md with
  | nil =>
    intro mats f _ _ hinv
    exact ⟨mats, f, rfl, hinv, by simp, by simp, by simp⟩
  | cons e md ih =>
    obtain ⟨z, ds⟩ := e
    intro mats f hnd hmd hinv
    rw [List.map_cons, List.nodup_cons] at hnd
    obtain ⟨hds, hne, hz, hfz⟩ := hmd z ds (by simp)
    obtain ⟨d0, ds, rfl⟩ := List.exists_cons_of_ne_nil hne
    rw [List.nodup_cons] at hds
    obtain ⟨m0, hm0⟩ : ∃ m0, mats0.lookup (intStr z) = some m0 := by
      rcases h : mats0.lookup (intStr z) with _ | m0
      · exact absurd hz (lookup_none_iff.1 h)
      · exact ⟨m0, rfl⟩
    obtain ⟨m, hm, hmc, hmn⟩ := hinv.orig _ _ hm0
    have hkey : intStr z ∈ mats.map Prod.fst := lookup_some_mem hm
    have hinv1 : CopyInv mats0 (dictSet mats (intStr z) { m with density := d0 }) f := by
      refine ⟨dictSet_nodup hinv.nodup _ _, hinv.fresh, hinv.pos, ?_, hinv.inj, ?_, ?_⟩
      · intro z' d' k h
        obtain ⟨m1, m2, h1, h2, h3, h4, h6⟩ := hinv.copy _ _ _ h
        refine ⟨m1, m2, h1, ?_, h3, h4, h6⟩
        rw [lookup_dictSet, if_neg, h2]
        rintro rfl
        exact hinv.fresh _ _ _ h hz
      · intro k m1 h1
        rw [lookup_dictSet]
        by_cases e : k = intStr z
        · subst e
          rw [if_pos rfl]
          rw [hm0] at h1
          cases h1
          exact ⟨_, rfl, hmc, hmn⟩
        · rw [if_neg e]
          exact hinv.orig _ _ h1
      · intro k hk
        rcases dictSet_mem_keys.1 hk with rfl | h
        · exact Or.inl hz
        · exact hinv.only _ h
    obtain ⟨mats1, f1, h1, h2, h3, h4, h5⟩ := copyMaterials_spec io mats0 cells z ds _ f hds.2 (fun d _ => hfz d) hz hinv1
    have hother : ∀ z' ds', (z', ds') ∈ md → z' ≠ z := by
      rintro z' ds' h rfl
      exact hnd.1 (List.mem_map.2 ⟨_, h, rfl⟩)
    obtain ⟨mats2, f2, g1, g2, g3, g4, g5⟩ := ih mats1 f1 hnd.2 (by
      intro z' ds' h
      obtain ⟨a1, a2, a3, a4⟩ := hmd z' ds' (by simp [h])
      refine ⟨a1, a2, a3, fun d => ?_⟩
      rw [h4 z' d (fun hh => hother _ _ h hh.1)]
      exact a4 d) h2
    refine ⟨mats2, f2, ?_, g2, ?_, ?_, ?_⟩
    · unfold assignDensities
      rw [hm]
      simp only [pyGet, List.getElem?_cons_zero, bind, Except.bind, List.drop_succ_cons, List.drop_zero]
      rw [h1]
      exact g1
    · intro z' ds' h
      rcases List.mem_cons.1 h with h | h
      · cases h
        refine ⟨d0, { m with density := d0 }, by simp, ?_, ?_, rfl, ?_⟩
        · rw [g4 z d0 hnd.1, h4 z d0 (fun h => hds.1 h.2)]
          exact hfz d0
        · rw [g5 _ hz, h5 _ hz, lookup_dictSet, if_pos rfl]
          intro z' hz' e
          have : z = z' := intStr_injective e
          subst this
          exact hnd.1 hz'
        · intro d hd hne
          rw [g4 z d hnd.1]
          exact h3 d (by
            rcases List.mem_cons.1 hd with rfl | hd
            · exact absurd rfl hne
            · exact hd)
      · exact g3 z' ds' h
    · intro z' d' hz'
      rw [List.map_cons, List.mem_cons, not_or] at hz'
      rw [g4 z' d' hz'.2, h4 z' d' (fun h => hz'.1 h.1)]
    · intro k hk hne
      rw [g5 k hk (fun z' hz' => hne z' (by simp [hz'])), h5 k hk, lookup_dictSet, if_neg (hne z (by simp))]

end

end Csg
