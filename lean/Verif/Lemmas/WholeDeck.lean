import Verif.Lemmas.Substance
import Verif.Lemmas.FlukaNames
import Verif.Lemmas.FormatF
import Verif.Spec.Whole
import Verif.Props.Processing
import Verif.Spec.SurfaceCodes

/-!
# Where the parts of a processed deck come from
-/

set_option linter.unusedSectionVars false

namespace Csg

open Spec

section
variable {K : Type} [Field K] [LinearOrder K] [IsStrictOrderedRing K]

theorem exact_prints {io : NumIO K} (hio : Exact io) (x : K) : Prints io.parse io.render x := by
  refine ⟨?_, (hio.text x).chars, hio.reads x⟩
  obtain ⟨sign, digits, fraction, exponent, e, -, h2, -⟩ := hio.text x
  rw [e]
  simp [h2]

/-! ## Materials -/

/-- A material of the new list comes from one of the old list, with the same composition and libraries. It has its density or a new one, and its name and number, or a new number and a telling name. -/
def ComesFrom (io : NumIO K) (D : K → Prop) (N : Nat) (mats : List (Str × Material K)) (m : Material K) : Prop :=
  ∃ e0 ∈ mats, m = { e0.2 with density := m.density, number := m.number, name := m.name } ∧ (m.density = e0.2.density ∨ D m.density) ∧
    ((m.name = e0.2.name ∧ m.number = e0.2.number) ∨
      (∃ k : Nat, 0 < k ∧ k ≤ N ∧ m.number = natStr k) ∧ ∃ (z : Int) (x : K), m.name = c!"Copy of Material " ++ intStr z ++ c!" with density " ++ io.render x)

private theorem mem_dictSet_imp {κ ν : Type} [DecidableEq κ] {d : List (κ × ν)} {k : κ} {v : ν} {e : κ × ν} (h : e ∈ dictSet d k v) : e ∈ d ∨ e = (k, v) := by
  induction d with
  | nil => simpa [dictSet] using h
  | cons a d ih =>
    obtain ⟨k', v'⟩ := a
    unfold dictSet at h
    split at h
    · rcases List.mem_cons.1 h with rfl | h
      · simp
      · simp [h]
    · rcases List.mem_cons.1 h with rfl | h
      · simp
      · rcases ih h with h | h
        · simp [h]
        · exact .inr h

private theorem length_dictSet {κ ν : Type} [DecidableEq κ] {d : List (κ × ν)} {k : κ} {v : ν} : (dictSet d k v).length ≤ d.length + 1 := by
  induction d with
  | nil => simp [dictSet]
  | cons a d ih =>
    obtain ⟨k', v'⟩ := a
    unfold dictSet
    split <;> simp only [List.length_cons] <;> omega

private theorem length_dictSet_old {κ ν : Type} [DecidableEq κ] {d : List (κ × ν)} {k : κ} {v : ν} (h : k ∈ d.map Prod.fst) : (dictSet d k v).length = d.length := by
  have := congrArg List.length (dictSet_keys d k v)
  rw [if_pos h] at this
  simpa using this

private theorem sum_dictSet {d : List (Int × List K)} {k : Int} {v : List K} {u : List K} (h : d.lookup k = some u) :
    ((dictSet d k v).map fun e => e.2.length).sum + u.length = (d.map fun e => e.2.length).sum + v.length := by
  induction d with
  | nil => cases h
  | cons a d ih =>
    obtain ⟨k', v'⟩ := a
    unfold dictSet
    rw [List.lookup_cons] at h
    by_cases e : k = k'
    · subst e
      simp only [beq_self_eq_true] at h
      cases h
      simp only [if_true, List.map_cons, List.sum_cons]
      omega
    · have e' : ¬ k' = k := fun h => e h.symm
      rw [show (k == k') = false by simpa using e] at h
      simp only [if_neg e', List.map_cons, List.sum_cons]
      have := ih h
      omega

private theorem materialDensity_sum : ∀ {cells : List (Cell K)} {d d' : List (Int × List K)}, materialDensity d cells = .ok d' →
    (d'.map fun e => e.2.length).sum ≤ (d.map fun e => e.2.length).sum + cells.length := by
  intro cells
  induction cells with
  | nil => intro d d' h; cases h; simp
  | cons c cells ih =>
    intro d d' h
    unfold materialDensity at h
    split at h
    · cases h
    · rename_i z hz
      split at h
      · rename_i ds hds
        have := ih h
        split at this
        · simp only [List.length_cons]
          omega
        · have k := sum_dictSet (v := ds ++ [c.density]) hds
          simp only [List.length_append, List.length_cons, List.length_nil] at this k ⊢
          omega
      · rename_i hn
        have := ih h
        rw [dictSet_fresh (lookup_none_iff.1 hn)] at this
        simp only [List.map_append, List.sum_append, List.map_cons, List.map_nil, List.sum_cons, List.sum_nil, List.length_cons, List.length_nil] at this ⊢
        omega

private theorem nextFree_pos (keys : List Str) : ∃ k : Nat, 0 < k ∧ k ≤ keys.length + 1 ∧ nextFreeInt keys = natStr k := by
  have : ∀ f i, 0 < i → 0 < nextFreeGo keys f i ∧ nextFreeGo keys f i ≤ f + i := by
    intro f
    induction f with
    | zero => intro i hi; exact ⟨hi, by simp [nextFreeGo]⟩
    | succ f ih =>
      intro i hi
      unfold nextFreeGo
      split
      · obtain ⟨h1, h2⟩ := ih (i + 1) (by omega)
        exact ⟨h1, by omega⟩
      · exact ⟨hi, by omega⟩
  obtain ⟨h1, h2⟩ := this keys.length 1 (by omega)
  exact ⟨_, h1, h2, rfl⟩

private theorem copyMaterials_from {io : NumIO K} {D : K → Prop} {N : Nat} {mats0 : List (Str × Material K)} {z : Int} : ∀ {ds : List K} {mats mats' : List (Str × Material K)} {cells cells' : List (Cell K)},
    copyMaterials io z ds mats cells = .ok (mats', cells') → (∀ x ∈ ds, D x) → mats.length + ds.length ≤ N → (∀ e ∈ mats, ComesFrom io D N mats0 e.2) →
      mats'.length ≤ mats.length + ds.length ∧ ∀ e ∈ mats', ComesFrom io D N mats0 e.2 := by
  intro ds
  induction ds with
  | nil => intro mats mats' cells cells' h _ _ hl; cases h; exact ⟨by simp, hl⟩
  | cons x ds ih =>
    intro mats mats' cells cells' h hD hN hl
    unfold copyMaterials at h
    split at h
    · cases h
    · rename_i m hm
      have hlen := length_dictSet (d := mats) (k := nextFreeInt (mats.map Prod.fst))
        (v := { m with density := x, number := nextFreeInt (mats.map Prod.fst), name := c!"Copy of Material " ++ intStr z ++ c!" with density " ++ io.render x })
      simp only [List.length_cons] at hN
      obtain ⟨k1, k2⟩ := ih h (fun y hy => hD y (by simp [hy])) (by omega) (by
        intro e he
        rcases mem_dictSet_imp he with he | rfl
        · exact hl e he
        · obtain ⟨e0, h0, hm0, -⟩ := hl _ (mem_of_lookup hm)
          obtain ⟨k, j1, j2, j3⟩ := nextFree_pos (mats.map Prod.fst)
          rw [List.length_map] at j2
          refine ⟨e0, h0, ?_, .inr (hD x (by simp)), .inr ⟨⟨k, j1, by omega, j3⟩, z, x, rfl⟩⟩
          simp only at hm0 ⊢
          rw [show m.composition = e0.2.composition by rw [hm0], show m.xsid = e0.2.xsid by rw [hm0]])
      refine ⟨?_, k2⟩
      simp only [List.length_cons]
      omega

private theorem assignDensities_from {io : NumIO K} {D : K → Prop} {N : Nat} {mats0 : List (Str × Material K)} : ∀ {md : List (Int × List K)} {mats mats' : List (Str × Material K)} {cells cells' : List (Cell K)},
    assignDensities io md mats cells = .ok (mats', cells') → (∀ e ∈ md, ∀ x ∈ e.2, D x) → mats.length + (md.map fun e => e.2.length).sum ≤ N → (∀ e ∈ mats, ComesFrom io D N mats0 e.2) →
      ∀ e ∈ mats', ComesFrom io D N mats0 e.2 := by
  intro md
  induction md with
  | nil => intro mats mats' cells cells' h _ _ hl; cases h; exact hl
  | cons e md ih =>
    obtain ⟨z, ds⟩ := e
    intro mats mats' cells cells' h hD hN hl
    unfold assignDensities at h
    split at h
    · cases h
    · rename_i m hm
      obtain ⟨d0, hd0, h⟩ := bind_ok h
      obtain ⟨⟨mats1, cells1⟩, hc, h⟩ := bind_ok h
      have hmem : d0 ∈ ds := by
        unfold pyGet at hd0
        split at hd0
        · rename_i hx
          cases hd0
          exact List.mem_of_getElem? hx
        · cases hd0
      have hlen := length_dictSet_old (v := { m with density := d0 }) (List.mem_map_of_mem (mem_of_lookup hm) : intStr z ∈ mats.map Prod.fst)
      simp only [List.map_cons, List.sum_cons] at hN
      obtain ⟨k1, k2⟩ := copyMaterials_from (N := N) hc (fun x hx => hD (z, ds) (by simp) x (List.drop_subset _ _ hx)) (by
        rw [hlen, List.length_drop]
        omega) (by
        intro e he
        rcases mem_dictSet_imp he with he | rfl
        · exact hl e he
        · obtain ⟨e0, h0, hm0, -, hn⟩ := hl _ (mem_of_lookup hm)
          refine ⟨e0, h0, ?_, .inr (hD (z, ds) (by simp) d0 hmem), hn⟩
          simp only at hm0 ⊢
          rw [show m.composition = e0.2.composition by rw [hm0], show m.xsid = e0.2.xsid by rw [hm0]])
      refine ih h (fun e he => hD e (by simp [he])) ?_ k2
      rw [hlen, List.length_drop] at k1
      omega

private theorem materialDensity_ints : ∀ {cells : List (Cell K)} {d d' : List (Int × List K)}, materialDensity d cells = .ok d' → ∀ c ∈ cells, ∃ z, c.material = .int z := by
  intro cells
  induction cells with
  | nil => intro d d' _ c hc; cases hc
  | cons c cells ih =>
    intro d d' h c' hc'
    unfold materialDensity at h
    split at h
    · cases h
    · rename_i z hz
      rcases List.mem_cons.1 hc' with rfl | hc'
      · exact ⟨z, hz⟩
      · split at h <;> exact ih h c' hc'

/-- Every material of the processed deck comes from one of the input; it is normalised and expanded, if a cell has a material. -/
theorem reorganise_from {io : NumIO K} {mats mats' : List (Str × Material K)} {cells cells' : List (Cell K)} (h : reorganiseMaterials io mats cells = .ok (mats', cells')) :
    (mats' = mats ∧ ∀ c ∈ cells, c.material = .int 0) ∨
      ∀ e ∈ mats', ∃ m n, ComesFrom io (fun x => ∃ c ∈ cells, c.density = x) (mats.length + cells.length) mats m ∧ m.normalise = .ok n ∧ n.explode = .ok e.2 := by
  unfold reorganiseMaterials at h
  obtain ⟨md, hmd, h⟩ := bind_ok h
  have hints := materialDensity_ints hmd
  have hsum := materialDensity_sum hmd
  obtain ⟨md', k1, k2⟩ := materialDensity_spec cells hints [] (fun _ _ => False) ⟨by simp, by simp, by simp⟩
  rw [hmd] at k1
  cases k1
  simp only at h
  split at h
  · rename_i he
    cases h
    refine .inl ⟨rfl, fun c hc => ?_⟩
    obtain ⟨z, hz⟩ := hints c hc
    obtain ⟨ds, h1, -⟩ := (k2.mem z c.density).2 (.inr ⟨c, hc, hz, rfl⟩)
    by_contra hne
    have : (z, ds) ∈ md.filter fun e => e.1 ≠ 0 := List.mem_filter.2 ⟨h1, by
      rw [hz] at hne
      simpa using hne⟩
    rw [he] at this
    cases this
  · obtain ⟨⟨mats1, cells1⟩, h1, h⟩ := bind_ok h
    obtain ⟨mats2, h2, h⟩ := bind_ok h
    cases h
    refine .inr fun e he => ?_
    obtain ⟨e1, he1, k⟩ := forall₂_right (mapM_ok_forall₂ h2) e he
    obtain ⟨m1, k1, k⟩ := bind_ok k
    obtain ⟨m2, k2', k⟩ := bind_ok k
    cases k
    refine ⟨e1.2, m1, assignDensities_from h1 ?_ ?_ (fun e he => ⟨e, he, rfl, .inl rfl, .inl ⟨rfl, rfl⟩⟩) e1 he1, k1, k2'⟩
    · intro e he x hx
      have he := (List.mem_filter.1 ((List.perm_insertionSort _ _).subset he)).1
      rcases (k2.mem e.1 x).1 ⟨e.2, he, hx⟩ with h | ⟨c, hc, -, h⟩
      · exact h.elim
      · exact ⟨c, hc, h⟩
    · rw [((List.perm_insertionSort _ _).map _).sum_eq]
      have : ((md.filter fun e => e.1 ≠ 0).map fun e => e.2.length).sum ≤ (md.map fun e => e.2.length).sum := (List.filter_sublist.map _).sum_le_sum (by simp)
      simp only [List.map_nil, List.sum_nil, Nat.zero_add] at hsum
      omega

/-- The names of materials after processing. -/
def MaterialName (io : NumIO K) (s : Str) : Prop :=
  (∃ k, s = c!"M" ++ natStr k) ∨ ∃ (z : Int) (x : K), s = c!"Copy of Material " ++ intStr z ++ c!" with density " ++ io.render x

/-- The entries of the new composition: as in the old one or natural nuclides of an element, scaled by a positive number, which is 1 or the total. -/
def EntriesFrom (comp comp' : List (Str × K)) : Prop :=
  ∃ s : K, 0 < s ∧ (s = 1 ∨ s = total comp) ∧ ∀ e' ∈ comp', ∃ e ∈ comp, e' = (e.1, e.2 / s) ∨
    ∃ z, e.1 = natStr (1000 * z) ∧ ∃ d ∈ natural z, e' = (natStr (d.nucid / 10000), e.2 * ((d.abundance : K) / 100) / s)

private theorem substance_entries {comp comp' : List (Str × K)} (ht : 0 < total comp) (h : SameSubstance comp comp') : EntriesFrom comp comp' := by
  obtain ⟨⟨parts, h1, h2⟩, -⟩ := h
  refine ⟨total comp, ht, .inr rfl, fun e' he' => ?_⟩
  obtain ⟨x, hx, rfl⟩ := List.mem_map.1 (h2.subset he')
  obtain ⟨part, hp, hx⟩ := List.mem_flatten.1 hx
  obtain ⟨e, he, k⟩ := forall₂_right h1 part hp
  refine ⟨e, he, ?_⟩
  rcases k with ⟨z, hz, rfl⟩ | ⟨-, rfl⟩
  · obtain ⟨d, hd, rfl⟩ := List.mem_map.1 hx
    exact .inr ⟨z, hz, d, hd, rfl⟩
  · rw [List.mem_singleton] at hx
    subst hx
    exact .inl rfl

private theorem fold_keys {ν : Type} (new : List (Str × ν)) : ∀ d : List (Str × ν), (d.map Prod.fst).Nodup → ((new.foldl (fun d e => dictSet d e.1 e.2) d).map Prod.fst).Nodup ∧
    ∀ k, k ∈ (new.foldl (fun d e => dictSet d e.1 e.2) d).map Prod.fst → k ∈ new.map Prod.fst ∨ k ∈ d.map Prod.fst := by
  induction new with
  | nil => intro d h; exact ⟨h, fun k hk => .inr hk⟩
  | cons a new ih =>
    intro d h
    obtain ⟨h1, h2⟩ := ih (dictSet d a.1 a.2) (dictSet_nodup h _ _)
    refine ⟨h1, fun k hk => ?_⟩
    rcases h2 k hk with h | h
    · simp [h]
    · rw [dictSet_mem_keys] at h
      rcases h with rfl | h
      · simp
      · exact .inr h

private theorem fold_lookup (new : List (Str × K)) (k : Str) : ∀ d : List (Str × Str),
    (new.foldl (fun d e => dictSet d e.1 []) d).lookup k = if k ∈ new.map Prod.fst then some [] else d.lookup k := by
  induction new with
  | nil => intro d; simp
  | cons a new ih =>
    intro d
    rw [List.foldl_cons, ih, lookup_dictSet]
    by_cases h : k ∈ new.map Prod.fst
    · simp [h]
    · by_cases h' : k = a.1
      · simp [h, h']
      · simp [h, h']

/-- Normalising and expanding keeps keys apart and libraries known. -/
private theorem prepare_facts {m n m' : Material K} (hn : (m.composition.map Prod.fst).Nodup) (h1 : m.normalise = .ok n) (h2 : n.explode = .ok m') :
    (m'.name = m.name ∧ m'.number = m.number ∧ m'.density = m.density) ∧ (m'.composition.map Prod.fst).Nodup ∧
      ∀ P : Str → Prop, P [] → (∀ e ∈ m.composition, ∃ x, m.xsid.lookup e.1 = some x ∧ P x) → ∀ e ∈ m'.composition, ∃ x, m'.xsid.lookup e.1 = some x ∧ P x := by
  have e1 : n.name = m.name ∧ n.number = m.number ∧ n.density = m.density ∧ n.xsid = m.xsid ∧ n.composition.map Prod.fst = m.composition.map Prod.fst := by
    unfold Material.normalise at h1
    simp only at h1
    split at h1
    · cases h1
    · cases h1
      exact ⟨rfl, rfl, rfl, rfl, by simp [List.map_map, Function.comp_def]⟩
  obtain ⟨a1, a2, a3, a4, a5⟩ := e1
  unfold Material.explode at h2
  obtain ⟨⟨keys, new⟩, -, h2⟩ := bind_ok h2
  cases h2
  have hb : ((n.composition.filter fun e => e.1 ∉ keys).map Prod.fst).Nodup := (List.Sublist.map _ List.filter_sublist).nodup (a5 ▸ hn)
  obtain ⟨f1, f2⟩ := fold_keys new _ hb
  refine ⟨⟨a1, a2, a3⟩, f1, ?_⟩
  intro P h0 hP e he
  show ∃ x, (new.foldl (fun d e => dictSet d e.1 []) n.xsid).lookup e.1 = some x ∧ P x
  rw [fold_lookup]
  by_cases h : e.1 ∈ new.map Prod.fst
  · exact ⟨[], by rw [if_pos h], h0⟩
  · rw [if_neg h, a4]
    rcases f2 e.1 (List.mem_map_of_mem he) with hh | hh
    · exact absurd hh h
    · have : e.1 ∈ m.composition.map Prod.fst := by
        rw [← a5]
        exact (List.Sublist.map _ List.filter_sublist).subset hh
      obtain ⟨e0, he0, k⟩ := List.mem_map.1 this
      rw [← k]
      exact hP e0 he0

private theorem substance_nuclides {comp comp' : List (Str × K)} (h : SameSubstance comp comp') : ∀ e ∈ comp', ∀ z, e.1 ≠ natStr (1000 * z) := by
  obtain ⟨⟨parts, h1, h2⟩, -⟩ := h
  intro e he z hz
  obtain ⟨x, hx, rfl⟩ := List.mem_map.1 (h2.subset he)
  obtain ⟨part, hp, hx⟩ := List.mem_flatten.1 hx
  obtain ⟨e, -, k⟩ := forall₂_right h1 part hp
  rcases k with ⟨z', -, rfl⟩ | ⟨hne, rfl⟩
  · obtain ⟨d, hd, rfl⟩ := List.mem_map.1 hx
    have := natStr_injective hz
    obtain ⟨-, h1, h2, h3, h4⟩ := table_shape d (natural_mem hd).1
    omega
  · rw [List.mem_singleton] at hx
    subst hx
    exact hne z hz

/-- The materials of a processed deck. -/
theorem processed_list {fuel : Nat} {io : NumIO K} {cosDeg sqrt : K → K} {quick : Bool} {d d' : Deck K} (hl : Listed d.materials) (hat : ∀ m ∈ d.materials, AtomFractions m.2.composition)
    (hnum : ∀ m ∈ d.materials, ∃ k : Nat, 0 < k ∧ k < 10 ^ 9 ∧ m.1 = natStr k) (hname : ∀ m ∈ d.materials, m.2.name = c!"M" ++ m.1) (hsize : d.materials.length + d.cells.length < 10 ^ 9)
    (hcells : List.Forall₂ (fun c c' : Cell K => c'.density = c.density) d.cells d'.cells)
    (h : finishDeck fuel io cosDeg sqrt quick d = some (.ok d')) :
    Listed d'.materials ∧ ∀ e ∈ d'.materials, (∃ k : Nat, 0 < k ∧ k < 10 ^ 9 ∧ e.1 = natStr k) ∧ MaterialName io e.2.name ∧ e.2.composition ≠ [] ∧ (e.2.composition.map Prod.fst).Nodup ∧
      ∃ e0 ∈ d.materials, EntriesFrom e0.2.composition e.2.composition ∧
        (∀ P : Str → Prop, P [] → (∀ x ∈ e0.2.composition, ∃ y, e0.2.xsid.lookup x.1 = some y ∧ P y) → ∀ x ∈ e.2.composition, ∃ y, e.2.xsid.lookup x.1 = some y ∧ P y) ∧
        (e.2.density = e0.2.density ∨ ∃ c ∈ d.cells, e.2.density = c.density) ∧
        (e.2 = e0.2 ∧ (∀ c ∈ d'.cells, c.material = .int 0) ∨ total e.2.composition = 1 ∧ ∀ x ∈ e.2.composition, ∀ z, x.1 ≠ natStr (1000 * z)) := by
  obtain ⟨cells1, cells2, cells3, cells4, cells5, surfs1, surfs2, surfs3, surfs4, r⟩ := finishDeck_run h
  have hl' := reorganise_listed r.mats hl
  have h3 : List.Forall₂ (fun c c' : Cell K => c'.density = c.density) cells3 d'.cells := by
    obtain ⟨h56, -⟩ := r.final
    refine forall₂_trans (R := MatFrame) (fun a b c x y => ?_) (reorganiseMaterials_frame io r.mats) (forall₂_trans (T := fun a c : Cell K => c.density = a.density)
      (fun a b c x y => ?_) (applyImportances_frame io r.imps) h56)
    · unfold MatFrame at x
      rw [y, x]
    · rw [y, x]
  have hden : ∀ x, (∃ c ∈ cells3, c.density = x) → ∃ c ∈ d.cells, x = c.density := by
    rintro x ⟨c, hc, rfl⟩
    obtain ⟨c', hc', e⟩ := forall₂_left_mem h3 hc
    obtain ⟨c0, hc0, e0⟩ := forall₂_right hcells c' hc'
    exact ⟨c0, hc0, by rw [← e, e0]⟩
  have hlen3 : cells3.length = d.cells.length := by rw [h3.length_eq, hcells.length_eq]
  refine ⟨hl', fun e he => ?_⟩
  rcases reorganise_from r.mats with ⟨hm, hv⟩ | hm
  · rw [hm] at he
    obtain ⟨k, hk, hk9, ek⟩ := hnum e he
    refine ⟨⟨k, hk, hk9, ek⟩, .inl ⟨k, by rw [hname e he, ek]⟩, ?_, (hat e he).canonical.1, e, he, ⟨1, one_pos, .inl rfl, fun x hx => ⟨x, hx, .inl (by rw [div_one])⟩⟩, fun P _ hP => hP, .inl rfl, .inl ⟨rfl, ?_⟩⟩
    · intro h0
      have := (hat e he).total
      rw [h0] at this
      exact absurd this (by simp [total])
    · have hrun := r.mats
      have e4 : cells4 = cells3 := by
        unfold reorganiseMaterials at hrun
        obtain ⟨md, hmd, hrun⟩ := bind_ok hrun
        simp only at hrun
        split at hrun
        · injection hrun with hrun
          exact (congrArg Prod.snd hrun).symm
        · rename_i hne
          exfalso
          obtain ⟨md', k1, k2⟩ := materialDensity_spec cells3 (materialDensity_ints hmd) [] (fun _ _ => False) ⟨by simp, by simp, by simp⟩
          rw [hmd] at k1
          cases k1
          apply hne
          rw [List.filter_eq_nil_iff]
          rintro ⟨z, ds⟩ hz
          obtain ⟨-, hds⟩ := k2.good z ds hz
          obtain ⟨x, hx⟩ := List.exists_mem_of_ne_nil ds hds
          rcases (k2.mem z x).1 ⟨ds, hz, hx⟩ with h | ⟨c, hc, h, -⟩
          · exact h.elim
          · rw [hv c hc] at h
            cases h
            simp
      obtain ⟨h56, -⟩ := r.final
      intro c hc
      obtain ⟨c5, hc5, e5⟩ := forall₂_right h56 c hc
      obtain ⟨c4, hc4, e4'⟩ := forall₂_right (applyImportances_frame io r.imps) c5 hc5
      rw [e5]
      show c5.material = _
      rw [e4']
      exact hv c4 (e4 ▸ hc4)
  · obtain ⟨m, n, ⟨e0, h0, hm0, hdd, hnn⟩, h1, h2⟩ := hm e he
    have ec : m.composition = e0.2.composition := by rw [hm0]
    have ex : m.xsid = e0.2.xsid := by rw [hm0]
    have hat' : AtomFractions m.composition := by rw [ec]; exact hat e0 h0
    obtain ⟨⟨b1, b2, b3⟩, b4, b5⟩ := prepare_facts hat'.canonical.1 h1 h2
    have hsub := (prepared_substance hat').2 e.2 ⟨n, e.2, h1, h2, rfl⟩
    have hkey := hl'.2 e he
    refine ⟨?_, ?_, ?_, b4, e0, h0, ec ▸ substance_entries hat'.total hsub, ?_, ?_, .inr ⟨hsub.2, substance_nuclides hsub⟩⟩
    · rw [← hkey, b2]
      rcases hnn with ⟨-, hh⟩ | ⟨⟨k, j1, j2, j3⟩, -⟩
      · rw [hh, hl.2 e0 h0]
        exact hnum e0 h0
      · exact ⟨k, j1, by omega, j3⟩
    · rw [b1]
      rcases hnn with ⟨hh, -⟩ | ⟨-, hh⟩
      · rw [hh]
        obtain ⟨k, -, -, ek⟩ := hnum e0 h0
        exact .inl ⟨k, by rw [hname e0 h0, ek]⟩
      · exact .inr hh
    · intro hn0
      have := hsub.2
      rw [hn0] at this
      exact absurd this (by simp [total])
    · intro P hP hall
      exact b5 P hP (by rw [ec, ex]; exact hall)
    · rw [b3]
      exact hdd.imp id (hden _)

/-! ## Fills -/

/-- The transform of a fill after processing: as on the card, or from the TR card. -/
theorem processed_fills {fuel : Nat} {io : NumIO K} (hio : Exact io) {cosDeg sqrt : K → K} {quick : Bool} {rank : Int → Nat} {d d' : Deck K}
    (hd : ProperDeck sqrt rank d) (h : finishDeck fuel io cosDeg sqrt quick d = some (.ok d')) :
    List.Forall₂ (fun c c' : Cell K => (c.trId = c!"0" → c'.offset = c.offset ∧ c'.rotation = c.rotation) ∧
      (c.trId ≠ c!"0" → ∃ (t : Transform K) (a b : List K), d.transforms.lookup c.trId = some t ∧ (∀ x ∈ a ++ b, x ∈ trNumbers t) ∧ c'.offset = some (a.map .num) ∧ a.length = 3 ∧ c'.rotation = some (b.map .num) ∧ b.length = 9)) d.cells d'.cells := by
  obtain ⟨cells1, cells2, cells3, cells4, cells5, surfs1, surfs2, surfs3, surfs4, r⟩ := finishDeck_run h
  have h12 := r.expanded hio hd
  obtain ⟨h56, -⟩ := r.final
  have h34 := reorganiseMaterials_frame io r.mats
  have h45 := applyImportances_frame io r.imps
  have h35 : List.Forall₂ (fun c c' : Cell K => c'.offset = c.offset ∧ c'.rotation = c.rotation) cells3 d'.cells := by
    refine forall₂_trans (R := MatFrame) (fun a b c x y => ?_) h34 (forall₂_trans (T := fun a c : Cell K => c.offset = a.offset ∧ c.rotation = a.rotation)
      (fun a b c x y => ?_) h45 h56)
    · unfold MatFrame at x
      rw [y.1, y.2, x]
      exact ⟨rfl, rfl⟩
    · rw [y, x]
      exact ⟨rfl, rfl⟩
  refine forall₂_trans ?_ h12 (forall₂_trans (T := fun b c : Cell K => (b.trId = c!"0" → c.offset = b.offset ∧ c.rotation = b.rotation) ∧
      (b.trId ≠ c!"0" → ∃ (t : Transform K) (a b' : List K), d.transforms.lookup b.trId = some t ∧ (∀ x ∈ a ++ b', x ∈ trNumbers t) ∧ c.offset = some (a.map .num) ∧ a.length = 3 ∧ c.rotation = some (b'.map .num) ∧ b'.length = 9)) ?_ (mapM_ok_forall₂ r.fill) h35)
  · intro a b c x y
    have e1 : b.trId = a.trId := by rw [x]
    have e2 : b.offset = a.offset := by rw [x]
    have e3 : b.rotation = a.rotation := by rw [x]
    rwa [e1, e2, e3] at y
  · intro a b c x y
    rw [y.1, y.2]
    split at x
    · rename_i hn
      split at x
      · rename_i t ht
        cases x
        exact ⟨fun h0 => absurd h0 hn, fun _ => ⟨t, [_, _, _], [_, _, _, _, _, _, _, _, _], ht, fun _ h => h, rfl, rfl, rfl, rfl⟩⟩
      · cases x
    · rename_i hn
      cases x
      exact ⟨fun _ => ⟨rfl, rfl⟩, fun h0 => absurd h0 hn⟩

/-! ## Surface numbers -/

private theorem explode_last {io : NumIO K} {sqrt : K → K} {last : Int} {s : Surface K} {e : Exploded K} (h : explodeMacrobody io sqrt last s = .ok e) : e.last ≤ last + 6 := by
  unfold explodeMacrobody at h
  split at h
  · iterate 7 obtain ⟨_, -, h⟩ := bind_ok h
    cases h
    exact le_rfl
  · iterate 7 obtain ⟨_, -, h⟩ := bind_ok h
    simp only at h
    split at h
    · cases h
    · obtain ⟨_, -, h⟩ := bind_ok h
      cases h
      show last + 3 ≤ last + 6
      omega
  · iterate 12 obtain ⟨_, -, h⟩ := bind_ok h
    simp only at h
    split at h
    · cases h
    · obtain ⟨_, -, h⟩ := bind_ok h
      cases h
      exact le_rfl
  · cases h
    show last ≤ last + 6
    omega

private theorem flattenGo_last {io : NumIO K} {cosDeg sqrt : K → K} : ∀ {ss : List (Surface K)} {last : Int} {cells : List (Cell K)} {r},
    flattenGo io cosDeg sqrt ss cells last = .ok r → r.2.2 ≤ last + 6 * ss.length := by
  intro ss
  induction ss with
  | nil => intro last cells r h; cases h; simp
  | cons s ss ih =>
    intro last cells r h
    rw [flattenGo] at h
    split at h
    · obtain ⟨e, h1, h⟩ := bind_ok h
      obtain ⟨cells1, h2, h⟩ := bind_ok h
      obtain ⟨⟨c, m, l⟩, h3, h⟩ := bind_ok h
      cases h
      have := ih h3
      have := explode_last h1
      simp only [List.length_cons] at *
      push_cast
      omega
    · have := ih h
      simp only [List.length_cons]
      push_cast
      omega

/-- The last surface number after processing. -/
theorem processed_last {fuel : Nat} {io : NumIO K} {cosDeg sqrt : K → K} {quick : Bool} {d d' : Deck K} (h : finishDeck fuel io cosDeg sqrt quick d = some (.ok d')) :
    d'.last ≤ d.last + 6 * d.surfaces.length := by
  obtain ⟨cells1, cells2, cells3, cells4, cells5, surfs1, surfs2, surfs3, surfs4, r⟩ := finishDeck_run h
  have hf := r.flat
  unfold flatten at hf
  obtain ⟨⟨c, m, l⟩, h1, hf⟩ := bind_ok hf
  cases hf
  exact flattenGo_last h1

end

end Csg
