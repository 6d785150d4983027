import Verif.Lemmas.Success
import Verif.Lemmas.Converted

/-!
# C94: which decks are processed
-/

set_option linter.unusedSectionVars false

namespace Csg

open Spec

section
variable {K : Type} [Field K] [LinearOrder K] [IsStrictOrderedRing K]

/-- The importance of cell number `i` of the deck is `x`: given by the data card on importances, if it has a word for this cell, and else by the cell card. -/
def Spec.ImportanceIs (io : NumIO K) (d : Deck K) (i : Nat) (c : Cell K) (x : K) : Prop :=
  (d.importances = [] ∧ c.importance = x) ∨ ∃ t, d.importances.lookup .neutron = some t ∧
    ((∃ w, (split t)[i]? = some w ∧ io.float w = .ok x) ∨ ((split t)[i]? = none ∧ c.importance = x))

/-- What a deck refers to is there. Materials in use have a card, and cards can be prepared (C43 to C47). The TR cards that fills name are there. If there are data cards on importances there is one
for neutrons, with numbers only, and not more than there are cells. The surfaces listed for a cell are named in its description. Cells with importance zero name faces of macrobodies,
but no macrobodies. -/
structure Spec.Finishable (io : NumIO K) (d : Deck K) : Prop where
  keys : (d.materials.map Prod.fst).Nodup
  defined : Defined d.materials d.cells
  prepared : ∀ e ∈ d.materials, ∃ m', Prepared e.2 m'
  fills : ∀ c ∈ d.cells, c.trId ≠ c!"0" → ∃ t, d.transforms.lookup c.trId = some t
  importances : d.importances = [] ∨ ∃ t, d.importances.lookup .neutron = some t ∧ (split t).length ≤ d.cells.length ∧ ∀ w ∈ split t, ∃ x, io.float w = .ok x
  listed : ∀ c ∈ d.cells, ∀ n ∈ c.surfaces, ∃ w ∈ c.text, ∃ z, parseInt w = some z ∧ n = z.natAbs
  outside : ∀ (i : Nat) c, d.cells[i]? = some c → ImportanceIs io d i c 0 → NumbersPlain d.surfaces c.text

variable {io : NumIO K} {cosDeg sqrt : K → K} {rank : Int → Nat} {d d' : Deck K}

/-- The importances after the data card has been applied. -/
theorem importance_is {cells cells' : List (Cell K)} (hc : List.Forall₂ (fun c c' : Cell K => c'.importance = c.importance) d.cells cells)
    (h : applyImportances io d.importances cells = .ok cells') {i : Nat} {c c' : Cell K} (h1 : d.cells[i]? = some c) (h2 : cells'[i]? = some c') :
    ImportanceIs io d i c c'.importance := by
  obtain ⟨c4, hc4, e4⟩ := forall₂_getElem? hc h1
  unfold applyImportances at h
  unfold ImportanceIs
  split at h
  · rename_i h0
    cases h
    rw [h2] at hc4
    cases hc4
    exact Or.inl ⟨h0, e4.symm⟩
  · rename_i h0
    split at h
    · cases h
    · rename_i t ht
      refine Or.inr ⟨t, ht, ?_⟩
      split at h
      · rename_i ht0
        subst ht0
        cases h
        rw [h2] at hc4
        cases hc4
        exact Or.inr ⟨rfl, e4.symm⟩
      · have := assignImportances_spec io _ _ h i c4 c' hc4 h2
        rcases hw : (split t)[i]? with _ | w
        · exact Or.inr ⟨rfl, by rw [this.2 hw, e4]⟩
        · exact Or.inl ⟨w, rfl, this.1 w hw⟩

private theorem succeeds_quick (hio : Exact io) (cosDeg sqrt : K → K) (hd : ProperDeck sqrt rank d) (hf : Finishable io d) :
    ∃ fuel d' cells1 cells2 cells3 cells4 cells5 surfs1 surfs2 surfs3 surfs4, Run fuel io cosDeg sqrt true d d' cells1 cells2 cells3 cells4 cells5 surfs1 surfs2 surfs3 surfs4 := by
  obtain ⟨cells1, surfs1, last1, h1, -⟩ := C17_flatten_regions_partial io hio cosDeg sqrt d.cells d.surfaces d.last hd.ids hd.range hd.last hd.bodies hd.cells
  obtain ⟨f1, f2, -, f4, -, f6, -⟩ := flatten_facts hio hd h1
  obtain ⟨l1, -, l3⟩ := flatten_lists hio hd h1
  obtain ⟨fuel, cells2, k, k2, -⟩ := C21_expansion rank cells1 f4
  -- surfaces are moved
  obtain ⟨surfs2, h3, p2⟩ := mapM_forall₂ (f := Surface.applyTransformCard d.transforms) (R := Placed sqrt d.transforms) (l := surfs1) fun s hs => (f2 s hs).2.2.2
  have h12 : List.Forall₂ (fun c c' : Cell K => c'.trId = c.trId ∧ c'.material = c.material ∧ c'.importance = c.importance) d.cells cells2 :=
    forall₂_trans (fun a b c x y => by rw [y, x]; exact ⟨rfl, rfl, rfl⟩) f6 k2
  -- fills
  obtain ⟨cells3, h4, -⟩ := mapM_forall₂ (l := cells2) (R := fun _ _ => True) (f := fun c : Cell K =>
      if c.trId ≠ c!"0" then match d.transforms.lookup c.trId with
        | some t => .ok (c.applyUniverseTransform t)
        | none => .error .keyError
      else .ok c) (by
    intro c hc
    obtain ⟨c0, hc0, e⟩ := forall₂_right h12 c hc
    by_cases h0 : c.trId ≠ c!"0"
    · obtain ⟨t, ht⟩ := hf.fills c0 hc0 (e.1 ▸ h0)
      rw [← e.1] at ht
      rw [if_pos h0, ht]
      exact ⟨_, rfl, trivial⟩
    · rw [if_neg h0]
      exact ⟨_, rfl, trivial⟩)
  replace h4 : applyUniverseTransformations d.transforms cells2 = .ok cells3 := h4
  have h13 : List.Forall₂ (fun c c' : Cell K => c'.material = c.material ∧ c'.importance = c.importance) d.cells cells3 :=
    forall₂_trans (S := FillFrame) (fun a b c x y => by unfold FillFrame at y; rw [y]; exact x.2) h12 (fill_frame h4)
  -- materials
  obtain ⟨mats', cells4, h5, -⟩ := C48_density io d.materials cells3 hf.keys (by
    intro c hc
    obtain ⟨c0, hc0, e⟩ := forall₂_right h13 c hc
    rw [e.1]
    exact hf.defined c0 hc0) hf.prepared
  have h34 := reorganiseMaterials_frame io h5
  have h14 : List.Forall₂ (fun c c' : Cell K => c'.importance = c.importance) d.cells cells4 :=
    forall₂_trans (S := MatFrame) (fun a b c x y => by unfold MatFrame at y; rw [y]; exact x.2) h13 h34
  -- importances
  obtain ⟨cells5, h6⟩ := applyImportances_ok (io := io) (imps := d.importances) (cells := cells4) (by
    rw [← h14.length_eq]
    exact hf.importances)
  have h45 := applyImportances_frame io h6
  have hframe : List.Forall₂ CellFrame cells2 cells5 := by
    refine forall₂_trans (R := FillFrame) (S := CellFrame) (fun a b c h1 h2 => ?_) (fill_frame h4) (forall₂_trans (R := MatFrame) (fun a b c h1 h2 => ?_) h34 h45)
    · unfold FillFrame at h1
      unfold CellFrame at *
      rw [h2, h1]
    · unfold CellFrame
      unfold MatFrame at h1
      rw [h2, h1]
  -- boundaries
  have hids2 : surfs2.map Surface.id = surfs1.map Surface.id := forall₂_map_eq (fun _ _ a => a.1) p2
  obtain ⟨v1, -⟩ := C27_listed cells5 surfs2 (by rw [hids2]; exact f1)
  obtain ⟨surfs3, h7⟩ : ∃ surfs3, vacuumGo cells5 surfs2 = .ok surfs3 := by
    rcases hv : vacuumGo cells5 surfs2 with e | surfs3
    · exfalso
      obtain ⟨c5, hc5, hz, n, hn, hno⟩ := v1.1 ⟨e, hv⟩
      obtain ⟨i, hi⟩ := List.mem_iff_getElem?.1 hc5
      have h15 : List.Forall₂ (fun c c' : Cell K => c ∈ d.cells ∧ (NumbersPlain d.surfaces c.text → ∀ n ∈ c'.surfaces, n ∈ c.surfaces ∨ ∃ s ∈ surfs1, s.id = n)) d.cells cells5 :=
        forall₂_trans (R := fun c c' : Cell K => c ∈ d.cells ∧ (NumbersPlain d.surfaces c.text → ∀ n ∈ c'.surfaces, n ∈ c.surfaces ∨ ∃ s ∈ surfs1, s.id = n)) (S := CellFrame)
          (fun a b c x y => ⟨x.1, by unfold CellFrame at y; rw [y]; exact x.2⟩) (forall₂_trans (fun a b c x y => ⟨x.1, by rw [y]; exact x.2.2.2⟩) (forall₂_mem l3) k2) hframe
      obtain ⟨c, hc⟩ : ∃ c, d.cells[i]? = some c := by
        rcases hc : d.cells[i]? with _ | c
        · rw [List.getElem?_eq_none_iff, h15.length_eq, ← List.getElem?_eq_none_iff] at hc
          rw [hc] at hi
          cases hi
        · exact ⟨c, rfl⟩
      obtain ⟨c', hc', hcm, hpl⟩ := forall₂_getElem? h15 hc
      rw [hi] at hc'
      cases hc'
      have him := importance_is h14 h6 hc hi
      rw [hz] at him
      have hplain := hf.outside i c hc him
      have hin : ∃ s ∈ surfs1, s.id = n := by
        rcases hpl hplain n hn with hn | hn
        · obtain ⟨w, hw, z, hz, rfl⟩ := hf.listed c hcm n hn
          obtain ⟨s, hs, hm, e⟩ := hplain w hw z hz
          exact ⟨s, l1 s hs hm, e⟩
        · exact hn
      obtain ⟨s, hs, rfl⟩ := hin
      obtain ⟨s', hs', a⟩ := forall₂_left_mem p2 hs
      exact hno s' hs' a.1
    · exact ⟨surfs3, rfl⟩
  -- limits
  have hw3 : ∀ s ∈ surfs3, WellFormed s := by
    intro s hs
    obtain ⟨s2, hs2, a⟩ := forall₂_right (vacuumGo_frame _ h7) s hs
    obtain ⟨s1, -, b⟩ := forall₂_right p2 s2 hs2
    have := b.2.2.2.1
    unfold BcFrame at a
    rw [a]
    exact this
  obtain ⟨B, hB, hl, -⟩ := boundGo_spec surfs3 hw3 [0, 0, 0, 0, 0, 0] rfl
  obtain ⟨surfs4, h8, -⟩ := mapM_forall₂ (l := surfs3) (f := updateSurface B) (R := fun _ _ => True) fun s _ => by
    obtain ⟨s', e⟩ := updateSurface_ok hl s
    exact ⟨s', e, trivial⟩
  exact ⟨fuel, { d with cells := cells5, surfaces := surfs4, last := last1, materials := mats', bounding := B }, cells1, cells2, cells3, cells4, cells5, surfs1, surfs2, surfs3, surfs4,
    ⟨h1, k fuel le_rfl, h3, h4, h5, h6, h7, hB, h8, rfl, rfl, rfl, rfl⟩⟩

/-- C94, in part. A proper deck in which everything is there is processed: no step fails, and all loops end. Not shown: `outside` is more than is needed, since a macrobody right after an opening
parenthesis is not listed (C19); the loops over the data cards of `readDeck` are not part of this. -/
theorem C94_succeeds_partial (io : NumIO K) (hio : Exact io) (cosDeg sqrt : K → K) (quick : Bool) (rank : Int → Nat) (d : Deck K) (hd : ProperDeck sqrt rank d)
    (hq : quick = true ∨ ∀ s ∈ d.surfaces, TwoSheet s) (hf : Finishable io d) :
    ∃ fuel d', ∀ more, fuel ≤ more → finishDeck more io cosDeg sqrt quick d = some (.ok d') := by
  obtain ⟨fuel, d', cells1, cells2, cells3, cells4, cells5, surfs1, surfs2, surfs3, surfs4, r⟩ := succeeds_quick hio cosDeg sqrt hd hf
  cases quick with
  | true => exact ⟨fuel, d', fun more hm => finishDeck_mono hm (run_finishDeck r)⟩
  | false =>
    have hq : ∀ s ∈ d.surfaces, TwoSheet s := by simpa using hq
    obtain ⟨-, -, f3, -⟩ := flatten_facts hio hd r.flat
    obtain ⟨hpl, hn4, hpos4, h5⟩ := r.before hio hd
    have hm : Mergeable surfs4 := by
      constructor
      · intro s hs
        obtain ⟨s1, hs1, a⟩ := forall₂_right hpl s hs
        exact ⟨a.2.2.2.1, a.2.2.2.2.1⟩
      · intro s hs t ht _ _
        obtain ⟨s1, hs1, a⟩ := forall₂_right hpl s hs
        exact a.2.2.2.2.2 (f3 hq s1 hs1)
    have ho : ∀ c ∈ cells5, OnlyNumbers c.interpreted := by
      intro c hc
      obtain ⟨c1, -, a⟩ := forall₂_right h5 c hc
      exact a.2.2.1
    obtain ⟨cells6, surfs5, g1, -⟩ := C23_dedupe_regions_partial sqrt cells5 surfs4 hn4 (fun s hs => (hpos4 s hs).1) hm ho
    refine ⟨fuel, { d' with cells := cells6, surfaces := surfs5 }, fun more hm => finishDeck_mono hm (run_finishDeck (cells1 := cells1) (cells2 := cells2) (cells3 := cells3) (cells4 := cells4)
      (cells5 := cells5) (surfs1 := surfs1) (surfs2 := surfs2) (surfs3 := surfs3) (surfs4 := surfs4) ?_)⟩
    exact ⟨r.flat, r.nots, r.move, r.fill, r.mats, r.imps, r.vac, r.box, r.cones, by simpa using g1, r.rest⟩

/-- C94, the other way. A cell with importance zero whose list of surfaces has a macrobody makes processing fail: the number of the macrobody stays on the list, but the macrobody itself is
gone when the surfaces of the cell become vacuum boundaries. -/
theorem C94_refuted_graveyard (io : NumIO K) (hio : Exact io) (cosDeg sqrt : K → K) (quick : Bool) (rank : Int → Nat) (d : Deck K) (hd : ProperDeck sqrt rank d)
    (i : Nat) (c : Cell K) (hc : d.cells[i]? = some c) (hzero : ∀ x, ImportanceIs io d i c x → x = 0) (s : Surface K) (hs : s ∈ d.surfaces) (hm : s.isMacrobody = true)
    (hl : s.id ∈ c.surfaces) : ∃ fuel e, ∀ more, fuel ≤ more → finishDeck more io cosDeg sqrt quick d = some (.error e) := by
  obtain ⟨fuel, r, h⟩ := C84_ends_partial io hio cosDeg sqrt quick rank d hd
  rcases r with e | d'
  · exact ⟨fuel, e, h⟩
  · exfalso
    obtain ⟨cells1, cells2, cells3, cells4, cells5, surfs1, surfs2, surfs3, surfs4, r⟩ := finishDeck_run (h fuel le_rfl)
    obtain ⟨f1, -, -, f4, -, f6, -⟩ := flatten_facts hio hd r.flat
    obtain ⟨-, l2, l3⟩ := flatten_lists hio hd r.flat
    obtain ⟨p2, -⟩ := r.surfs hio hd
    have hids2 : surfs2.map Surface.id = surfs1.map Surface.id := forall₂_map_eq (fun _ _ a => a.1) p2
    obtain ⟨v1, -⟩ := C27_listed cells5 surfs2 (by rw [hids2]; exact f1)
    obtain ⟨fuel0, cells2', k1, k2, -⟩ := C21_expansion rank cells1 f4
    have e2 : cells2' = cells2 := by
      have a := k1 (max fuel fuel0) (le_max_right _ _)
      have b := explodeFrom_mono (le_max_left fuel fuel0) r.nots
      rw [explodeNots, b] at a
      cases a
      rfl
    subst e2
    have h15 : List.Forall₂ (fun c c' : Cell K => ∀ n ∈ c.surfaces, n ∈ c'.surfaces) d.cells cells5 :=
      forall₂_trans (R := fun c c' : Cell K => ∀ n ∈ c.surfaces, n ∈ c'.surfaces) (S := CellFrame) (fun a b c x y => by unfold CellFrame at y; rw [y]; exact x)
        (forall₂_trans (fun a b c x y => by rw [y]; exact x.1) l3 k2) r.cellFrame
    obtain ⟨c5, hc5, hsub⟩ := forall₂_getElem? h15 hc
    have h14 : List.Forall₂ (fun c c' : Cell K => c'.importance = c.importance) d.cells cells4 :=
      forall₂_trans (R := fun c c' : Cell K => c'.importance = c.importance) (S := MatFrame) (fun a b c x y => by unfold MatFrame at y; rw [y]; exact x)
        (forall₂_trans (S := FillFrame) (fun a b c x y => by unfold FillFrame at y; rw [y]; exact x)
          (forall₂_trans (fun a b c x y => by rw [y, x]) f6 k2 : List.Forall₂ (fun c c' : Cell K => c'.importance = c.importance) d.cells cells2') (fill_frame r.fill))
        (reorganiseMaterials_frame io r.mats)
    have him := hzero _ (importance_is h14 r.imps hc hc5)
    obtain ⟨e, he⟩ := v1.2 ⟨c5, List.mem_of_getElem? hc5, him, s.id, hsub _ hl, fun t ht => by
      obtain ⟨t1, ht1, a⟩ := forall₂_right p2 t ht
      rw [a.1]
      exact l2 s hs hm t1 ht1⟩
    rw [r.vac] at he
    cases he

end

end Csg
