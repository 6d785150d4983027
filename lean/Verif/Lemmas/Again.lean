import Verif.Props.Nested
import Verif.Lemmas.ConvertibleFile

/-!
# Lemmas for files that are converted again
-/

namespace Csg

open Spec

section
variable {K : Type} [Field K] [LinearOrder K]

/-! ## Cells as they are read -/

theorem atom_in_itemSyms {w : Str} {is : List Item} (h : w ∈ words is) (hp : ¬ IsParen w) : Sym.atom w ∈ itemSyms is := by
  induction is with
  | nil => simp [words] at h
  | cons i is ih =>
    cases i with
    | op o =>
      have h : w ∈ words is := by simpa [words] using h
      cases o <;> simp [itemSyms, ih h]
    | str s =>
      have h : w = s ∨ w ∈ words is := by simpa [words] using h
      rcases h with rfl | h
      · unfold itemSyms
        rw [if_neg (fun e => hp (.inl e)), if_neg (fun e => hp (.inr e))]
        simp
      · unfold itemSyms
        exact List.mem_cons_of_mem _ (ih h)

omit [LinearOrder K] in
private theorem readCell_fresh {io : NumIO K} {cosDeg : K → K} {text : Str} {c : Cell K} (h : readCell io cosDeg text = .ok c) :
    (∃ m : Int, c.material = .int m ∧ 0 ≤ m ∧ (m = 0 → c.density = 0)) ∧ itemSyms c.interpreted = tokenSyms c.text := by
  unfold readCell interpret at h
  obtain ⟨⟨c1, s⟩, -, h⟩ := bind_ok h
  obtain ⟨t0, -, h⟩ := bind_ok h
  obtain ⟨id, -, h⟩ := bind_ok h
  obtain ⟨t1, -, h⟩ := bind_ok h
  obtain ⟨m, -, h⟩ := bind_ok h
  obtain ⟨c2, hc2, h⟩ := bind_ok h
  obtain ⟨⟨is, ns⟩, h1, h⟩ := bind_ok h
  cases h
  refine ⟨?_, ?_⟩
  · simp only at hc2
    split at hc2
    · rename_i hm
      obtain ⟨t2, -, hc2⟩ := bind_ok hc2
      obtain ⟨x, -, hc2⟩ := bind_ok hc2
      cases hc2
      exact ⟨m, rfl, hm.le, fun e => absurd e hm.ne'⟩
    · cases hc2
      exact ⟨0, rfl, le_rfl, fun _ => rfl⟩
  · show itemSyms is = tokenSyms c2.text
    unfold generalise at h1
    split at h1
    · cases h1
    · exact generaliseGo_syms _ _ _ _ h1

/-- Cells as they are read from a file. -/
theorem readDeck_fresh {io : NumIO K} {cosDeg : K → K} {lines : List Str} {d : Deck K} (h : readDeck io cosDeg lines = .ok d) :
    ∀ c ∈ d.cells, (∃ m : Int, c.material = .int m ∧ 0 ≤ m ∧ (m = 0 → c.density = 0)) ∧ itemSyms c.interpreted = tokenSyms c.text := by
  unfold readDeck at h
  obtain ⟨⟨title, l1⟩, -, h⟩ := bind_ok h
  obtain ⟨l2, -, h⟩ := bind_ok h
  obtain ⟨⟨cells, l3⟩, hc, h⟩ := bind_ok h
  obtain ⟨⟨surfs, l4⟩, hs, h⟩ := bind_ok h
  obtain ⟨imps, -, h⟩ := bind_ok h
  obtain ⟨trs, -, h⟩ := bind_ok h
  obtain ⟨mats, -, h⟩ := bind_ok h
  cases h
  intro c hcm
  obtain ⟨_, _, groups, -, -, -, -, hm⟩ := (C38_block removeInlineComment (readCell io cosDeg) l2 cells l3).1 hc
  obtain ⟨text, -, ht⟩ := forall₂_right (mapM_ok_forall₂ hm) c hcm
  exact readCell_fresh ht

/-! ## Substances -/

omit [LinearOrder K] in
/-- The nuclides of a prepared material are no elements. -/
private theorem nuclides_prepared {comp comp' : List (Str × K)} (h : SameSubstance comp comp') : ∀ e ∈ comp', ∀ z, e.1 ≠ natStr (1000 * z) := by
  obtain ⟨⟨parts, h1, h2⟩, -⟩ := h
  intro e he z hz
  obtain ⟨x, hx, rfl⟩ := List.mem_map.1 (h2.subset he)
  obtain ⟨part, hp, hx⟩ := List.mem_flatten.1 hx
  obtain ⟨e, -, k⟩ := forall₂_right h1 part hp
  rcases k with ⟨z', -, rfl⟩ | ⟨hne, rfl⟩
  · obtain ⟨d, hd, rfl⟩ := List.mem_map.1 hx
    have := natStr_injective hz
    obtain ⟨-, h1, h2, h3, h4⟩ := table_shape d (natural_mem hd).1
    omega
  · rw [List.mem_singleton] at hx
    subst hx
    exact hne z hz

omit [LinearOrder K] in
/-- A substance is prepared once. -/
theorem SameSubstance.trans' {a b c : List (Str × K)} (h : SameSubstance a b) (k : SameSubstance b c) : SameSubstance a c := by
  have hn := nuclides_prepared h
  obtain ⟨⟨parts, h1, h2⟩, h3⟩ := h
  obtain ⟨⟨parts', k1, k2⟩, k3⟩ := k
  refine ⟨⟨parts, h1, ?_⟩, k3⟩
  have e : parts'.flatten = b := by
    clear * - k1 hn
    induction k1 with
    | nil => rfl
    | @cons x p l ps hx _ ih =>
      rcases hx with ⟨z, hz, -⟩ | ⟨-, rfl⟩
      · exact absurd hz (hn x (by simp) z)
      · rw [List.flatten_cons, ih fun e he => hn e (by simp [he])]
        rfl
  rw [e, h3] at k2
  refine k2.trans ?_
  simpa using h2

/-! ## The list of materials -/

variable [IsStrictOrderedRing K]
variable {io : NumIO K} {cosDeg sqrt : K → K} {rank : Int → Nat} {quick : Bool} {lines : List Str} {d d' d2 : Deck K} {fuel : Nat}

/-- Processing adds at most as many materials as there are materials and cells. -/
theorem processed_count (hr : readDeck io cosDeg lines = .ok d) (h : finishDeck fuel io cosDeg sqrt quick d = some (.ok d')) (hlen : d'.cells.length = d.cells.length) :
    d'.materials.length ≤ 2 * d.materials.length + d.cells.length := by
  obtain ⟨cells1, cells2, cells3, cells4, cells5, surfs1, surfs2, surfs3, surfs4, r⟩ := finishDeck_run h
  have hl := readDeck_listed hr
  have hl' := reorganise_listed r.mats hl
  have hlen3 : cells3.length = d.cells.length := by
    obtain ⟨h56, -⟩ := r.final
    rw [(reorganiseMaterials_frame io r.mats).length_eq, (applyImportances_frame io r.imps).length_eq, h56.length_eq, hlen]
  rcases reorganise_from r.mats with ⟨hm, -⟩ | hm
  · rw [hm]
    omega
  · have hsub : ∀ k ∈ d'.materials.map Prod.fst, k ∈ d.materials.map Prod.fst ++ (List.range (d.materials.length + d.cells.length)).map fun i => natStr (i + 1) := by
      intro k hk
      obtain ⟨e, he, rfl⟩ := List.mem_map.1 hk
      obtain ⟨m, n, ⟨e0, h0, hm0, hdd, hnn⟩, h1, h2⟩ := hm e he
      have b2 : e.2.number = m.number := by
        unfold Material.explode at h2
        obtain ⟨x, -, h2⟩ := bind_ok h2
        unfold Material.normalise at h1
        simp only at h1
        split at h1
        · cases h1
        · have k1 := congrArg Material.number (Except.ok.inj h1)
          have k2 := congrArg Material.number (Except.ok.inj h2)
          exact k2.symm.trans k1.symm
      rw [← hl'.2 e he, b2]
      rcases hnn with ⟨-, hh⟩ | ⟨⟨k, j1, j2, j3⟩, -⟩
      · rw [hh, hl.2 e0 h0]
        exact List.mem_append_left _ (List.mem_map_of_mem h0)
      · rw [j3]
        refine List.mem_append_right _ (List.mem_map.2 ⟨k - 1, List.mem_range.2 (by omega), by rw [Nat.sub_add_cancel j1]⟩)
    have := (hl'.1.subperm hsub).length_le
    simp only [List.length_map, List.length_append, List.length_range] at this
    omega

/-- Cells with the same material have the same density. -/
def OneDensity (d : Deck K) : Prop := ∀ c ∈ d.cells, ∀ c2 ∈ d.cells, c.material = c2.material → c.density = c2.density

omit [LinearOrder K] [IsStrictOrderedRing K] in
private theorem keys_dictSet {κ ν : Type} [DecidableEq κ] {d : List (κ × ν)} {k : κ} {v : ν} (h : k ∈ d.map Prod.fst) : (dictSet d k v).map Prod.fst = d.map Prod.fst := by
  induction d with
  | nil => cases h
  | cons a d ih =>
    obtain ⟨k', v'⟩ := a
    unfold dictSet
    split
    · rename_i e
      simp [e]
    · rename_i e
      rw [List.map_cons, List.map_cons, ih]
      simp only [List.map_cons, List.mem_cons] at h
      exact h.resolve_left fun h => e h.symm

omit [Field K] [IsStrictOrderedRing K] in
private theorem assign_keys {md : List (Int × List K)} : ∀ {mats mats' : List (Str × Material K)} {cells cells' : List (Cell K)}, (∀ e ∈ md, e.2.length ≤ 1) →
    assignDensities io md mats cells = .ok (mats', cells') → mats'.map Prod.fst = mats.map Prod.fst := by
  induction md with
  | nil => intro mats mats' cells cells' _ h; cases h; rfl
  | cons e md ih =>
    obtain ⟨z, ds⟩ := e
    intro mats mats' cells cells' hl h
    unfold assignDensities at h
    split at h
    · cases h
    · rename_i m hm
      obtain ⟨d0, hd0, h⟩ := bind_ok h
      obtain ⟨⟨mats1, cells1⟩, hc, h⟩ := bind_ok h
      have : ds.drop 1 = [] := List.drop_eq_nil_of_le (hl (z, ds) (by simp))
      rw [this] at hc
      cases hc
      rw [ih (fun e he => hl e (by simp [he])) h, keys_dictSet (List.mem_map_of_mem (mem_of_lookup hm))]

omit [IsStrictOrderedRing K] in
private theorem reorganise_keys {mats mats' : List (Str × Material K)} {cells cells' : List (Cell K)} (hint : ∀ c ∈ cells, ∃ z, c.material = .int z)
    (hone : ∀ c ∈ cells, ∀ c2 ∈ cells, c.material = c2.material → c.density = c2.density)
    (h : reorganiseMaterials io mats cells = .ok (mats', cells')) : mats'.length = mats.length := by
  unfold reorganiseMaterials at h
  obtain ⟨md, hmd, h⟩ := bind_ok h
  obtain ⟨md', k1, k2⟩ := materialDensity_spec cells hint [] (fun _ _ => False) ⟨by simp, by simp, by simp⟩
  rw [hmd] at k1
  cases k1
  simp only at h
  split at h
  · cases h; rfl
  · obtain ⟨⟨mats1, cells1⟩, h1, h⟩ := bind_ok h
    obtain ⟨mats2, h2, h⟩ := bind_ok h
    cases h
    have h1 := assign_keys (fun e he => ?_) h1
    · rw [← (mapM_ok_forall₂ h2).length_eq]
      simpa using congrArg List.length h1
    · have he := (List.mem_filter.1 ((List.perm_insertionSort _ _).subset he)).1
      obtain ⟨z, ds⟩ := e
      obtain ⟨hnd, -⟩ := k2.good z ds he
      match ds, he, hnd with
      | [], _, _ => simp
      | [_], _, _ => simp
      | a :: b :: ds, he, hnd =>
        exfalso
        have : ∀ x ∈ a :: b :: ds, ∃ c ∈ cells, c.material = .int z ∧ c.density = x := fun x hx => by
          rcases (k2.mem z x).1 ⟨_, he, hx⟩ with h | h
          · exact h.elim
          · exact h
        obtain ⟨c, hc, e1, e2⟩ := this a (by simp)
        obtain ⟨c2, hc2, e3, e4⟩ := this b (by simp)
        have : a = b := by rw [← e2, ← e4]; exact hone c hc c2 hc2 (by rw [e1, e3])
        simp [this] at hnd

/-! ## Plain decks -/

omit [IsStrictOrderedRing K] in
private theorem flattenGo_plain {ss : List (Surface K)} {cells : List (Cell K)} {last : Int} (h : ∀ s ∈ ss, s.isMacrobody = false) :
    flattenGo io cosDeg sqrt ss cells last = .ok (cells, [], last) := by
  induction ss with
  | nil => rfl
  | cons s ss ih =>
    unfold flattenGo
    rw [if_neg (by rw [h s (by simp)]; simp)]
    exact ih fun s hs => h s (by simp [hs])

/-- A deck whose surfaces are neither macrobodies nor moved gets no new surfaces. -/
theorem plain_surfaces (hp : ∀ s ∈ d.surfaces, s.isMacrobody = false ∧ s.transform = none) (h : finishDeck fuel io cosDeg sqrt quick d = some (.ok d')) :
    d'.last = d.last ∧ d'.surfaces.length ≤ d.surfaces.length ∧ ∀ s ∈ d'.surfaces, ∃ s0 ∈ d.surfaces, s0.type = s.type ∧ s0.coeffs = s.coeffs := by
  obtain ⟨cells1, cells2, cells3, cells4, cells5, surfs1, surfs2, surfs3, surfs4, r⟩ := finishDeck_run h
  have hf := r.flat
  unfold flatten at hf
  rw [flattenGo_plain fun s hs => (hp s hs).1] at hf
  injection hf with hf
  have e1 := congrArg (fun x => x.2.1) hf
  have e2 := congrArg (fun x => x.2.2) hf
  simp only at e1 e2
  have e1 : surfs1 = d.surfaces := by
    rw [← e1, List.append_nil]
    exact List.filter_eq_self.2 fun s hs => by simp [(hp s hs).1]
  subst e1
  have hm : surfs2 = d.surfaces := by
    have := r.move
    unfold applySurfaceTransformations at this
    have k : d.surfaces.mapM (fun s => s.applyTransformCard d.transforms) = .ok d.surfaces := by
      rw [mapM_ok_iff]
      exact List.forall₂_same.2 fun s hs => by
        unfold Surface.applyTransformCard
        rw [(hp s hs).2]
    rw [k] at this
    exact (Except.ok.inj this).symm
  subst hm
  refine ⟨e2.symm, ?_, fun s hs => ?_⟩
  · rw [r.surfFrame.length_eq]
    exact r.left.length_le
  · obtain ⟨s2, hs2, e⟩ := forall₂_right r.surfFrame s (r.left.subset hs)
    unfold SurfFrame at e
    exact ⟨s2, hs2, by rw [e], by rw [e]⟩

/-- The materials of a deck where each material has one density are not copied. -/
theorem plain_materials (hio : Exact io) (hd : ProperDeck sqrt rank d) (hint : ∀ c ∈ d.cells, ∃ z, c.material = .int z) (hone : OneDensity d)
    (h : finishDeck fuel io cosDeg sqrt quick d = some (.ok d')) : d'.materials.length = d.materials.length := by
  obtain ⟨cells1, cells2, cells3, cells4, cells5, surfs1, surfs2, surfs3, surfs4, r⟩ := finishDeck_run h
  have h13 : List.Forall₂ (fun c c' : Cell K => c'.material = c.material ∧ c'.density = c.density) d.cells cells3 :=
    forall₂_trans (S := FillFrame) (fun a b c x y => by unfold FillFrame at y; rw [y, x]; exact ⟨rfl, rfl⟩) (r.expanded hio hd) (fill_frame r.fill)
  refine reorganise_keys ?_ ?_ r.mats
  · intro c hc
    obtain ⟨c0, hc0, e⟩ := forall₂_right h13 c hc
    rw [e.1]
    exact hint c0 hc0
  · intro c hc c2 hc2 he
    obtain ⟨a, ha, e⟩ := forall₂_right h13 c hc
    obtain ⟨b, hb, k⟩ := forall₂_right h13 c2 hc2
    rw [e.2, k.2]
    exact hone a ha b hb (by rw [← e.1, ← k.1, he])

/-! ## The deck that is read back -/

/-- What is known about the deck `d2` that is read from the MCNP file written for the processed deck `d'`. -/
structure ReadBack (io : NumIO K) (cosDeg : K → K) (d' d2 : Deck K) : Prop where
  read : ∃ lines, readDeck io cosDeg lines = .ok d2
  cells : List.Forall₂ (SameCell io) d'.cells d2.cells
  surfaces : List.Forall₂ SameSurface d'.surfaces d2.surfaces
  materials : ∃ sorted, sorted.Perm d'.materials ∧ List.Forall₂ (fun m p => p.1 = m.2.number ∧ SameComposition (fun _ => []) m.2 p.2) sorted d2.materials
  importances : d2.importances = []
  transforms : d2.transforms = []

omit [IsStrictOrderedRing K] in
/-- The materials are the processed ones. -/
theorem ReadBack.material (hb : ReadBack io cosDeg d' d2) (hl : Listed d'.materials) :
    (∀ p ∈ d2.materials, ∃ m, (p.1, m) ∈ d'.materials ∧ p.2.composition = m.composition) ∧ ∀ m ∈ d'.materials, ∃ p ∈ d2.materials, p.1 = m.1 := by
  obtain ⟨sorted, hp, hm⟩ := hb.materials
  refine ⟨fun p hpm => ?_, fun m hmm => ?_⟩
  · obtain ⟨m, hm1, e1, -, e2, -⟩ := forall₂_right hm p hpm
    have hm1 := hp.subset hm1
    refine ⟨m.2, ?_, e2⟩
    rw [e1, hl.2 m hm1]
    exact hm1
  · obtain ⟨p, hpm, e1, -⟩ := forall₂_left_mem hm (hp.symm.subset hmm)
    exact ⟨p, hpm, by rw [e1, hl.2 m hmm]⟩

theorem ReadBack.plain (hio : Exact io) (hd : Convertible io sqrt rank d) (h : finishDeck fuel io cosDeg sqrt quick d = some (.ok d')) (hb : ReadBack io cosDeg d' d2) :
    ∀ s ∈ d2.surfaces, s.isMacrobody = false ∧ s.transform = none := by
  obtain ⟨-, hpos, -⟩ := processed_cells hio hd.proper (.inr hd.sheets) h
  intro s hs
  obtain ⟨s', hs', -, e2, -, e4⟩ := forall₂_right hb.surfaces s hs
  refine ⟨?_, e4⟩
  rw [← (hpos s' hs').2, Surface.isMacrobody, Surface.isMacrobody, e2]

/-- The words of the cells are numbers of surfaces. -/
theorem ReadBack.words (hio : Exact io) (hr : readDeck io cosDeg lines = .ok d) (hd : Convertible io sqrt rank d) (h : finishDeck fuel io cosDeg sqrt quick d = some (.ok d')) (hb : ReadBack io cosDeg d' d2) :
    ∀ c ∈ d2.cells, Legal (itemSyms c.interpreted) ∧ ∀ w, Sym.atom w ∈ itemSyms c.interpreted → ∃ z : Int, w = intStr z ∧ ∃ s ∈ d2.surfaces, s.id = z.natAbs := by
  obtain ⟨-, -, hcells⟩ := processed_cells hio hd.proper (.inr hd.sheets) h
  intro c hc
  obtain ⟨c', hc', hsame⟩ := forall₂_right hb.cells c hc
  obtain ⟨c0, hc0, -, hl, -, hn, -⟩ := forall₂_right hcells c' hc'
  rw [hsame.region]
  refine ⟨hl, fun w hw => ?_⟩
  obtain ⟨k1, k2⟩ := atom_of_itemSyms hw
  obtain ⟨z, -, rfl⟩ := (whole_words hio hr hd h c' hc').2.2.2 w k1 k2
  obtain ⟨s, hs, e⟩ := hn z (List.mem_filterMap.2 ⟨_, List.mem_filterMap.2 ⟨_, k1, rfl⟩, parseInt_intStr z⟩)
  obtain ⟨s2, hs2, e2, -⟩ := forall₂_left_mem hb.surfaces hs
  exact ⟨z, rfl, s2, hs2, by rw [e2, e]⟩

/-- The deck that is read back can be processed. -/
theorem ReadBack.convertible (hio : Exact io) (hr : readDeck io cosDeg lines = .ok d) (hd : Convertible io sqrt rank d) (h : finishDeck fuel io cosDeg sqrt quick d = some (.ok d')) (hb : ReadBack io cosDeg d' d2)
    (hsize : d2.last + 6 * d2.surfaces.length < 10 ^ 58) (hfew : d2.materials.length + d2.cells.length < 10 ^ 9) : Convertible io sqrt rank d2 := by
  obtain ⟨hids, hpos, hcells⟩ := processed_cells hio hd.proper (.inr hd.sheets) h
  have hsurf := C93_surfaces_partial fuel io hio cosDeg sqrt quick rank lines d d' hr hd.proper h
  obtain ⟨lines2, hr2⟩ := hb.read
  have hfresh := readDeck_fresh hr2
  obtain ⟨hl, hlist⟩ := whole_list hio hr hd h
  obtain ⟨hmat, hmat'⟩ := hb.material hl
  have hplain := hb.plain hio hd h
  have hwords := hb.words hio hr hd h
  obtain ⟨hlast0, hlast, -, -⟩ := C85_read io cosDeg lines2 d2 hr2
  have hpos' : ∀ s ∈ d2.surfaces, 0 < s.id := by
    intro s hs
    obtain ⟨s', hs', e1, -⟩ := forall₂_right hb.surfaces s hs
    rw [e1]
    exact (hpos s' hs').1
  have hnucs := whole_nuclides (P := fun _ _ => True) (fun _ _ _ _ => trivial) hio hr hd h (fun m hm e he => by
    obtain ⟨n, hn⟩ := (hd.atoms m hm).canonical.2 e he
    exact ⟨n / 1000, n % 1000, by rw [Nat.div_add_mod, hn], Nat.mod_lt _ (by norm_num), trivial⟩)
  have hint : ∀ c ∈ d2.cells, ∃ c' ∈ d'.cells, SameCell io c' c ∧ ∃ m : Int, c.material = .int m ∧ 0 ≤ m ∧ (m = 0 → c.density = 0) := by
    intro c hc
    obtain ⟨c', hc', hsame⟩ := forall₂_right hb.cells c hc
    exact ⟨c', hc', hsame, (hfresh c hc).1⟩
  refine ⟨⟨?_, fun s hs => ?_, hlast0, fun s hs hm => ?_, fun s hs _ => ?_, fun s hs n hn => ?_, fun c hc => ⟨⟨(hfresh c hc).1, ?_, (hfresh c hc).2⟩, fun w hw => ?_⟩, ?_, fun c hc => (hwords c hc).1, fun c hc w hw hh => ?_⟩,
    fun s hs => ?_, hsize, fun c hc => ?_, fun m hm => ?_, hfew, fun m hm => ?_, fun c hc hne => ?_, .inl hb.importances, fun i c hc _ w hw z hz => ?_⟩
  · rw [forall₂_map_eq (fun _ _ k => k.1) hb.surfaces]
    exact hids
  · obtain ⟨s', hs', e1, -⟩ := forall₂_right hb.surfaces s hs
    exact ⟨by rw [e1]; exact (hpos s' hs').1, hlast s hs⟩
  · rw [(hplain s hs).1] at hm
    cases hm
  · obtain ⟨s', hs', -, e2, e3, -⟩ := forall₂_right hb.surfaces s hs
    obtain ⟨k1, k2, -⟩ := hsurf s' hs'
    unfold WellFormed ProperTorus at *
    rw [e2, e3]
    exact ⟨k1, k2⟩
  · rw [(hplain s hs).2] at hn
    cases hn
  · rw [← (hfresh c hc).2]
    exact (hwords c hc).1
  · rw [← (hfresh c hc).2] at hw
    obtain ⟨z, rfl, s, hs, e⟩ := (hwords c hc).2 w hw
    refine .inr (.inl ⟨s, hs, ?_⟩)
    rw [e]
    rcases Int.natAbs_eq z with k | k
    · exact .inl (by rw [← k])
    · right
      have := (hpos' s hs)
      conv_lhs => rw [k]
      rw [intStr_neg (by omega)]
  · rw [forall₂_map_eq (fun _ _ k => k.id) hb.cells, forall₂_map_eq (fun _ _ k => k.1.1) hcells]
    exact hd.proper.complements.ids
  · exfalso
    have hp : ¬ IsParen w := by
      rintro (rfl | rfl) <;> simp at hh
    obtain ⟨z, rfl, -⟩ := (hwords c hc).2 w (atom_in_itemSyms hw hp)
    exact hash_not_mem_intStr z hh
  · obtain ⟨s', hs', -, e2, e3, -⟩ := forall₂_right hb.surfaces s hs
    have := ((hsurf s' hs').2.2.2.2.2 hd.sheets).1
    unfold TwoSheet at *
    rw [e2, e3]
    exact this
  · obtain ⟨c', hc', hsame, m, hm, hm0, -⟩ := hint c hc
    refine ⟨m, hm, fun hne => ?_⟩
    have ht := hsame.material
    rw [hm] at ht
    rcases whole_material hio hr hd h c' hc' with e | ⟨k, hk, e, m', hm'⟩
    · rw [e] at ht
      have : m = 0 := by
        have := parseInt_intStr m
        rw [show intStr m = intStr 0 from ht, parseInt_intStr] at this
        exact (Option.some.inj this).symm
      exact absurd this hne
    · obtain ⟨p, hp, e'⟩ := hmat' _ hm'
      rw [show intStr m = natStr k from ht.trans e, ← show p.1 = natStr k from e']
      exact List.mem_map_of_mem hp
  · obtain ⟨m', hm', -⟩ := hmat m hm
    exact (hlist _ hm').1
  · obtain ⟨m', hm', e⟩ := hmat m hm
    rw [e]
    obtain ⟨-, -, hne, hnd, e0, he0, -, -, -, hcase⟩ := hlist _ hm'
    rcases hcase with ⟨e1, -⟩ | ⟨ht, hnuc⟩
    · simp only at e1
      rw [e1]
      exact hd.atoms e0 he0
    · obtain ⟨k1, k2⟩ := hnucs _ hm'
      simp only at ht hnuc hnd k1 k2
      have key : ∀ e ∈ m'.composition, (∃ n : Nat, e.1 = natStr n) ∧ 0 ≤ e.2 := by
        intro e he
        rw [k1] at he
        obtain ⟨p, hp, rfl⟩ := List.mem_map.1 he
        exact ⟨⟨_, rfl⟩, (k2 p hp).2.2.1⟩
      have hno : ∀ z, natStr (1000 * z) ∉ m'.composition.map Prod.fst := by
        intro z hz
        obtain ⟨e, he, e'⟩ := List.mem_map.1 hz
        exact hnuc e he z e'
      exact ⟨⟨hnd, fun e he => (key e he).1⟩, fun z hz => absurd hz (hno z), fun e he => (key e he).2, by rw [ht]; exact one_pos, fun z hz => absurd hz (hno z)⟩
  · obtain ⟨c', hc', hsame, -⟩ := hint c hc
    exact absurd hsame.trId hne
  · have hc := List.mem_of_getElem? hc
    have hw := mem_text hw hz
    rw [← (hfresh c hc).2] at hw
    obtain ⟨z', rfl, s, hs, e⟩ := (hwords c hc).2 w hw
    rw [parseInt_intStr] at hz
    cases hz
    exact ⟨s, hs, (hplain s hs).1, e⟩

omit [Field K] [LinearOrder K] [IsStrictOrderedRing K] in
private theorem float_value {e : Entry K} {x : K} (h : e.float io = .ok x) : entryValue io e = some x := by
  cases e with
  | num y => cases h; rfl
  | txt t =>
    unfold Entry.float NumIO.float at h
    unfold entryValue
    simp only at h ⊢
    split at h
    · cases h
      assumption
    · cases h

/-- The cards of the deck that is read back can be written. -/
theorem ReadBack.card (hio : Exact io) (hr : readDeck io cosDeg lines = .ok d) (hd : Convertible io sqrt rank d) (hc : CardInput io d) (h : finishDeck fuel io cosDeg sqrt quick d = some (.ok d'))
    (hs : ShortCells io d) (hi : ∀ (i : Nat) c x, d.cells[i]? = some c → ImportanceIs io d i c x → PlainNumber (io.render x)) (hb : ReadBack io cosDeg d' d2) : CardInput io d2 := by
  obtain ⟨-, -, hcells⟩ := processed_cells hio hd.proper (.inr hd.sheets) h
  have hw := mcnp_ready hio hr hd hc h (short_out hio hr hd h hs) (importance_out hio hd.proper hd.sheets h hi)
  refine ⟨fun c hcm => ?_, fun c hcm => ?_, fun c hcm _ => ?_⟩
  · obtain ⟨c', hc', hsame⟩ := forall₂_right hb.cells c hcm
    obtain ⟨c0, hc0, k, -⟩ := forall₂_right hcells c' hc'
    rw [hsame.id, k.1]
    exact hc.ids c0 hc0
  · obtain ⟨c', hc', hsame⟩ := forall₂_right hb.cells c hcm
    obtain ⟨c0, hc0, k, -⟩ := forall₂_right hcells c' hc'
    rw [hsame.uni, hsame.fill, k.2.2.1, k.2.2.2]
    exact hc.universes c0 hc0
  · obtain ⟨c', hc', hsame⟩ := forall₂_right hb.cells c hcm
    obtain ⟨offs, rots, -, hp, hrd⟩ := hw c' hc'
    have hstill : c'.fill = none → c.offset = none ∧ c.rotation = none := fun e => hsame.still (.inl e)
    refine ⟨fun l hl => ?_, fun l hl => ?_⟩
    · by_cases hf : c'.fill = none
      · rw [(hstill hf).1] at hl
        cases hl
      cases ho : c'.offset with
      | none =>
        cases hro : c'.rotation with
        | none =>
          rw [(hsame.still (.inr ⟨ho, hro⟩)).1] at hl
          cases hl
        | some l' =>
          rw [hsame.unshifted hf ho (by rw [hro]; simp)] at hl
          cases hl
          refine ⟨rfl, fun e he => ?_⟩
          have : e = .txt c!"0" := by simpa using he
          subst this
          refine ⟨by simp [Entry.text], by simp [Entry.text], fun ch hch => ?_⟩
          have : ch = '0' := by simpa [Entry.text] using hch
          subst this
          exact .inl (by decide)
      | some l' =>
        rw [hsame.offset hf l' ho] at hl
        cases hl
        obtain ⟨h3, hoff⟩ := hp.offset l' ho
        refine ⟨by rw [List.length_map, h3], fun e he => ?_⟩
        obtain ⟨e', he', rfl⟩ := List.mem_map.1 he
        obtain ⟨w, -, ⟨ht, -⟩, hw'⟩ := forall₂_left_mem hoff he'
        have e1 : e'.text io = w := by
          rcases hw' with rfl | ⟨x, rfl, rfl⟩ <;> rfl
        have hnc := hrd.offset l' hf ho e' he'
        show e'.text io ≠ [] ∧ (e'.text io).length ≤ 60 ∧ ∀ ch ∈ e'.text io, NumberChar ch
        rw [e1] at hnc ⊢
        exact ⟨ht.1, ht.2.2, hnc⟩
    · by_cases hf : c'.fill = none
      · rw [(hstill hf).2] at hl
        cases hl
      cases hro : c'.rotation with
      | none =>
        rw [hsame.unrotated hf hro] at hl
        cases hl
      | some l' =>
        obtain ⟨l2, e2, hff⟩ := hsame.rotation hf l' hro
        rw [e2] at hl
        cases hl
        refine ⟨by rw [← hff.length_eq]; exact (hp.rotation l' hro).1, fun e he => ?_⟩
        obtain ⟨e', -, x, -, hx⟩ := forall₂_right hff e he
        exact ⟨x, float_value hx⟩

/-- The numbers of the deck that is read back are short. -/
theorem ReadBack.short (hio : Exact io) (hr : readDeck io cosDeg lines = .ok d) (hd : Convertible io sqrt rank d) (hc : CardInput io d) (h : finishDeck fuel io cosDeg sqrt quick d = some (.ok d'))
    (hs : ShortCells io d) (h0 : (io.render 0).length ≤ 24) (hi : ∀ (i : Nat) c x, d.cells[i]? = some c → ImportanceIs io d i c x → PlainNumber (io.render x)) (hb : ReadBack io cosDeg d' d2) :
    ShortCells io d2 ∧ ∀ (i : Nat) c x, d2.cells[i]? = some c → ImportanceIs io d2 i c x → PlainNumber (io.render x) := by
  have ho := short_out hio hr hd h hs
  have hw := mcnp_ready hio hr hd hc h ho (importance_out hio hd.proper hd.sheets h hi)
  obtain ⟨lines2, hr2⟩ := hb.read
  have himp : ∀ (i : Nat) c x, d2.cells[i]? = some c → ImportanceIs io d2 i c x → ∃ c' ∈ d'.cells, c'.importance = x := by
    intro i c x hc hx
    obtain ⟨c', hc', hsame⟩ := forall₂_right hb.cells c (List.mem_of_getElem? hc)
    rcases hx with ⟨-, e⟩ | ⟨t, e, -⟩
    · exact ⟨c', hc', by rw [← hsame.importance, e]⟩
    · rw [hb.importances] at e
      cases e
  refine ⟨⟨fun c hcm => ?_, fun i c x hcm hx => ?_, fun c hcm l hl e he x hx => ?_, by rw [hb.transforms]; simp⟩, fun i c x hcm hx => ?_⟩
  · obtain ⟨c', hc', hsame⟩ := forall₂_right hb.cells c hcm
    by_cases hm : c'.material = .int 0
    · obtain ⟨⟨m, e, -, e0⟩, -⟩ := readDeck_fresh hr2 c hcm
      have ht := hsame.material
      rw [hm, e] at ht
      have : m = 0 := by
        have := parseInt_intStr m
        rw [show intStr m = intStr 0 from ht, parseInt_intStr] at this
        exact (Option.some.inj this).symm
      rw [e0 this]
      exact h0
    · rw [hsame.density hm]
      exact (ho.cells c' hc').1
  · obtain ⟨c', hc', rfl⟩ := himp i c x hcm hx
    exact (ho.cells c' hc').2
  · obtain ⟨c', hc', hsame⟩ := forall₂_right hb.cells c hcm
    obtain ⟨offs, rots, -, hp, hrd⟩ := hw c' hc'
    by_cases hf : c'.fill = none
    · obtain ⟨e1, e2⟩ := hsame.still (.inl hf)
      rw [e1, e2] at hl
      simp at hl
    rcases hl with hl | hl
    · cases hoff : c'.offset with
      | none =>
        cases hro : c'.rotation with
        | none =>
          rw [(hsame.still (.inr ⟨hoff, hro⟩)).1] at hl
          cases hl
        | some l' =>
          rw [hsame.unshifted hf hoff (by rw [hro]; simp)] at hl
          cases hl
          have : e = .txt c!"0" := by simpa using he
          subst this
          rw [show entryValue io (.txt c!"0") = io.parse c!"0" from rfl, hio.zero] at hx
          cases hx
          exact h0
      | some l' =>
        rw [hsame.offset hf l' hoff] at hl
        cases hl
        obtain ⟨e', he', rfl⟩ := List.mem_map.1 he
        refine ho.fills c' hc' l' (.inl hoff) e' he' x ?_
        cases e' with
        | txt t => exact hx
        | num y =>
          rw [show entryValue io (.txt (Entry.text io (.num y))) = io.parse (io.render y) from rfl, hio.reads] at hx
          exact hx
    · cases hro : c'.rotation with
      | none =>
        rw [hsame.unrotated hf hro] at hl
        cases hl
      | some l' =>
        obtain ⟨l2, e2, hff⟩ := hsame.rotation hf l' hro
        rw [e2] at hl
        cases hl
        obtain ⟨e', he', y, hy, hy'⟩ := forall₂_right hff e he
        refine ho.fills c' hc' l' (.inr hro) e' he' x ?_
        rw [float_value hy'] at hx
        cases hx
        exact float_value hy
  · obtain ⟨c', hc', rfl⟩ := himp i c x hcm hx
    exact importance_out hio hd.proper hd.sheets h hi c' hc'

/-- Each material of the deck that is read back has one density. -/
theorem ReadBack.oneDensity (hio : Exact io) (hr : readDeck io cosDeg lines = .ok d) (hd : Convertible io sqrt rank d) (h : finishDeck fuel io cosDeg sqrt quick d = some (.ok d')) (hb : ReadBack io cosDeg d' d2) :
    OneDensity d2 := by
  obtain ⟨-, -, hcells⟩ := processed_cells hio hd.proper (.inr hd.sheets) h
  obtain ⟨hl, hmats⟩ := processed_materials hio hr hd.proper hd.defined hd.atoms h
  obtain ⟨lines2, hr2⟩ := hb.read
  have key : ∀ c ∈ d2.cells, ∀ z, z ≠ 0 → c.material = .int z → ∃ m, (intStr z, m) ∈ d'.materials ∧ m.density = c.density := by
    intro c hc z hz hcz
    obtain ⟨c', hc', hsame⟩ := forall₂_right hb.cells c hc
    obtain ⟨c0, hc0, ⟨k, -⟩, hv, hm⟩ := forall₂_right (forall₂_both hcells hmats) c' hc'
    have ht := hsame.material
    rw [hcz] at ht
    have hne : c'.material ≠ .int 0 := by
      intro e
      rw [e] at ht
      have := parseInt_intStr z
      rw [show intStr z = intStr 0 from ht, parseInt_intStr] at this
      exact hz (Option.some.inj this).symm
    obtain ⟨z0, hz0, -⟩ := (hd.proper.cells c0 hc0).1.material
    have h0 : z0 ≠ 0 := fun e => hne (hv (by rw [hz0, e]))
    obtain ⟨-, m, m', -, -, k3, -, k5⟩ := hm z0 h0 hz0
    refine ⟨m', ?_, ?_⟩
    · rw [show intStr z = c'.material.text from ht]
      exact k3
    · rw [k5, hsame.density hne, k.2.1]
  intro c hc c2 hc2 he
  obtain ⟨z, hz, -, h0⟩ := (readDeck_fresh hr2 c hc).1
  obtain ⟨z2, hz2, -, h02⟩ := (readDeck_fresh hr2 c2 hc2).1
  rw [hz, hz2] at he
  cases he
  by_cases hzz : z = 0
  · rw [h0 hzz, h02 hzz]
  · obtain ⟨m, k1, k2⟩ := key c hc z hzz hz
    obtain ⟨m2, k3, k4⟩ := key c2 hc2 z hzz hz2
    have : m = m2 := by
      have e1 := (lookup_iff_mem hl.1).2 k1
      rw [(lookup_iff_mem hl.1).2 k3] at e1
      exact (Option.some.inj e1).symm
    rw [← k2, ← k4, this]

/-- The numbers of surfaces and materials of the deck that is read back. -/
theorem ReadBack.sizes (hio : Exact io) (hd : Convertible io sqrt rank d) (h : finishDeck fuel io cosDeg sqrt quick d = some (.ok d')) (hb : ReadBack io cosDeg d' d2) :
    d2.last ≤ d'.last.toNat ∧ d2.surfaces.length = d'.surfaces.length ∧ d'.surfaces.length ≤ d'.last.toNat ∧ d2.materials.length = d'.materials.length ∧ d2.cells.length = d.cells.length := by
  obtain ⟨h1, h2, -, h3⟩ := C84_regions_partial fuel io hio cosDeg sqrt quick rank d d' hd.proper (.inr hd.sheets) h
  obtain ⟨lines2, hr2⟩ := hb.read
  obtain ⟨-, -, hlast, -⟩ := C85_read io cosDeg lines2 d2 hr2
  refine ⟨?_, hb.surfaces.length_eq.symm, ?_, ?_, by rw [← hb.cells.length_eq, h3.length_eq]⟩
  · rcases hlast with e | ⟨s, hs, e⟩
    · omega
    · obtain ⟨s', hs', e1, -⟩ := forall₂_right hb.surfaces s hs
      have := (h2 s' hs').2.1
      omega
  · have hsub : ∀ k ∈ d'.surfaces.map Surface.id, k ∈ (List.range d'.last.toNat).map fun i : Nat => ((i : Int) + 1) := by
      intro k hk
      obtain ⟨s, hs, rfl⟩ := List.mem_map.1 hk
      obtain ⟨k1, k2, -⟩ := h2 s hs
      exact List.mem_map.2 ⟨(s.id - 1).toNat, List.mem_range.2 (by omega), by omega⟩
    have := (h1.subperm hsub).length_le
    simp only [List.length_map, List.length_range] at this
    omega
  · obtain ⟨sorted, hp, hm⟩ := hb.materials
    rw [← hm.length_eq, hp.length_eq]

/-- The surfaces of the deck that is read back stay as they are. -/
theorem ReadBack.surfaces_short (hio : Exact io) (hd : Convertible io sqrt rank d) (h : finishDeck fuel io cosDeg sqrt quick d = some (.ok d')) (hb : ReadBack io cosDeg d' d2) (hs : ShortSurfaces io d') :
    ∀ fuel2 d3, finishDeck fuel2 io cosDeg sqrt quick d2 = some (.ok d3) → ShortSurfaces io d3 := by
  intro fuel2 d3 h3 s hs3 x hx
  obtain ⟨s0, hs0, -, e⟩ := (plain_surfaces (hb.plain hio hd h) h3).2.2 s hs3
  obtain ⟨s', hs', -, -, e3, -⟩ := forall₂_right hb.surfaces s0 hs0
  refine hs s' hs' x ?_
  rw [← e3, e]
  exact hx

end

end Csg
