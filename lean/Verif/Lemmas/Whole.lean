import Verif.Spec.Whole
import Verif.Lemmas.WholeDeck
import Verif.Props.Processed
import Verif.Props.ConvertedMaterials
import Verif.Spec.SerpentFile
import Verif.Spec.PhitsFile

/-!
# From conditions on the input to those on the processed deck
-/

set_option linter.unusedSectionVars false

namespace Csg

open Spec

section
variable {K : Type} [Field K] [LinearOrder K] [IsStrictOrderedRing K]

private theorem getMaterialCards_names {io : NumIO K} : ∀ {ls : List Str} {mats mats' : List (Str × Material K)}, getMaterialCards io mats ls = .ok mats' →
    (∀ k m, mats.lookup k = some m → m.name = c!"M" ++ m.number ∧ m.density = 0) → ∀ k m, mats'.lookup k = some m → m.name = c!"M" ++ m.number ∧ m.density = 0 := by
  intro ls
  induction ls with
  | nil => intro mats mats' h hl; cases h; exact hl
  | cons l ls ih =>
    intro mats mats' h hl
    unfold getMaterialCards at h
    split at h
    · obtain ⟨⟨n, m⟩, h1, h⟩ := bind_ok h
      refine ih h ?_
      intro k m' hk
      rw [lookup_dictSet] at hk
      split at hk
      · cases hk
        unfold getMaterialCard at h1
        obtain ⟨t0, -, h1⟩ := bind_ok h1
        obtain ⟨m', h2, h1⟩ := bind_ok h1
        cases h1
        unfold readMaterial at h2
        simp only at h2
        split at h2
        · cases h2
        · obtain ⟨x, -, h2⟩ := bind_ok h2
          cases h2
          exact ⟨rfl, rfl⟩
      · exact hl k m' hk
    · exact ih h hl

private theorem readDeck_cards {io : NumIO K} {cosDeg : K → K} {lines : List Str} {d : Deck K} (h : readDeck io cosDeg lines = .ok d) : ∀ m ∈ d.materials, m.2.name = c!"M" ++ m.1 ∧ m.2.density = 0 := by
  have hl := readDeck_listed h
  intro m hm
  rw [← hl.2 m hm]
  unfold readDeck at h
  obtain ⟨⟨title, l1⟩, -, h⟩ := bind_ok h
  obtain ⟨l2, -, h⟩ := bind_ok h
  obtain ⟨⟨cells, l3⟩, hc, h⟩ := bind_ok h
  obtain ⟨⟨surfs, l4⟩, hs, h⟩ := bind_ok h
  obtain ⟨imps, -, h⟩ := bind_ok h
  obtain ⟨trs, -, h⟩ := bind_ok h
  obtain ⟨mats, hm', h⟩ := bind_ok h
  cases h
  exact getMaterialCards_names hm' (by simp) m.1 m.2 ((lookup_iff_mem hl.1).2 hm)

/-- The names of the materials read from a file. -/
theorem readDeck_names {io : NumIO K} {cosDeg : K → K} {lines : List Str} {d : Deck K} (h : readDeck io cosDeg lines = .ok d) : ∀ m ∈ d.materials, m.2.name = c!"M" ++ m.1 :=
  fun m hm => (readDeck_cards h m hm).1

/-- The materials read from a file have no density. -/
theorem readDeck_densities {io : NumIO K} {cosDeg : K → K} {lines : List Str} {d : Deck K} (h : readDeck io cosDeg lines = .ok d) : ∀ m ∈ d.materials, m.2.density = 0 :=
  fun m hm => (readDeck_cards h m hm).2

private theorem detectKeywords_surfaces {io : NumIO K} {cosDeg : K → K} {c : Cell K} {s : Str} {r : Cell K × Str} (h : detectKeywords io cosDeg c s = .ok r) : r.1.surfaces = c.surfaces := by
  unfold detectKeywords at h
  split at h
  · cases h; rfl
  · extract_lets at h
    split at h
    · cases h; rfl
    · split at h
      · cases h
      · obtain ⟨c1, h1, h⟩ := bind_ok h
        cases h
        exact readKeywords_surfaces h1

private theorem readCell_listed {io : NumIO K} {cosDeg : K → K} {text : Str} {c : Cell K} (h : readCell io cosDeg text = .ok c) :
    (∀ a w b z, c.text = a ++ w :: b → a.getLast? ≠ some c!"(" → parseInt w = some z → (z.natAbs : Int) ∈ c.surfaces) ∧
      ∀ n ∈ c.surfaces, ∃ w ∈ c.text, ∃ z : Int, parseInt w = some z ∧ n = z.natAbs := by
  unfold readCell interpret at h
  obtain ⟨⟨c1, s⟩, hk, h⟩ := bind_ok h
  have hk := detectKeywords_surfaces hk
  obtain ⟨t0, -, h⟩ := bind_ok h
  obtain ⟨id, -, h⟩ := bind_ok h
  obtain ⟨t1, -, h⟩ := bind_ok h
  obtain ⟨m, -, h⟩ := bind_ok h
  obtain ⟨c2, hc2, h⟩ := bind_ok h
  obtain ⟨⟨is, ns⟩, h1, h⟩ := bind_ok h
  cases h
  have e : c2.surfaces = [] := by
    simp only at hc2
    split at hc2
    · obtain ⟨t2, -, hc2⟩ := bind_ok hc2
      obtain ⟨x, -, hc2⟩ := bind_ok hc2
      cases hc2
      exact hk
    · cases hc2
      exact hk
  show (∀ a w b z, c2.text = a ++ w :: b → a.getLast? ≠ some c!"(" → parseInt w = some z → (z.natAbs : Int) ∈ c2.surfaces ++ ns) ∧ ∀ n ∈ c2.surfaces ++ ns, _
  rw [e, List.nil_append]
  exact C19_recorded_partial _ _ _ h1

/-- The surfaces listed for the cells that are read from a file: those named in their descriptions, except directly after a parenthesis. -/
theorem readDeck_recorded {io : NumIO K} {cosDeg : K → K} {lines : List Str} {d : Deck K} (h : readDeck io cosDeg lines = .ok d) :
    ∀ c ∈ d.cells, (∀ a w b z, c.text = a ++ w :: b → a.getLast? ≠ some c!"(" → parseInt w = some z → (z.natAbs : Int) ∈ c.surfaces) ∧
      ∀ n ∈ c.surfaces, ∃ w ∈ c.text, ∃ z : Int, parseInt w = some z ∧ n = z.natAbs := by
  unfold readDeck at h
  obtain ⟨⟨title, l1⟩, -, h⟩ := bind_ok h
  obtain ⟨l2, -, h⟩ := bind_ok h
  obtain ⟨⟨cells, l3⟩, hc, h⟩ := bind_ok h
  obtain ⟨⟨surfs, l4⟩, hs, h⟩ := bind_ok h
  obtain ⟨imps, -, h⟩ := bind_ok h
  obtain ⟨trs, -, h⟩ := bind_ok h
  obtain ⟨mats, -, h⟩ := bind_ok h
  cases h
  intro c hcm
  obtain ⟨_, _, groups, -, -, -, -, hm⟩ := (C38_block removeInlineComment (readCell io cosDeg) l2 cells l3).1 hc
  obtain ⟨text, -, ht⟩ := forall₂_right (mapM_ok_forall₂ hm) c hcm
  exact readCell_listed ht

/-- The surfaces listed for the cells that are read from a file are named in their descriptions. -/
theorem readDeck_surfaces {io : NumIO K} {cosDeg : K → K} {lines : List Str} {d : Deck K} (h : readDeck io cosDeg lines = .ok d) :
    ∀ c ∈ d.cells, ∀ n ∈ c.surfaces, ∃ w ∈ c.text, ∃ z : Int, parseInt w = some z ∧ n = z.natAbs :=
  fun c hc => (readDeck_recorded h c hc).2

/-- Such decks can be processed. -/
theorem convertible_finishes {io : NumIO K} (hio : Exact io) {cosDeg sqrt : K → K} {quick : Bool} {rank : Int → Nat} {lines : List Str} {d : Deck K}
    (hr : readDeck io cosDeg lines = .ok d) (hd : Convertible io sqrt rank d) : ∃ fuel d', finishDeck fuel io cosDeg sqrt quick d = some (.ok d') := by
  obtain ⟨fuel, d', h⟩ := C94_succeeds_partial io hio cosDeg sqrt quick rank d hd.proper (.inr hd.sheets)
    ⟨(readDeck_listed hr).1, hd.defined, fun e he => (prepared_substance (hd.atoms e he)).1, hd.fills, hd.importances, readDeck_surfaces hr, hd.outside⟩
  exact ⟨fuel, d', h fuel le_rfl⟩

variable {fuel : Nat} {io : NumIO K} {cosDeg sqrt : K → K} {quick : Bool} {rank : Int → Nat} {lines : List Str} {d d' : Deck K}

/-- The descriptions of the processed cells. -/
theorem whole_words (hio : Exact io) (hr : readDeck io cosDeg lines = .ok d) (hd : Convertible io sqrt rank d) (h : finishDeck fuel io cosDeg sqrt quick d = some (.ok d')) :
    ∀ c ∈ d'.cells, Spaced c.interpreted ∧ WordsAre SurfaceWord c.interpreted ∧ Legal (itemSyms c.interpreted) ∧
      ∀ w, .str w ∈ c.interpreted → ¬ IsParen w → ∃ z : Int, z ≠ 0 ∧ w = intStr z := by
  have hs := C93_surfaces_partial fuel io hio cosDeg sqrt quick rank lines d d' hr hd.proper h
  have hlast := processed_last h
  intro c hc
  obtain ⟨h1, h2, h3⟩ := C93_words_partial fuel io hio cosDeg sqrt quick rank lines d d' hr hd.proper (.inr hd.sheets) h c hc
  refine ⟨h1, fun w hw hp => ?_, h2, fun w hw hp => ?_⟩
  · obtain ⟨z, hz, rfl, s, hsm, e⟩ := h3 w hw hp
    refine ⟨⟨?_, intStr_chars z⟩, ?_⟩
    · intro h0
      have := parseInt_intStr z
      rw [h0] at this
      exact absurd this (by simp [parseInt, parseNat])
    · have hb : |z| < 10 ^ (57 + 1) := by
        have k := (hs s hsm).2.2.2.2.1
        rw [e, Int.natCast_natAbs] at k
        calc |z| ≤ d'.last := k
          _ ≤ _ := hlast
          _ < _ := hd.size
      have := intStr_length hb
      omega
  · obtain ⟨z, hz, hw, -⟩ := h3 w hw hp
    exact ⟨z, hz, hw⟩

/-- The materials of the processed deck. -/
theorem whole_list (hio : Exact io) (hr : readDeck io cosDeg lines = .ok d) (hd : Convertible io sqrt rank d) (h : finishDeck fuel io cosDeg sqrt quick d = some (.ok d')) :
    Listed d'.materials ∧ ∀ e ∈ d'.materials, (∃ k : Nat, 0 < k ∧ k < 10 ^ 9 ∧ e.1 = natStr k) ∧ MaterialName io e.2.name ∧ e.2.composition ≠ [] ∧ (e.2.composition.map Prod.fst).Nodup ∧
      ∃ e0 ∈ d.materials, EntriesFrom e0.2.composition e.2.composition ∧
        (∀ P : Str → Prop, P [] → (∀ x ∈ e0.2.composition, ∃ y, e0.2.xsid.lookup x.1 = some y ∧ P y) → ∀ x ∈ e.2.composition, ∃ y, e.2.xsid.lookup x.1 = some y ∧ P y) ∧
        (e.2.density = e0.2.density ∨ ∃ c ∈ d.cells, e.2.density = c.density) ∧
        (e.2 = e0.2 ∧ (∀ c ∈ d'.cells, c.material = .int 0) ∨ total e.2.composition = 1 ∧ ∀ x ∈ e.2.composition, ∀ z, x.1 ≠ natStr (1000 * z)) :=
  processed_list (readDeck_listed hr) hd.atoms hd.numbered (readDeck_names hr) hd.few
    (forall₂_imp (fun _ _ k => k.1.2.1) (processed_cells hio hd.proper (.inr hd.sheets) h).2.2) h

/-- The materials of the processed cells are numbers. -/
theorem whole_material (hio : Exact io) (hr : readDeck io cosDeg lines = .ok d) (hd : Convertible io sqrt rank d) (h : finishDeck fuel io cosDeg sqrt quick d = some (.ok d')) :
    ∀ c ∈ d'.cells, c.material = .int 0 ∨ ∃ k : Nat, 0 < k ∧ c.material.text = natStr k ∧ ∃ m', (natStr k, m') ∈ d'.materials := by
  obtain ⟨-, hmats⟩ := processed_materials hio hr hd.proper hd.defined hd.atoms h
  obtain ⟨-, hlist⟩ := whole_list hio hr hd h
  intro c' hc'
  obtain ⟨c, hc, hv, hm⟩ := forall₂_right hmats c' hc'
  obtain ⟨z, hz, -⟩ := (hd.proper.cells c hc).1.material
  by_cases h0 : z = 0
  · exact .inl (hv (by rw [hz, h0]))
  · obtain ⟨-, m, m', -, -, k3, -⟩ := hm z h0 hz
    obtain ⟨⟨k, hk, -, e⟩, -⟩ := hlist _ k3
    exact .inr ⟨k, hk, e, m', e ▸ k3⟩

/-- The nuclides of a composition as numbers. -/
def nucsOf (m : Material K) : List (Nuc K) := m.composition.map fun e => (((parseInt e.1).getD 0).toNat / 1000, ((parseInt e.1).getD 0).toNat % 1000, e.2)

theorem parseInt_natStr (n : Nat) : parseInt (natStr n) = some (n : Int) := parseInt_intStr (n : Int)

/-- A property of nuclides that holds for those of the input and for the natural nuclides. -/
theorem whole_nuclides {P : Nat → Nat → Prop} (hP : ∀ z, P z 0 → ∀ n ∈ natural z, P (n.nucid / 10000 / 1000) (n.nucid / 10000 % 1000))
    (hio : Exact io) (hr : readDeck io cosDeg lines = .ok d) (hd : Convertible io sqrt rank d) (h : finishDeck fuel io cosDeg sqrt quick d = some (.ok d'))
    (hn : ∀ m ∈ d.materials, ∀ e ∈ m.2.composition, ∃ z a, e.1 = natStr (1000 * z + a) ∧ a < 1000 ∧ P z a) :
    ∀ m ∈ d'.materials, m.2.composition = compositionOf (nucsOf m.2) ∧ ∀ p ∈ nucsOf m.2, p.2.1 < 1000 ∧ P p.1 p.2.1 ∧ 0 ≤ p.2.2 ∧ (natStr (1000 * p.1 + p.2.1), p.2.2) ∈ m.2.composition := by
  obtain ⟨-, hlist⟩ := whole_list hio hr hd h
  intro m hm
  obtain ⟨-, -, -, -, e0, he0, ⟨s, hs, -, hent⟩, -⟩ := hlist m hm
  have key : ∀ e ∈ m.2.composition, ∃ z a, e.1 = natStr (1000 * z + a) ∧ a < 1000 ∧ P z a ∧ 0 ≤ e.2 := by
    intro e he
    obtain ⟨e1, he1, rfl | ⟨z, hz, n, hnn, rfl⟩⟩ := hent e he
    · obtain ⟨z, a, k1, k2, k3⟩ := hn e0 he0 e1 he1
      exact ⟨z, a, k1, k2, k3, div_nonneg ((hd.atoms e0 he0).positive e1 he1) hs.le⟩
    · obtain ⟨z', a', k1, k2, k3⟩ := hn e0 he0 e1 he1
      have hza := natStr_injective (hz.symm.trans k1)
      have hz' : z' = z := by omega
      have ha' : a' = 0 := by omega
      subst hz' ha'
      refine ⟨_, _, ?_, Nat.mod_lt _ (by norm_num), hP _ k3 n hnn, ?_⟩
      · rw [Nat.div_add_mod]
      · refine div_nonneg (mul_nonneg ((hd.atoms e0 he0).positive e1 he1) (div_nonneg ?_ (by norm_num))) hs.le
        have := (table_shape n (natural_mem hnn).1).1
        exact_mod_cast this.le
  have key' : ∀ e ∈ m.2.composition, (natStr (1000 * (((parseInt e.1).getD 0).toNat / 1000) + ((parseInt e.1).getD 0).toNat % 1000), e.2) = e ∧ ((parseInt e.1).getD 0).toNat % 1000 < 1000 ∧
      P (((parseInt e.1).getD 0).toNat / 1000) (((parseInt e.1).getD 0).toNat % 1000) ∧ 0 ≤ e.2 := by
    intro e he
    obtain ⟨z, a, k1, k2, k3, k4⟩ := key e he
    have e1 : ((parseInt e.1).getD 0).toNat = 1000 * z + a := by
      rw [k1, parseInt_natStr, Option.getD_some, Int.toNat_natCast]
    rw [e1]
    have e2 : (1000 * z + a) / 1000 = z := by omega
    have e3 : (1000 * z + a) % 1000 = a := by omega
    rw [e2, e3]
    exact ⟨by rw [← k1], k2, k3, k4⟩
  constructor
  · unfold compositionOf nucsOf
    rw [List.map_map]
    conv_lhs => rw [← List.map_id m.2.composition]
    exact List.map_congr_left fun e he => (key' e he).1.symm
  · intro p hp
    obtain ⟨e, he, rfl⟩ := List.mem_map.1 hp
    refine ⟨(key' e he).2.1, (key' e he).2.2.1, (key' e he).2.2.2, ?_⟩
    simp only
    rw [(key' e he).1]
    exact he

/-- Names of materials are printable. -/
theorem materialName_chars (hio : Exact io) {s : Str} (h : MaterialName io s) : ∀ c ∈ s, isDigit c = true ∨ c ∈ c!"MCopy of Material with density +-.e" := by
  intro c hc
  rcases h with ⟨k, rfl⟩ | ⟨z, x, rfl⟩
  · rcases List.mem_append.1 hc with hc | hc
    · exact .inr ((by decide : ∀ c ∈ c!"M", c ∈ c!"MCopy of Material with density +-.e") c hc)
    · exact .inl (natStr_digits k c hc)
  · rcases List.mem_append.1 hc with hc | hc
    · rcases List.mem_append.1 hc with hc | hc
      · rcases List.mem_append.1 hc with hc | hc
        · exact .inr ((by decide : ∀ c ∈ c!"Copy of Material ", c ∈ c!"MCopy of Material with density +-.e") c hc)
        · rcases intStr_chars z c hc with h | rfl
          · exact .inl h
          · right; decide
      · exact .inr ((by decide : ∀ c ∈ c!" with density ", c ∈ c!"MCopy of Material with density +-.e") c hc)
    · rcases (hio.text x).chars c hc with h | rfl | rfl | rfl | rfl
      · exact .inl h
      all_goals right; decide

theorem digit_attr {c : Char} (h : isDigit c = true) : xmlChar c = true ∧ c ≠ '\r' := by
  simp only [isDigit, Bool.or_eq_true, beq_iff_eq, or_assoc] at h
  rcases h with rfl | rfl | rfl | rfl | rfl | rfl | rfl | rfl | rfl | rfl <;> decide

private theorem render_attr (hio : Exact io) (x : K) : io.render x ≠ [] ∧ (∀ c ∈ io.render x, isSpace c = false) ∧ AttrText (io.render x) := by
  refine ⟨(exact_prints hio x).ne_nil, fun c hc => ?_, fun c hc => ?_⟩
  · rcases (hio.text x).chars c hc with h | rfl | rfl | rfl | rfl
    · exact isSpace_of_isDigit h
    all_goals decide
  · rcases (hio.text x).chars c hc with h | rfl | rfl | rfl | rfl
    · exact digit_attr h
    all_goals decide

theorem numbers_print (hio : Exact io) (a : List K) : ∀ e ∈ a.map Entry.num, EntryPrints io e := by
  intro e he
  obtain ⟨x, -, rfl⟩ := List.mem_map.1 he
  obtain ⟨h1, h2, h3⟩ := render_attr hio x
  exact ⟨h1, h2, h3, x, rfl, hio.reads x⟩

theorem torus_type {t : SType} (h : t.isTorus = true) : IsTorus t := by
  revert h
  cases t <;> simp [SType.isTorus, IsTorus]

/-- A deck for OpenMC, from the conditions on the input. -/
theorem openmc_ready (hio : Exact io) (hr : readDeck io cosDeg lines = .ok d) (hd : Convertible io sqrt rank d) (ho : OpenmcInput io d)
    (h : finishDeck fuel io cosDeg sqrt quick d = some (.ok d')) : OpenmcDeck io nucsOf d'.cells d'.surfaces d'.materials := by
  obtain ⟨hid, hpos, hcells⟩ := processed_cells hio hd.proper (.inr hd.sheets) h
  have hsurf := C93_surfaces_partial fuel io hio cosDeg sqrt quick rank lines d d' hr hd.proper h
  obtain ⟨hl, hlist⟩ := whole_list hio hr hd h
  have hnuc := whole_nuclides (P := fun z a => 0 < z ∧ z ≤ 118 ∧ (z < 10 → a < 100)) (by
    intro z _ n hn
    obtain ⟨-, h1, h2, h3, h4⟩ := table_shape n (natural_mem hn).1
    omega) hio hr hd h (fun m hm e he => by
      obtain ⟨z, a, k1, k2, k3, k4, k5⟩ := ho.nuclides m hm e he
      exact ⟨z, a, k1, k4, k2, k3, k5⟩)
  have hfu : List.Forall₂ (fun c c' : Cell K => c'.fill = c.fill ∧ c'.uni = c.uni) d.cells d'.cells := forall₂_imp (fun _ _ k => k.1.2.2) hcells
  refine ⟨⟨?_, hid, ?_⟩, ?_, ?_, ⟨ho.zero, ?_⟩, ⟨?_, ?_, ?_⟩, ?_⟩
  · have : d'.cells.map (·.id) = d.cells.map (·.id) := forall₂_map_eq (fun _ _ k => k.1.1) hcells
    rw [this]
    exact hd.proper.complements.ids
  · have : d'.materials.map (fun m => m.2.number) = d'.materials.map Prod.fst := List.map_congr_left fun m hm => hl.2 m hm
    rw [this]
    exact hl.1
  · intro s hs
    obtain ⟨k1, k2, k3, -, -, k6⟩ := hsurf s hs
    refine ⟨k1, k2.imp id fun k => torus_type k.1, (k6 hd.sheets).1, k3.imp id Or.inl, fun x _ => exact_prints hio x⟩
  · intro c hc
    obtain ⟨k1, k2, -⟩ := whole_words hio hr hd h c hc
    refine ⟨k1, k2, ?_⟩
    rcases whole_material hio hr hd h c hc with e | ⟨k, -, e, -⟩
    · rw [e]
      exact ⟨0, by decide⟩
    · rw [e]
      exact ⟨_, parseInt_natStr k⟩
  · intro c' hc'
    obtain ⟨c, hc, h1, h2⟩ := forall₂_right (processed_fills hio hd.proper h) c' hc'
    by_cases h0 : c.trId = c!"0"
    · rw [(h1 h0).1, (h1 h0).2]
      exact ho.transforms c hc h0
    · obtain ⟨-, a, b, -, -, e1, e2, e3, e4⟩ := h2 h0
      rw [e1, e3]
      refine ⟨fun l hl => ?_, fun l hl => ?_⟩ <;> cases hl
      · exact ⟨by rw [List.length_map, e2], numbers_print hio a⟩
      · exact ⟨by rw [List.length_map, e4], numbers_print hio b⟩
  · intro c' hc'
    obtain ⟨c, hc, e1, e2⟩ := forall₂_right hfu c' hc'
    rw [e1, e2]
    exact ho.universes.1 c hc
  · obtain ⟨c, hc, k⟩ := ho.universes.2.1
    obtain ⟨c', hc', -, e2⟩ := forall₂_left_mem hfu hc
    exact ⟨c', hc', by rw [e2, k]⟩
  · obtain ⟨depth, k⟩ := ho.universes.2.2
    refine ⟨depth, fun c' hc' => ?_⟩
    obtain ⟨c, hc, e1, e2⟩ := forall₂_right hfu c' hc'
    rw [e1, e2]
    exact k c hc
  · intro m hm
    obtain ⟨k1, k2⟩ := hnuc m hm
    obtain ⟨⟨k, -, -, e⟩, hname, -⟩ := hlist m hm
    refine ⟨k1, fun p hp => ?_, exact_prints hio _, ⟨k, by rw [hl.2 m hm, e, parseInt_natStr]⟩, fun c hc => ?_⟩
    · obtain ⟨j1, ⟨j2, j3, j4⟩, -⟩ := k2 p hp
      exact ⟨j2, j3, j1, j4, exact_prints hio _⟩
    · rcases materialName_chars hio hname c hc with h | h
      · exact digit_attr h
      · exact (by decide : ∀ c ∈ c!"MCopy of Material with density +-.e", xmlChar c = true ∧ c ≠ '\r') c h

/-! ## Cards -/

theorem good_of (hio : Exact io) {x : K} (h : (io.render x).length ≤ 24) : io.Good x :=
  ⟨hio.reads x, (exact_prints hio x).ne_nil, h, (exact_prints hio x).chars⟩

/-- The importances of the processed deck. -/
theorem processed_importances (hio : Exact io) (hd : ProperDeck sqrt rank d) (h : finishDeck fuel io cosDeg sqrt quick d = some (.ok d')) {i : Nat} {c c' : Cell K}
    (h1 : d.cells[i]? = some c) (h2 : d'.cells[i]? = some c') : ImportanceIs io d i c c'.importance := by
  obtain ⟨cells1, cells2, cells3, cells4, cells5, surfs1, surfs2, surfs3, surfs4, r⟩ := finishDeck_run h
  have h14 : List.Forall₂ (fun c c' : Cell K => c'.importance = c.importance) d.cells cells4 := by
    refine forall₂_trans (R := fun c c' : Cell K => c'.importance = c.importance) (S := MatFrame) (fun a b c x y => by unfold MatFrame at y; rw [y]; exact x) ?_ (reorganiseMaterials_frame io r.mats)
    refine forall₂_trans (S := FillFrame) (fun a b c x y => ?_) (r.expanded hio hd) (fill_frame r.fill)
    unfold FillFrame at y
    rw [y, x]
  obtain ⟨h56, -⟩ := r.final
  have hlen := List.forall₂_iff_get.1 h56
  have hi : i < d'.cells.length := (List.getElem?_eq_some_iff.1 h2).1
  obtain ⟨c5, hc5⟩ : ∃ c5, cells5[i]? = some c5 := ⟨cells5[i]'(by rw [hlen.1]; exact hi), by simp⟩
  obtain ⟨c6, hc6, e⟩ := forall₂_getElem? h56 hc5
  rw [h2] at hc6
  cases hc6
  have := importance_is h14 r.imps h1 hc5
  rw [e]
  exact this

/-- A property of the importances of the input. -/
theorem importance_out (hio : Exact io) (hd : ProperDeck sqrt rank d) (hq : ∀ s ∈ d.surfaces, TwoSheet s) (h : finishDeck fuel io cosDeg sqrt quick d = some (.ok d')) {P : K → Prop}
    (hp : ∀ (i : Nat) c x, d.cells[i]? = some c → ImportanceIs io d i c x → P x) : ∀ c ∈ d'.cells, P c.importance := by
  obtain ⟨-, -, -, h4⟩ := C84_regions_partial fuel io hio cosDeg sqrt quick rank d d' hd (.inr hq) h
  intro c' hc'
  obtain ⟨i, hi⟩ := List.getElem?_of_mem hc'
  have hlt : i < d'.cells.length := (List.getElem?_eq_some_iff.1 hi).1
  have h1 : d.cells[i]? = some (d.cells[i]'(by rw [h4.length_eq]; exact hlt)) := by simp
  exact hp i _ _ h1 (processed_importances hio hd h h1 hi)

/-- The texts of the numbers on cell cards are not longer than those of floating-point numbers, and numbers of materials have at most nine digits. -/
structure ShortOut (io : NumIO K) (d : Deck K) : Prop where
  cells : ∀ c ∈ d.cells, (io.render c.density).length ≤ 24 ∧ (io.render c.importance).length ≤ 24
  fills : ∀ c ∈ d.cells, ∀ l, c.offset = some l ∨ c.rotation = some l → ∀ e ∈ l, ∀ x, entryValue io e = some x → (io.render x).length ≤ 24
  materials : ∀ m ∈ d.materials, m.1.length ≤ 9

theorem short_out (hio : Exact io) (hr : readDeck io cosDeg lines = .ok d) (hd : Convertible io sqrt rank d) (h : finishDeck fuel io cosDeg sqrt quick d = some (.ok d')) (hs : ShortCells io d) :
    ShortOut io d' := by
  obtain ⟨-, -, hcells⟩ := processed_cells hio hd.proper (.inr hd.sheets) h
  refine ⟨fun c' hc' => ⟨?_, ?_⟩, fun c' hc' l hl e he x hx => ?_, fun m hm => ?_⟩
  · obtain ⟨c, hc, k⟩ := forall₂_right hcells c' hc'
    rw [k.1.2.1]
    exact hs.densities c hc
  · exact importance_out hio hd.proper hd.sheets h (P := fun x => (io.render x).length ≤ 24) hs.importances c' hc'
  · obtain ⟨c, hc, k1, k2⟩ := forall₂_right (processed_fills hio hd.proper h) c' hc'
    by_cases h0 : c.trId = c!"0"
    · rw [(k1 h0).1, (k1 h0).2] at hl
      exact hs.fills c hc l hl e he x hx
    · obtain ⟨t, a, b, ht, hab, e1, -, e3, -⟩ := k2 h0
      have ht := hs.cards _ (mem_of_lookup ht)
      rw [e1, e3] at hl
      rcases hl with hl | hl <;> cases hl
      all_goals
        obtain ⟨y, hy, rfl⟩ := List.mem_map.1 he
        cases hx
        exact ht _ (hab _ (by simp [hy]))
  · obtain ⟨k, -, k2, e⟩ := ((whole_list hio hr hd h).2 m hm).1
    rw [e]
    exact natStr_length (k := 8) k2

/-- The texts of the offset of a cell. -/
def offsOf (io : NumIO K) (c : Cell K) : List Str := (c.offset.getD []).map (·.text io)

/-- The texts of the rotation of a cell. -/
def rotsOf (io : NumIO K) (c : Cell K) : List Str := (c.rotation.getD []).map fun e => io.render ((entryValue io e).getD 0)

theorem plainNumber_word {w : Str} (h : PlainNumber w) : w ≠ [] ∧ ∀ c ∈ w, NumberChar c := by
  have hs : ∀ sg : Str, sg ∈ [[], c!"+", c!"-"] → ∀ c ∈ sg, NumberChar c := by
    intro sg h
    simp only [List.mem_cons, List.not_mem_nil, or_false] at h
    rcases h with rfl | rfl | rfl <;> simp [NumberChar]
  cases h with
  | whole sg a h1 h2 h3 =>
    refine ⟨by simp [h2], fun c hc => ?_⟩
    rcases List.mem_append.1 hc with hc | hc
    · exact hs sg h1 c hc
    · exact .inl (h3 c hc)
  | point sg a b h1 h2 h3 h4 h5 =>
    refine ⟨by simp, fun c hc => ?_⟩
    rcases List.mem_append.1 hc with hc | hc
    · rcases List.mem_append.1 hc with hc | hc
      · exact hs sg h1 c hc
      · exact .inl (h3 c hc)
    · rcases List.mem_cons.1 hc with rfl | hc
      · simp [NumberChar]
      · exact .inl (h5 c hc)

theorem numberChar_plain {c : Char} (h : NumberChar c) : isSpace c = false ∧ c ≠ '(' ∧ c ≠ ')' ∧ c ∉ ['[', '$', '!', '%'] := by
  rcases h with h | rfl | rfl | rfl | rfl
  · simp only [isDigit, Bool.or_eq_true, beq_iff_eq, or_assoc] at h
    rcases h with rfl | rfl | rfl | rfl | rfl | rfl | rfl | rfl | rfl | rfl <;> decide
  all_goals decide

theorem numberWord_plain {w : Str} (h0 : w ≠ []) (h : ∀ c ∈ w, NumberChar c) (hl : w.length ≤ 60) : PlainToken w :=
  ⟨⟨h0, fun c hc => (numberChar_plain (h c hc)).1, hl⟩, fun hc => (numberChar_plain (h _ hc)).2.1 rfl, fun hc => (numberChar_plain (h _ hc)).2.2.1 rfl⟩

instance (c : Char) : Decidable (NumberChar c) := by unfold NumberChar; infer_instance

theorem numberWord_serpent {w : Str} (h : ∀ c ∈ w, NumberChar c) : SerpentOrdinary w := by
  refine ⟨fun hw => ?_, fun hc => (numberChar_plain (h _ hc)).2.2.2 (by simp)⟩
  exact (by decide : ∀ w ∈ serpentNames, ¬ ∀ c ∈ w, NumberChar c) w hw h

theorem numberWord_phits {w : Str} (h : ∀ c ∈ w, NumberChar c) : PhitsQuiet w := fun c hc => (numberChar_plain (h c hc)).2.2.2

/-- The cells of the processed deck can be written on cards. -/
theorem card_cells (hio : Exact io) (hr : readDeck io cosDeg lines = .ok d) (hd : Convertible io sqrt rank d) (hc : CardInput io d) (h : finishDeck fuel io cosDeg sqrt quick d = some (.ok d'))
    (hs : ShortOut io d') : ∀ c ∈ d'.cells, Writable io SurfaceWord c ∧ Writable io GeometryWord c ∧ WritableParams io c (offsOf io c) (rotsOf io c) ∧ (∀ w ∈ offsOf io c, ∀ ch ∈ w, NumberChar ch) ∧
      (∀ u, c.uni = some u → PlainNumber u) ∧ (∀ f, c.fill = some f → PlainNumber f) ∧ (∀ ch ∈ c.material.text, isDigit ch = true) := by
  obtain ⟨hid, hpos, hcells⟩ := processed_cells hio hd.proper (.inr hd.sheets) h
  intro c' hc'
  obtain ⟨c, hcm, ⟨⟨e1, e2, e3, e4⟩, -⟩, hf⟩ := forall₂_right (forall₂_both hcells (processed_fills hio hd.proper h)) c' hc'
  obtain ⟨w1, w2, -⟩ := whole_words hio hr hd h c' hc'
  have hid' : Token (intStr c'.id) := by
    rw [e1]
    refine ⟨?_, fun ch hch => ?_, ?_⟩
    · intro h0
      have := parseInt_intStr c.id
      rw [h0] at this
      exact absurd this (by simp [parseInt, parseNat])
    · rcases intStr_chars _ ch hch with h | rfl
      · exact isSpace_of_isDigit h
      · decide
    · have := intStr_length (k := 57) (hc.ids c hcm)
      omega
  have hmat : Token c'.material.text ∧ ∀ ch ∈ c'.material.text, isDigit ch = true := by
    rcases whole_material hio hr hd h c' hc' with e | ⟨k, -, e, m', hm'⟩
    · rw [e, show (MatNum.int 0).text = c!"0" by decide]
      exact ⟨⟨by decide, by decide, by decide⟩, by decide⟩
    · rw [e]
      exact ⟨⟨natStr_ne_nil k, fun ch hch => isSpace_of_isDigit (natStr_digits k ch hch), le_trans (hs.materials _ hm') (by norm_num)⟩, natStr_digits k⟩
  have hgood := hs.cells c' hc'
  have hnum : ∀ a : List K, (∀ x ∈ a, (io.render x).length ≤ 24) → ∀ e ∈ a.map Entry.num, e.text io ≠ [] ∧ (e.text io).length ≤ 60 ∧ ∀ ch ∈ e.text io, NumberChar ch := by
    intro a ha e he
    obtain ⟨x, hx, rfl⟩ := List.mem_map.1 he
    exact ⟨(exact_prints hio x).ne_nil, le_trans (ha x hx) (by norm_num), (exact_prints hio x).chars⟩
  have hoff : (∀ l, c'.offset = some l → l.length = 3 ∧ ∀ e ∈ l, e.text io ≠ [] ∧ (e.text io).length ≤ 60 ∧ ∀ ch ∈ e.text io, NumberChar ch) ∧
      ∀ l, c'.rotation = some l → l.length = 9 ∧ ∀ e ∈ l, ∃ x, entryValue io e = some x := by
    by_cases h0 : c.trId = c!"0"
    · rw [(hf.1 h0).1, (hf.1 h0).2]
      exact hc.transforms c hcm h0
    · obtain ⟨-, a, b, -, -, f1, f2, f3, f4⟩ := hf.2 h0
      rw [f1, f3]
      refine ⟨fun l hl => ?_, fun l hl => ?_⟩ <;> cases hl
      · refine ⟨by rw [List.length_map, f2], hnum a fun x hx => ?_⟩
        exact hs.fills c' hc' _ (.inl f1) (.num x) (List.mem_map_of_mem hx) x rfl
      · refine ⟨by rw [List.length_map, f4], fun e he => ?_⟩
        obtain ⟨x, -, rfl⟩ := List.mem_map.1 he
        exact ⟨x, rfl⟩
  refine ⟨⟨w1, w2, hid', hmat.1, fun _ => good_of hio hgood.1⟩, ⟨w1, fun w hw hp => ?_, hid', hmat.1, fun _ => good_of hio hgood.1⟩, ⟨?_, ?_, ?_, ?_, good_of hio hgood.2⟩, ?_, ?_, ?_, hmat.2⟩
  · obtain ⟨⟨k1, k2⟩, k3⟩ := w2 w hw hp
    refine ⟨⟨k1, ?_, fun ch hch => (k2 ch hch).imp id Or.inl⟩, k3⟩
    rintro rfl
    exact absurd (k2 '#' (by simp)) (by decide)
  · rw [e4]
    intro u hu
    obtain ⟨k1, k2⟩ := (hc.universes c hcm).1 u hu
    exact numberWord_plain (plainNumber_word k1).1 (plainNumber_word k1).2 k2
  · rw [e3]
    intro f hff
    obtain ⟨k1, k2⟩ := (hc.universes c hcm).2 f hff
    exact numberWord_plain (plainNumber_word k1).1 (plainNumber_word k1).2 k2
  · intro l hl
    obtain ⟨k1, k2⟩ := hoff.1 l hl
    refine ⟨k1, ?_⟩
    rw [offsOf, hl, Option.getD_some, List.forall₂_map_right_iff, List.forall₂_same]
    intro e he
    obtain ⟨j1, j2, j3⟩ := k2 e he
    refine ⟨numberWord_plain j1 j3 j2, ?_⟩
    cases e with
    | num x => exact .inr ⟨x, rfl, rfl⟩
    | txt w => exact .inl rfl
  · intro l hl
    obtain ⟨k1, k2⟩ := hoff.2 l hl
    refine ⟨k1, ?_⟩
    rw [rotsOf, hl, Option.getD_some, List.forall₂_map_right_iff, List.forall₂_same]
    intro e he
    obtain ⟨x, hx⟩ := k2 e he
    refine ⟨x, good_of hio (hs.fills c' hc' l (.inr hl) e he x hx), by rw [hx, Option.getD_some], ?_⟩
    cases e with
    | num y => cases hx; exact .inl rfl
    | txt w => exact .inr ⟨w, rfl, hx⟩
  · intro w hw
    rw [offsOf] at hw
    cases hl : c'.offset with
    | none => rw [hl] at hw; simp at hw
    | some l =>
      rw [hl, Option.getD_some] at hw
      obtain ⟨e, he, rfl⟩ := List.mem_map.1 hw
      exact ((hoff.1 l hl).2 e he).2.2
  · rw [e4]
    exact fun u hu => ((hc.universes c hcm).1 u hu).1
  · rw [e3]
    exact fun f hff => ((hc.universes c hcm).2 f hff).1

/-- The materials of the processed deck can be written. -/
theorem card_materials (hio : Exact io) (hr : readDeck io cosDeg lines = .ok d) (hd : Convertible io sqrt rank d) (h : finishDeck fuel io cosDeg sqrt quick d = some (.ok d')) :
    Listed d'.materials ∧ ∀ m ∈ d'.materials, Printable io m.2 := by
  obtain ⟨hl, hlist⟩ := whole_list hio hr hd h
  have hnuc := whole_nuclides (P := fun _ _ => True) (fun _ _ _ _ => trivial) hio hr hd h (fun m hm e he => by
    obtain ⟨n, hn⟩ := (hd.atoms m hm).canonical.2 e he
    exact ⟨n / 1000, n % 1000, by rw [Nat.div_add_mod, hn], Nat.mod_lt _ (by norm_num), trivial⟩)
  refine ⟨hl, fun m hm => ?_⟩
  obtain ⟨⟨k, -, -, e⟩, hname, hne, hnd, -⟩ := hlist m hm
  refine ⟨?_, ?_, hne, hnd, ?_, fun x _ => ⟨hio.text _, hio.reads _⟩⟩
  · rw [hl.2 m hm, e]
    exact ⟨natStr_ne_nil k, natStr_digits k⟩
  · intro hc
    rcases materialName_chars hio hname _ hc with h | h
    · exact absurd h (by decide)
    · exact absurd h (by decide)
  · intro x hx
    rw [(hnuc m hm).1] at hx
    obtain ⟨p, -, rfl⟩ := List.mem_map.1 hx
    exact ⟨natStr_ne_nil _, natStr_digits _⟩

/-- Cones and tori are those of the input. -/
theorem special_surfaces (hio : Exact io) (hd : ProperDeck sqrt rank d) (h : finishDeck fuel io cosDeg sqrt quick d = some (.ok d')) :
    ∀ s ∈ d'.surfaces, IsCone s.type ∨ IsTorus s.type → ∃ s0 ∈ d.surfaces, s0.type = s.type ∧ s0.coeffs = s.coeffs := by
  obtain ⟨cells1, cells2, cells3, cells4, cells5, surfs1, surfs2, surfs3, surfs4, r⟩ := finishDeck_run h
  have h1 : ∀ s ∈ surfs1, s ∈ d.surfaces ∨ ¬ (IsCone s.type ∨ IsTorus s.type) ∧ IsQuadric s.type := by
    intro s hs
    have hf := r.flat
    unfold flatten at hf
    obtain ⟨⟨c1, more, l1⟩, h1, hf⟩ := bind_ok hf
    have hfaces := flattenGo_faces io hio cosDeg d.surfaces d.last d.cells (fun s hs hm => (hd.bodies s hs hm).1.shape) h1
    cases hf
    rcases List.mem_append.1 (List.mem_filter.1 hs).1 with hm | hm
    · exact .inl hm
    · obtain ⟨b, -, -, f, hf, e⟩ := hfaces s hm
      right
      rw [e]
      show ¬ (IsCone f.1 ∨ IsTorus f.1) ∧ IsQuadric f.1
      unfold faces at hf
      split at hf
      · simp only [List.mem_cons, List.not_mem_nil, or_false] at hf
        rcases hf with rfl | rfl | rfl | rfl | rfl | rfl <;> simp [IsCone, IsTorus, IsQuadric]
      · simp only [List.mem_cons, List.not_mem_nil, or_false] at hf
        rcases hf with rfl | rfl | rfl <;> simp [IsCone, IsTorus, IsQuadric]
      · simp only [edgeFaces, List.cons_append, List.nil_append, List.mem_cons, List.not_mem_nil, or_false] at hf
        rcases hf with rfl | rfl | rfl | rfl | rfl | rfl <;> simp [IsCone, IsTorus, IsQuadric]
      · cases hf
  intro s hs hk
  obtain ⟨s2, hs2, e⟩ := forall₂_right r.surfFrame s (r.left.subset hs)
  obtain ⟨s1, hs1, e1⟩ := forall₂_right (mapM_ok_forall₂ r.move) s2 hs2
  unfold SurfFrame at e
  have et : s.type = s2.type := by rw [e]
  have ec : s.coeffs = s2.coeffs := by rw [e]
  rw [et] at hk
  rw [et, ec]
  unfold Surface.applyTransformCard at e1
  split at e1
  · cases e1
    rcases h1 s2 hs1 with k | k
    · exact ⟨s2, k, rfl, rfl⟩
    · exact absurd hk k.1
  · rename_i n hn
    split at e1
    · cases e1
      rcases h1 s2 hs1 with k | k
      · exact ⟨s2, k, rfl, rfl⟩
      · exact absurd hk k.1
    · rename_i hm
      exfalso
      have hq : IsQuadric s1.type := by
        rcases h1 s1 hs1 with k | k
        · obtain ⟨t, -, k'⟩ := hd.moved s1 k n hn
          exact (k' (by simpa using hm)).1
        · exact k.2
      obtain ⟨g, hg, e1⟩ := bind_ok e1
      have hg : g.type = .generalQuadratic := by
        unfold Surface.generalise at hg
        split at hg
        · rename_i ht
          unfold IsQuadric at hq
          revert ht hq
          cases s1.type <;> simp [SType.isTorus]
        · obtain ⟨cs, -, hg⟩ := bind_ok hg
          cases hg
          rfl
      split at e1
      · obtain ⟨m, hm', e1⟩ := bind_ok e1
        have hm2 : m.type = .generalQuadratic := by
          unfold Surface.applyTransform at hm'
          split at hm'
          · cases hm'; exact hg
          · obtain ⟨cs, -, hm'⟩ := bind_ok hm'
            cases hm'
            exact hg
        unfold Surface.simplify at e1
        split at e1
        · contradiction
        · split at e1
          · iterate 4 obtain ⟨_, _, e1⟩ := bind_ok e1
            cases e1
            simp [IsCone, IsTorus] at hk
          · split at e1
            · obtain ⟨_, _, e1⟩ := bind_ok e1
              cases e1
              simp [IsCone, IsTorus] at hk
            · cases e1
              rw [hm2] at hk
              simp [IsCone, IsTorus] at hk
      · cases e1
        rw [hg] at hk
        simp [IsCone, IsTorus] at hk

/-- A deck for Serpent, from the conditions on the input. -/
theorem serpent_ready {read : Str → Option K} {fixed sci : K → Str} {approx : K → K} (hio : Exact io) (hsci : ∀ x, FloatText (sci x) ∧ io.parse (sci x) = some (approx x))
    (hr : readDeck io cosDeg lines = .ok d) (hd : Convertible io sqrt rank d) (hc : CardInput io d) (hk : ∀ s ∈ d.surfaces, IsCone s.type ∨ IsTorus s.type → ∀ x ∈ s.coeffs, Prints read fixed x)
    (h : finishDeck fuel io cosDeg sqrt quick d = some (.ok d')) (hs : ShortOut io d') (hread : PrintedSurfaces read io d') :
    SerpentDeck read io fixed sci approx (offsOf io) (rotsOf io) d'.cells d'.surfaces d'.materials := by
  have hsurf := C93_surfaces_partial fuel io hio cosDeg sqrt quick rank lines d d' hr hd.proper h
  obtain ⟨hl, hprint⟩ := card_materials hio hr hd h
  have hcells := card_cells hio hr hd hc h hs
  refine ⟨fun s hsm => ?_, fun c hc => ⟨(hcells c hc).1, (hcells c hc).2.2.1⟩, fun c hcm => ?_, fun c hcm hh => ?_, fun m hm => ?_⟩
  · obtain ⟨k1, k2, -⟩ := hsurf s hsm
    refine ⟨k1, k2.imp id fun k => torus_type k.1, fun x hx => hread s hsm x hx, fun hh => ?_⟩
    obtain ⟨s0, h0, e1, e2⟩ := special_surfaces hio hd.proper h s hsm hh
    rw [← e2]
    exact hk s0 h0 (e1 ▸ hh)
  · obtain ⟨-, -, -, k4, k5, k6, k7⟩ := hcells c hcm
    exact ⟨numberWord_serpent fun ch hch => .inl (k7 ch hch), fun u hu => numberWord_serpent (plainNumber_word (k5 u hu)).2, fun f hf => numberWord_serpent (plainNumber_word (k6 f hf)).2,
      fun w hw => numberWord_serpent (k4 w hw)⟩
  · have := (hcells c hcm).2.2.2.2.2.2
    exact (by decide : ∀ w ∈ [c!"fill", c!"void", c!"outside"], ¬ ∀ ch ∈ w, isDigit ch = true) _ hh this
  · have k := hprint m hm
    exact ⟨k.number, k.name, ⟨hio.text _, hio.reads _⟩, k.nodup, k.nuclides, fun x _ => hsci _⟩

/-- The surfaces of the processed deck can be written on cards. -/
theorem card_surfaces (hio : Exact io) (hr : readDeck io cosDeg lines = .ok d) (hd : Convertible io sqrt rank d) (h : finishDeck fuel io cosDeg sqrt quick d = some (.ok d')) (hs : ShortSurfaces io d') :
    ∀ s ∈ d'.surfaces, Expressible s ∧ s.bc ≠ .periodic ∧ 0 ≤ s.id ∧ (intStr s.id).length ≤ 60 ∧ ∀ x ∈ s.coeffs, io.Good x := by
  have hlast := processed_last h
  intro s hsm
  obtain ⟨-, -, k3, k4, k5, k6⟩ := C93_surfaces_partial fuel io hio cosDeg sqrt quick rank lines d d' hr hd.proper h s hsm
  refine ⟨(k6 hd.sheets).2, ?_, k4.le, ?_, fun x hx => good_of hio (hs s hsm x hx)⟩
  · rcases k3 with e | e <;> rw [e] <;> decide
  · have hb : |s.id| < 10 ^ (57 + 1) := by
      rw [abs_of_pos k4]
      have := hd.size
      omega
    have := intStr_length hb
    omega

/-- A deck for PHITS, from the conditions on the input. -/
theorem phits_ready (hio : Exact io) (hr : readDeck io cosDeg lines = .ok d) (hd : Convertible io sqrt rank d) (hc : CardInput io d) (hx : ∀ m ∈ d.materials, PrintableXs m.2)
    (h : finishDeck fuel io cosDeg sqrt quick d = some (.ok d')) (hs : ShortOut io d') (hs' : ShortSurfaces io d') : PhitsDeck io d'.cells d'.surfaces d'.materials := by
  obtain ⟨hl, hprint⟩ := card_materials hio hr hd h
  obtain ⟨-, hlist⟩ := whole_list hio hr hd h
  have hcells := card_cells hio hr hd hc h hs
  refine ⟨fun s hsm => ?_, fun c hcm => ⟨offsOf io c, rotsOf io c, ?_⟩, fun c hcm h0 => ?_, fun c hcm => ⟨hio.text _, hio.reads _⟩, fun m hm => ⟨hprint m hm, ?_⟩⟩
  · obtain ⟨k1, k2, -, k4, k5⟩ := card_surfaces hio hr hd h hs' s hsm
    exact ⟨k1, k2, k4, k5⟩
  · obtain ⟨-, k2, k3, k4, k5, k6, k7⟩ := hcells c hcm
    exact ⟨k2, k3, numberWord_phits fun ch hch => .inl (k7 ch hch), fun u hu => numberWord_phits (plainNumber_word (k5 u hu)).2, fun f hf => numberWord_phits (plainNumber_word (k6 f hf)).2,
      fun w hw => numberWord_phits (k4 w hw)⟩
  · rcases whole_material hio hr hd h c hcm with e | ⟨k, hk, e, -⟩
    · exact e
    · rw [e] at h0
      have := natStr_injective (show natStr k = natStr 0 from h0)
      omega
  · obtain ⟨-, -, -, -, e0, he0, -, ht⟩ := hlist m hm
    exact ht.1 (fun x => ∀ c ∈ x, isDigit c = true ∨ c.isLower = true) (by simp) (hx e0 he0)

/-- A deck for MCNP, from the conditions on the input. -/
theorem mcnp_ready (hio : Exact io) (hr : readDeck io cosDeg lines = .ok d) (hd : Convertible io sqrt rank d) (hc : CardInput io d)
    (h : finishDeck fuel io cosDeg sqrt quick d = some (.ok d')) (hs : ShortOut io d') (hi : ∀ c ∈ d'.cells, PlainNumber (io.render c.importance)) :
    ∀ c ∈ d'.cells, ∃ offs rots, Writable io GeometryWord c ∧ WritableParams io c offs rots ∧ ReadableCell io c := by
  have hcells := card_cells hio hr hd hc h hs
  intro c hcm
  obtain ⟨-, k2, k3, k4, k5, k6, k7⟩ := hcells c hcm
  refine ⟨_, _, k2, k3, (whole_words hio hr hd h c hcm).2.2.1, ?_, fun _ => ⟨⟨hio.text _, hio.reads _⟩, hio.plus _⟩, k5, k6, fun l _ hl e he => ?_, hi c hcm⟩
  · rcases whole_material hio hr hd h c hcm with e | ⟨k, hk, e, -⟩
    · exact .inl e
    · exact .inr ⟨k, by exact_mod_cast hk, e⟩
  · refine k4 _ ?_
    rw [offsOf, hl, Option.getD_some]
    exact List.mem_map_of_mem he

end

end Csg
