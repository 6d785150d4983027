import Verif.Lemmas.Outside

/-!
# C102: importances and the outside world, from the text of the input file to the written file

What becomes of the importances of an MCNP file: for PHITS and MCNP each cell gets its own, for FLUKA biasing factors in proportion, and void cells with importance zero become black holes; for OpenMC the surfaces
that cells with importance zero name become vacuum boundaries. For Serpent and SCONE importances have no effect at all.
-/

set_option linter.unusedSectionVars false

namespace Csg

open Spec

section
variable {K : Type} [Field K] [LinearOrder K] [IsStrictOrderedRing K]

/-- **C102** for PHITS (partial). The importance section of the file has one row for each cell, in the order of the cells, with the number of the cell and its importance. Missing is what is missing in C100. -/
theorem C102_phits_partial (e : Env K) (hio : Exact e.io) (cosDeg : K → K) (quick : Bool) (rank : Int → Nat) (text : Str) (f : InputFile K) (hf : FileSays e.io text f)
    (hc : ConvertibleFile e.io cosDeg e.sqrt rank f) (hk : CardFile f)
    (hread : ∀ d fuel d', readDeck e.io cosDeg (readText text) = .ok d → finishDeck fuel e.io cosDeg e.sqrt quick d = some (.ok d') →
      ShortCells e.io d ∧ ShortSurfaces e.io d' ∧ ∀ m ∈ d.materials, PrintableXs m.2) :
    ∃ fuel₀, ∀ fuel ≥ fuel₀, ∃ out secs il rows, Converts { e with fuel := fuel } cosDeg quick text .phits (.text out) ∧ phitsSections (readlines out) = ([], secs) ∧
      secs.lookup c!"importance" = some il ∧ phitsRows il = [c!"reg", c!"imp"] :: rows ∧ rows.length = f.cells.length ∧
      ∀ (i : Nat) c, f.cells[i]? = some c → ∃ t, rows[i]? = some [intStr c.number, t] ∧ ∀ x, FileImportance e.io f i c x ↔ e.io.parse t = some x := by
  obtain ⟨d, hr, ha, hs, hl⟩ := read_file e.io cosDeg e.sqrt text f hf
  have hd := convertible_file hf hr ha hs hl hc
  obtain ⟨fu, d', hfin⟩ := convertible_finishes (quick := quick) hio hr hd
  obtain ⟨r1, r2, r3⟩ := hread d fu d' hr hfin
  have hw := phits_ready hio hr hd (card_file ha hc hk) r3 hfin (short_out hio hr hd hfin r1) r2
  obtain ⟨out, ⟨fuel₀, hout⟩, tl, pl, sl, cl, il, ml, hsec, -, -, -, ⟨rows, hil, hrows⟩, -⟩ := C89_file_partial e e.sqrt d'.cells d'.surfaces d'.materials hw
  refine ⟨max fuel₀ fu, fun fuel hfu => ⟨out, _, il, rows, ?_, hsec, by rfl, hil, ?_, fun i c hci => ?_⟩⟩
  · refine converts_of (d := d) (d' := d') (e := { e with fuel := fuel }) hr (finishDeck_mono (le_trans (le_max_right _ _) hfu) hfin) (s := ⟨d'.cells, d'.surfaces, d'.materials, []⟩) ?_
    rw [writeCode, returns_bind]
    exact ⟨_, hout fuel (le_trans (le_max_left _ _) hfu), by rw [returns_pure]⟩
  · rw [← hrows.length_eq, ← (processed_cells hio hd.proper (.inr hd.sheets) hfin).2.2.length_eq, ha.cells.length_eq]
  · obtain ⟨-, c', -, hc', -, hid, himp⟩ := file_importances hio hf ha hd.proper hd.sheets hfin hci
    obtain ⟨row, hrow, t, rfl, ht⟩ := forall₂_getElem? hrows hc'
    rw [hid] at hrow
    refine ⟨t, hrow, fun x => ?_⟩
    rw [himp x, ht, Option.some.injEq]

/-- **C102** for MCNP (partial). Reading the written file again gives cells with the same importances. Missing is what is missing in C100. -/
theorem C102_mcnp_partial (e : Env K) (hio : Exact e.io) (cosDeg : K → K) (quick : Bool) (rank : Int → Nat) (text : Str) (f : InputFile K) (hmn : ∀ mn ∈ printedMnemonics, e.io.parse mn = none)
    (hf : FileSays e.io text f) (hc : ConvertibleFile e.io cosDeg e.sqrt rank f) (hk : CardFile f)
    (hi : ∀ (i : Nat) c x, f.cells[i]? = some c → FileImportance e.io f i c x → PlainNumber (e.io.render x))
    (hread : ∀ d fuel d', readDeck e.io cosDeg (readText text) = .ok d → finishDeck fuel e.io cosDeg e.sqrt quick d = some (.ok d') → ShortCells e.io d ∧ ShortSurfaces e.io d') :
    ∃ fuel₀, ∀ fuel ≥ fuel₀, ∃ out d2, Converts { e with fuel := fuel } cosDeg quick text .mcnp (.text out) ∧ readDeck e.io cosDeg (readText out) = .ok d2 ∧ d2.importances = [] ∧ d2.cells.length = f.cells.length ∧
      ∀ (i : Nat) c, f.cells[i]? = some c → ∃ c2, d2.cells[i]? = some c2 ∧ c2.id = c.number ∧ ∀ x, FileImportance e.io f i c x ↔ c2.importance = x := by
  obtain ⟨d, hr, ha, hs, hl⟩ := read_file e.io cosDeg e.sqrt text f hf
  have hd := convertible_file hf hr ha hs hl hc
  obtain ⟨fu, d', hfin⟩ := convertible_finishes (quick := quick) hio hr hd
  obtain ⟨r1, r2⟩ := hread d fu d' hr hfin
  have hw := mcnp_ready hio hr hd (card_file ha hc hk) hfin (short_out hio hr hd hfin r1) (importance_out hio hd.proper hd.sheets hfin fun i c x hcx hx => by
    obtain ⟨y, hy, k⟩ := forall₂_getElem? ha.cells.flip hcx
    exact hi i y x hy (file_importance ha hf.importances k hx))
  have hw' := card_surfaces hio hr hd hfin r2
  obtain ⟨hlist, hm⟩ := card_materials hio hr hd hfin
  have hn : (d'.materials.map fun m => m.2.number).Nodup := by
    rw [show d'.materials.map (fun m => m.2.number) = d'.materials.map Prod.fst from List.map_congr_left fun m hm => hlist.2 m hm]
    exact hlist.1
  obtain ⟨out, ⟨fuel₀, hout⟩, d2, hread2, hc2, -, -, himps, -⟩ := C83_file_partial e cosDeg d'.cells d'.surfaces d'.materials hw hw' hmn hm hn
  refine ⟨max fuel₀ fu, fun fuel hfu => ⟨out, d2, ?_, hread2, himps, ?_, fun i c hci => ?_⟩⟩
  · refine converts_of (d := d) (d' := d') (e := { e with fuel := fuel }) hr (finishDeck_mono (le_trans (le_max_right _ _) hfu) hfin) (s := ⟨d'.cells, d'.surfaces, d'.materials, []⟩) ?_
    rw [writeCode, returns_bind]
    exact ⟨_, hout fuel (le_trans (le_max_left _ _) hfu), by rw [returns_pure]⟩
  · rw [← hc2.length_eq, ← (processed_cells hio hd.proper (.inr hd.sheets) hfin).2.2.length_eq, ha.cells.length_eq]
  · obtain ⟨-, c', -, hc', -, hid, himp⟩ := file_importances hio hf ha hd.proper hd.sheets hfin hci
    obtain ⟨c2, hcc, k⟩ := forall₂_getElem? hc2 hc'
    refine ⟨c2, hcc, by rw [k.id, hid], fun x => ?_⟩
    rw [himp x, k.importance]

/-- **C102** for FLUKA (partial). There is one BIASING card for each cell, and the values on them are in proportion to the importances (`ProportionalTo`); the cards that assign materials make black holes of the void cells with importance zero, and
vacuum of the others. Missing is what is missing in C100; a cell with importance zero and a material is not made a black hole, see `C102_refuted_fluka`. -/
theorem C102_fluka_partial (e : Env K) (hio : Exact e.io) (hzero : (e.io.render 0).length ≤ 10)
    (h3 : ∀ x, x = 0 ∨ 1 / 10 ^ 99 ≤ x → x ≤ 10 ^ 9 → (e.sci3 x).length = 10 ∧ '\n' ∉ e.sci3 x)
    (h4 : ∀ x, 1 / 10 ^ 99 ≤ x → x ≤ 100000 → (e.sci4 x).length ≤ 10 ∧ ' ' ∉ e.sci4 x ∧ '\n' ∉ e.sci4 x) (ho : ∀ l, (e.orderStr l).Perm l)
    (cosDeg : K → K) (quick : Bool) (rank : Int → Nat) (text : Str) (f : InputFile K) (hf : FileSays e.io text f) (hc : ConvertibleFile e.io cosDeg e.sqrt rank f) (hk : FlukaFile e.io cosDeg e.sqrt f) :
    ∃ fuel₀, ∀ fuel ≥ fuel₀, ∃ out input bias assign, ∃ value : Nat → K, Converts { e with fuel := fuel } cosDeg quick text .fluka (.text out) ∧ flukaRead out = some input ∧
      input.cards.filter (fun l => decide (field l 0 = c!"BIASING")) = bias ∧ input.cards.filter (fun l => decide (field l 0 = c!"ASSIGNMA")) = assign ∧ bias.length = f.cells.length ∧ assign.length = f.cells.length ∧
      ProportionalTo e.io f value ∧
      ∀ (i : Nat) c, f.cells[i]? = some c → (∃ l, bias[i]? = some l ∧ field l 4 = c!"C" ++ intStr c.number ∧ field l 3 = e.sci4 (value i)) ∧
        ∃ l, assign[i]? = some l ∧ field l 2 = c!"C" ++ intStr c.number ∧ (c.content = none → (FileImportance e.io f i c 0 → field l 1 = c!"BLCKHOLE") ∧ (¬ FileImportance e.io f i c 0 → field l 1 = c!"VACUUM")) := by
  obtain ⟨d, hr, ha, hs, hl⟩ := read_file e.io cosDeg e.sqrt text f hf
  have hd := convertible_file hf hr ha hs hl hc
  obtain ⟨f0, d', hfin⟩ := convertible_finishes (quick := quick) hio hr hd
  obtain ⟨fu, hf0, hlen⟩ : ∃ fu, f0 ≤ fu ∧ ∀ m ∈ d'.materials, m.2.composition.length ≤ fu := by
    refine ⟨f0 + (d'.materials.map fun m => m.2.composition.length).sum, by omega, fun m hm => ?_⟩
    have := List.single_le_sum (l := d'.materials.map fun m => m.2.composition.length) (by simp) _ (List.mem_map_of_mem hm)
    omega
  have hfin := finishDeck_mono hf0 hfin
  have hw := fluka_ready (e := { e with fuel := fu }) hio hr hd (fluka_file hf ⟨_, hr⟩ ha hs hc hzero hk) h3 h4 hzero ho hfin hlen
  obtain ⟨-, hmats⟩ := processed_materials hio hr hd.proper hd.defined hd.atoms hfin
  refine ⟨fu, fun fuel hfu => ?_⟩
  obtain ⟨out, ms', hret, input, hin, -, -, value, bias, assign, elems, blocks, hcards, hval, hbias, hass, hel, hblocks⟩ := C90_file_partial { e with fuel := fuel } d'.cells d'.surfaces d'.materials _
    ⟨hw.numbers, hw.importances, hw.fractions, hw.order, hw.surfaces, hw.cells, hw.nuclides, hw.materials, fun m hm => le_trans (hw.fuel m hm) hfu⟩
  have hb0 : ∀ l ∈ bias, field l 0 = c!"BIASING" := fun l hl => by
    obtain ⟨c, -, k⟩ := forall₂_right hbias l hl
    exact k.1
  have ha0 : ∀ l ∈ assign, field l 0 = c!"ASSIGNMA" := fun l hl => by
    obtain ⟨c, -, k⟩ := forall₂_right hass l hl
    exact k.1
  have hm0 : ∀ l ∈ blocks.flatten, field l 0 = c!"MATERIAL" ∨ field l 0 = c!"COMPOUND" := fun l hl => by
    obtain ⟨b, hb, hlb⟩ := List.mem_flatten.1 hl
    obtain ⟨_, -, first, compound, rfl, k1, -, -, -, -, -, -, -, k2, -⟩ := forall₂_right hblocks b hb
    rcases List.mem_cons.1 hlb with rfl | hlc
    · exact .inl k1
    · exact .inr (k2 l hlc).1
  have filt : ∀ (w : Str), w ≠ c!"MATERIAL" → w ≠ c!"COMPOUND" → (input.cards.filter fun l => decide (field l 0 = w)) = (bias.filter fun l => decide (field l 0 = w)) ++ assign.filter fun l => decide (field l 0 = w) := by
    intro w h1 h2
    rw [hcards, List.filter_append, List.filter_append, List.filter_append, (List.filter_eq_nil_iff (l := elems)).2, (List.filter_eq_nil_iff (l := blocks.flatten)).2]
    · simp
    · intro l hl
      rcases hm0 l hl with k | k <;> rw [k] <;> simp [h1.symm, h2.symm]
    · intro l hl
      rw [(hel.2.2 l hl).1]
      simp [h1.symm]
  have hlenc : d'.cells.length = f.cells.length := by rw [← (processed_cells hio hd.proper (.inr hd.sheets) hfin).2.2.length_eq, ha.cells.length_eq]
  have himp := fun {i : Nat} {c : CellEntry K} => file_importances hio hf ha hd.proper hd.sheets hfin (i := i) (e := c)
  refine ⟨out, input, bias, assign, fun i => (d'.cells[i]?.map value).getD 0, ?_, hin, ?_, ?_, ?_, ?_, ⟨?_, ?_, ?_⟩, fun i c hci => ?_⟩
  · refine converts_of (d := d) (d' := d') (e := { e with fuel := fuel }) hr (finishDeck_mono hfu hfin) (s := ⟨d'.cells, d'.surfaces, ms', []⟩) ?_
    rw [writeCode, returns_bind]
    exact ⟨_, hret, by rw [returns_pure]⟩
  · rw [filt _ (by decide) (by decide), (List.filter_eq_self (l := bias)).2, (List.filter_eq_nil_iff (l := assign)).2, List.append_nil]
    · intro l hl
      rw [ha0 l hl]
      decide
    · intro l hl
      rw [hb0 l hl]
      decide
  · rw [filt _ (by decide) (by decide), (List.filter_eq_nil_iff (l := bias)).2, (List.filter_eq_self (l := assign)).2, List.nil_append]
    · intro l hl
      rw [ha0 l hl]
      decide
    · intro l hl
      rw [hb0 l hl]
      decide
  · rw [← hbias.length_eq, hlenc]
  · rw [← hass.length_eq, hlenc]
  · intro i c x hci hx hpos
    obtain ⟨-, c', -, hc', -, -, hi⟩ := himp hci
    rw [hc']
    exact hval.1 c' (List.mem_of_getElem? hc') (by rw [(hi x).1 hx]; exact hpos)
  · intro i j c c2 x y hci hcj hx hy hx0 hy0 hlt hlt'
    obtain ⟨-, c', -, hc', -, -, hi⟩ := himp hci
    obtain ⟨-, c2', -, hc2', -, -, hi2⟩ := himp hcj
    rw [hc'] at hlt ⊢
    rw [hc2'] at hlt' ⊢
    have := hval.2.1 c' (List.mem_of_getElem? hc') c2' (List.mem_of_getElem? hc2') (by rw [(hi x).1 hx]; exact hx0) (by rw [(hi2 y).1 hy]; exact hy0) hlt hlt'
    rw [(hi x).1 hx, (hi2 y).1 hy] at this
    exact this
  · intro i j c c2 x y hci hcj hx hy hx0 hle
    obtain ⟨-, c', -, hc', -, -, hi⟩ := himp hci
    obtain ⟨-, c2', -, hc2', -, -, hi2⟩ := himp hcj
    rw [hc', hc2']
    exact hval.2.2 c' (List.mem_of_getElem? hc') c2' (List.mem_of_getElem? hc2') (by rw [(hi x).1 hx]; exact hx0) (by rw [(hi x).1 hx, (hi2 y).1 hy]; exact hle)
  · obtain ⟨c0, c', hc0, hc', k, hid, hi⟩ := himp hci
    constructor
    · obtain ⟨l, hl, b1, b2, b3, b4, b5, -⟩ := forall₂_getElem? hbias hc'
      refine ⟨l, hl, by rw [b5, hid], ?_⟩
      rw [b4]
      simp only [hc', Option.map_some, Option.getD_some]
    · obtain ⟨l, hl, a1, a2, a3, a4, a5, a6⟩ := forall₂_getElem? hass hc'
      refine ⟨l, hl, by rw [a2, hid], fun hnone => ?_⟩
      have hcon := k.content
      rw [hnone] at hcon
      obtain ⟨c2, hc2, hv, -⟩ := forall₂_getElem? hmats hc0
      rw [hc'] at hc2
      cases hc2
      have hv := hv hcon.1
      exact ⟨fun h0 => a5 hv ((hi 0).1 h0), fun h0 => a6 hv fun h => h0 ((hi 0).2 h)⟩

/-- **C102** for OpenMC (partial). Take a surface of the file that is not a macrobody. In the OpenMC file it is a vacuum boundary if a cell with importance zero names it, other than directly after an opening parenthesis; it is no boundary if no such cell names it. All surfaces are vacuum boundaries or no boundaries. In a quick run
all these surfaces are in the file. Missing: surfaces named directly after an opening parenthesis (see C19); facets of macrobodies; in other runs a surface may be removed in favour of a coincident one that is not named
(`C102_refuted_duplicate`); what cells with importance zero name by way of other cells (`C102_refuted_complement`). -/
theorem C102_openmc_partial (e : Env K) (hio : Exact e.io) (cosDeg : K → K) (quick : Bool) (rank : Int → Nat) (text : Str) (f : InputFile K) (hf : FileSays e.io text f)
    (hc : ConvertibleFile e.io cosDeg e.sqrt rank f) (ho : OpenmcFile f) :
    ∃ fuel₀, ∀ fuel ≥ fuel₀, ∃ g m xs es, Converts { e with fuel := fuel } cosDeg quick text .openmc (.xml g m) ∧ openmcGeometry g = some (xs, es) ∧
      (∀ x ∈ xs, openmcBoundaryMeaning.lookup x.boundary = some .vacuum ∨ openmcBoundaryMeaning.lookup x.boundary = some .transmission) ∧
      ∀ s ∈ f.surfaces, bodyType s.mn = none → (quick = true → ∃ x ∈ xs, x.id = intStr s.number) ∧
        ∀ x ∈ xs, x.id = intStr s.number → (NamedApart e.io f s.number → openmcBoundaryMeaning.lookup x.boundary = some .vacuum) ∧
          (¬ NamedOutside e.io f s.number → openmcBoundaryMeaning.lookup x.boundary = some .transmission) := by
  obtain ⟨d, hr, ha, hs, hl⟩ := read_file e.io cosDeg e.sqrt text f hf
  have hd := convertible_file hf hr ha hs hl hc
  obtain ⟨fu, d', hfin⟩ := convertible_finishes (quick := quick) hio hr hd
  have hw := openmc_ready hio hr hd (openmc_file hio ⟨_, hr⟩ ha hc ho) hfin
  have hbc := C85_boundaries_partial fu e.io hio cosDeg e.sqrt quick rank d d' hd.proper (fun s hs => ((C85_read e.io cosDeg _ d hr).2.2.2 s hs).1) hfin
  refine ⟨max d'.cells.length fu, fun fuel hfu => ?_⟩
  obtain ⟨g, m, xs, es, ys, kept, hret, hg, -, hxs, -⟩ := C91_files_partial { e with fuel := fuel } nucsOf d'.cells d'.surfaces d'.materials hw (le_trans (le_max_left _ _) hfu)
  refine ⟨g, m, xs, es, ?_, hg, fun x hx => ?_, fun s hsm hb => ?_⟩
  · refine converts_of (d := d) (d' := d') (e := { e with fuel := fuel }) hr (finishDeck_mono (le_trans (le_max_right _ _) hfu) hfin) (s := ⟨d'.cells, d'.surfaces, d'.materials, []⟩) ?_
    rw [writeCode, returns_bind]
    exact ⟨_, hret, by rw [returns_pure]⟩
  · obtain ⟨s, hs, k⟩ := forall₂_right hxs x hx
    rw [k.2.1]
    by_cases h0 : ∃ c ∈ d'.cells, c.importance = 0 ∧ s.id ∈ c.surfaces
    · exact .inl (by rw [(hbc s hs).1 h0])
    · exact .inr (by rw [(hbc s hs).2 h0])
  · obtain ⟨s0, hs0, k1, k2⟩ := forall₂_exists_left (forall₂_both ha.surfaces hs) hsm
    refine ⟨fun hqk => ?_, fun x hx hid => ?_⟩
    · subst hqk
      obtain ⟨s', hs', e1⟩ := processed_plain hio hd.proper hfin hs0 (k2.plain hb).1
      obtain ⟨x, hx, k⟩ := forall₂_exists_left hxs hs'
      exact ⟨x, hx, by rw [k.1, e1, k1.number]⟩
    · obtain ⟨s', hs', k⟩ := forall₂_right hxs x hx
      have e1 : s'.id = s.number := intStr_injective (by rw [← k.1, hid])
      obtain ⟨o1, o2⟩ := listed_outside hio hf hr ha hd hfin s.number
      rw [k.2.1]
      refine ⟨fun h0 => ?_, fun h0 => ?_⟩
      · rw [(hbc s' hs').1 (by rw [e1]; exact o1 h0)]
      · rw [(hbc s' hs').2 (by rw [e1]; exact fun h => h0 (o2 ⟨s0, hs0, k1.number⟩ h))]

end

end Csg
