import Verif.Lemmas.Substance
import Verif.Props.Converted
import Verif.Spec.ConvertedMaterials

/-!
# C95: the materials of the cells, from the text of an MCNP file to the written files
-/

set_option linter.unusedSectionVars false

namespace Csg

open Spec

section
variable {K : Type} [Field K] [LinearOrder K] [IsStrictOrderedRing K]

private theorem getMaterialCards_listed {io : NumIO K} : ∀ {ls : List Str} {mats mats' : List (Str × Material K)}, getMaterialCards io mats ls = .ok mats' → Listed mats → Listed mats' := by
  intro ls
  induction ls with
  | nil => intro mats mats' h hl; cases h; exact hl
  | cons l ls ih =>
    intro mats mats' h hl
    unfold getMaterialCards at h
    split at h
    · obtain ⟨⟨n, m⟩, h1, h⟩ := bind_ok h
      refine ih h (hl.set ?_)
      unfold getMaterialCard at h1
      obtain ⟨t0, -, h1⟩ := bind_ok h1
      obtain ⟨m', h2, h1⟩ := bind_ok h1
      cases h1
      unfold readMaterial at h2
      simp only at h2
      split at h2
      · cases h2
      · obtain ⟨x, -, h2⟩ := bind_ok h2
        cases h2
        rfl
    · exact ih h hl

theorem readDeck_listed {io : NumIO K} {cosDeg : K → K} {lines : List Str} {d : Deck K} (h : readDeck io cosDeg lines = .ok d) : Listed d.materials := by
  unfold readDeck at h
  obtain ⟨⟨title, l1⟩, -, h⟩ := bind_ok h
  obtain ⟨l2, -, h⟩ := bind_ok h
  obtain ⟨⟨cells, l3⟩, hc, h⟩ := bind_ok h
  obtain ⟨⟨surfs, l4⟩, hs, h⟩ := bind_ok h
  obtain ⟨imps, -, h⟩ := bind_ok h
  obtain ⟨trs, -, h⟩ := bind_ok h
  obtain ⟨mats, hm, h⟩ := bind_ok h
  cases h
  exact getMaterialCards_listed hm ⟨by simp, by simp⟩

/-- What processing does with the materials of the cells. -/
theorem processed_materials {fuel : Nat} {io : NumIO K} (hio : Exact io) {cosDeg sqrt : K → K} {quick : Bool} {rank : Int → Nat} {lines : List Str} {d d' : Deck K}
    (hr : readDeck io cosDeg lines = .ok d) (hd : ProperDeck sqrt rank d) (hdef : Defined d.materials d.cells) (hat : ∀ m ∈ d.materials, AtomFractions m.2.composition)
    (h : finishDeck fuel io cosDeg sqrt quick d = some (.ok d')) :
    Listed d'.materials ∧ List.Forall₂ (fun c c' => (c.material = .int 0 → c'.material = .int 0) ∧
      ∀ z, z ≠ 0 → c.material = .int z → c'.material.text ≠ c!"0" ∧ ∃ m m', d.materials.lookup (intStr z) = some m ∧ SameSubstance m.composition m'.composition ∧
        (c'.material.text, m') ∈ d'.materials ∧ m'.number = c'.material.text ∧ m'.density = c.density) d.cells d'.cells := by
  have hl := readDeck_listed hr
  obtain ⟨cells1, cells2, cells3, cells4, cells5, surfs1, surfs2, surfs3, surfs4, r⟩ := finishDeck_run h
  have hl' := reorganise_listed r.mats hl
  refine ⟨hl', forall₂_imp ?_ (C85_materials_partial fuel io hio cosDeg sqrt quick rank d d' hd hl.1 hdef (fun m hm => (prepared_substance (hat m hm)).1) h)⟩
  rintro c c' ⟨h1, h2⟩
  refine ⟨h1, fun z hz hc => ?_⟩
  obtain ⟨h0, m, m', k1, k2, k3, k4, -⟩ := h2 z hc hz
  have hm' := (lookup_iff_mem hl'.1).1 k2
  exact ⟨h0, m, m', k1, (prepared_substance (hat _ ((lookup_iff_mem hl.1).1 k1))).2 _ k4, hm', hl'.2 _ hm', k3⟩

private theorem text_zero : (MatNum.int 0).text = c!"0" := by decide

/-- Of the entries for a list of materials one has the number of a material on the list. -/
private theorem filter_number {β : Type} {R : Material K → β → Prop} {p : β → Bool} {x : Str} {mats : List (Str × Material K)} {cards : List β} (h : List.Forall₂ (fun m b => R m.2 b) mats cards)
    (hl : Listed mats) (hp : ∀ m b, R m b → (p b = true ↔ m.number = x)) {m : Material K} (hm : (x, m) ∈ mats) : ∃ b, cards.filter p = [b] ∧ R m b := by
  obtain ⟨h1, h2⟩ := hl
  induction h with
  | nil => cases hm
  | @cons e b mats cards hr hrest ih =>
    rw [List.map_cons, List.nodup_cons] at h1
    rcases List.mem_cons.1 hm with rfl | hm
    · refine ⟨b, ?_, hr⟩
      rw [List.filter_cons_of_pos ((hp _ _ hr).2 (h2 _ (by simp))), List.cons.injEq, List.filter_eq_nil_iff]
      refine ⟨rfl, fun b' hb' hpb => ?_⟩
      obtain ⟨e', he', k⟩ := forall₂_right hrest b' hb'
      have := (hp _ _ k).1 hpb
      rw [h2 e' (by simp [he'])] at this
      exact h1.1 (by simpa [this] using List.mem_map_of_mem (f := Prod.fst) he')
    · rw [List.filter_cons_of_neg]
      · exact ih hm h1.2 (fun e he => h2 e (by simp [he]))
      · intro hpb
        have := (hp _ _ hr).1 hpb
        rw [h2 e (by simp)] at this
        exact h1.1 (by simpa [this] using List.mem_map_of_mem (f := Prod.fst) hm)

/-- **C95** for Serpent. The deck read from the input, as in C92, has cards for all materials in use, and these give fractions of atoms. Then the written file gives every cell that is not filled with a universe
the substance of its material card and the density of its cell card, and voids stay void. Missing: fractions of mass (negative), see C45; the decks excluded by C92; fractions are rounded as printed. -/
theorem C95_serpent_partial (e : Env K) (hio : Exact e.io) (cosDeg : K → K) (quick : Bool) (read : Str → Option K) (approx : K → K) (offs rots : Cell K → List Str) (rank : Int → Nat) (text : Str) (d d' : Deck K)
    (hr : readDeck e.io cosDeg (readText text) = .ok d) (hd : ProperDeck e.sqrt rank d) (hq : quick = true ∨ ∀ s ∈ d.surfaces, TwoSheet s)
    (hdef : Defined d.materials d.cells) (hat : ∀ m ∈ d.materials, AtomFractions m.2.composition)
    (h : finishDeck e.fuel e.io cosDeg e.sqrt quick d = some (.ok d')) (hw : SerpentDeck read e.io e.fixed e.sci approx offs rots d'.cells d'.surfaces d'.materials) :
    ∃ fuel₀, ∀ fuel ≥ fuel₀, ∃ out cards, Converts { e with fuel := fuel } cosDeg quick text .serpent (.text out) ∧ serpentCards out = ([], cards) ∧
      List.Forall₂ (fun c x => MadeOf d c (x = some (intStr c.id, c!"void"))
        fun density comp => ∃ name, name ≠ c!"void" ∧ name ≠ c!"outside" ∧ x = some (intStr c.id, name) ∧ SerpentHas e.io approx cards name density comp) d.cells (serpentFillings cards) := by
  obtain ⟨out, ⟨fuel₀, hout⟩, scs, ccs, mcs, hcards, hs, hc, hm⟩ := C86_file_partial e read approx offs rots d'.cells d'.surfaces d'.materials hw
  obtain ⟨hid, hpos, hcells⟩ := processed_cells hio hd hq h
  obtain ⟨hl, hmats⟩ := processed_materials hio hr hd hdef hat h
  refine ⟨max fuel₀ e.fuel, fun fuel hf => ⟨out, scs ++ ccs.flatten ++ mcs, ?_, hcards, ?_⟩⟩
  · refine converts_of (d := d) (d' := d') (e := { e with fuel := fuel }) hr (finishDeck_mono (le_trans (le_max_right _ _) hf) h) (s := ⟨d'.cells, d'.surfaces, d'.materials, []⟩) ?_
    rw [writeCode, returns_bind]
    exact ⟨out, hout fuel (le_trans (le_max_left _ _) hf), by rw [returns_pure]⟩
  · have hheads : (∀ c ∈ scs, c.head? = some c!"surf") ∧ (∀ c ∈ mcs, c.head? = some c!"mat") ∧ ∀ c ∈ ccs.flatten, c.head? ≠ some c!"mat" := by
      refine ⟨?_, ?_, ?_⟩
      · intro c hc
        obtain ⟨s, -, kw, ws, ns, rfl, -⟩ := forall₂_right hs c hc
        rfl
      · intro c hc
        obtain ⟨s, -, d, fs, rfl, -⟩ := forall₂_right hm c hc
        rfl
      · intro c hcm
        obtain ⟨cs, hcs, hcm⟩ := List.mem_flatten.1 hcm
        obtain ⟨cell, -, g, trans, rfl, -, ht⟩ := forall₂_right hc cs hcs
        rcases List.mem_cons.1 hcm with rfl | hcm
        · simp
        · rw [ht] at hcm
          split at hcm
          · cases hcm
          · rw [List.mem_singleton] at hcm
            subst hcm
            simp
    have hfill : serpentFillings (scs ++ ccs.flatten ++ mcs) = (ccs.flatten.filter fun c => decide (c.head? = some c!"cell")).map serpentFilling := by
      have f1 : scs.filter (fun c => decide (c.head? = some c!"cell")) = [] := List.filter_eq_nil_iff.2 fun c hc => by simp [hheads.1 c hc]
      have f2 : mcs.filter (fun c => decide (c.head? = some c!"cell")) = [] := List.filter_eq_nil_iff.2 fun c hc => by simp [hheads.2.1 c hc]
      unfold serpentFillings
      rw [List.filter_append, List.filter_append, f1, f2]
      simp
    have hmat : ∀ name, (scs ++ ccs.flatten ++ mcs).filter (fun c => decide (c.take 2 = [c!"mat", name])) = mcs.filter fun c => decide (c.take 2 = [c!"mat", name]) := by
      intro name
      have two : ∀ c : List Str, c.take 2 = [c!"mat", name] → c.head? = some c!"mat" := by
        intro c hc
        match c with
        | [] => simp at hc
        | [a] => simp at hc
        | a :: b :: c => simp only [List.take_succ_cons, List.take_zero, List.cons.injEq] at hc; simp [hc.1]
      have f1 : scs.filter (fun c => decide (c.take 2 = [c!"mat", name])) = [] := List.filter_eq_nil_iff.2 fun c hc hh => by
        have := two c (by simpa using hh)
        rw [hheads.1 c hc] at this
        exact absurd this (by decide)
      have f2 : ccs.flatten.filter (fun c => decide (c.take 2 = [c!"mat", name])) = [] := List.filter_eq_nil_iff.2 fun c hc hh => hheads.2.2 c hc (two c (by simpa using hh))
      rw [List.filter_append, List.filter_append, f1, f2]
      simp
    have hflat : List.Forall₂ (fun c x => c.fill = none → x = some (intStr c.id, if c.material = .int 0 then c!"void" else c.material.text) ∧
          c.material.text ≠ c!"void" ∧ c.material.text ≠ c!"outside")
        d'.cells ((ccs.flatten.filter fun c => decide (c.head? = some c!"cell")).map serpentFilling) := by
      have hcon := hw.contents
      clear hcells hfill hheads hcards hmat hmats
      generalize d'.cells = cells at hc hcon
      induction hc with
      | nil => exact .nil
      | cons k _ ih =>
        rename_i c cs cells ccs _
        obtain ⟨g, trans, rfl, -, ht⟩ := k
        have hnone : trans.filter (fun c => decide (c.head? = some c!"cell")) = [] := by
          rw [List.filter_eq_nil_iff]
          intro x hx
          rw [ht] at hx
          split at hx
          · cases hx
          · rw [List.mem_singleton] at hx
            subst hx
            simp
        rw [List.flatten_cons, List.filter_append, List.filter_cons_of_pos (by simp), hnone]
        simp only [List.cons_append, List.nil_append, List.map_cons]
        refine .cons (fun hfl => ?_) (ih fun c hc => hcon c (List.mem_cons_of_mem _ hc))
        have hn := hcon c (List.mem_cons_self ..)
        simp only [List.mem_cons, List.not_mem_nil, or_false, not_or] at hn
        refine ⟨?_, hn.2⟩
        unfold serpentContent
        rw [hfl]
        by_cases h0 : c.material = .int 0
        · simp [serpentFilling, h0]
        · simp [serpentFilling, h0, hn.1]
    rw [hfill]
    refine forall₂_trans ?_ (forall₂_both hcells hmats) hflat
    rintro c c' x ⟨⟨⟨e1, -, e3, -⟩, -⟩, hv, hmz⟩ hx hfl
    obtain ⟨hx, hn⟩ := hx (e3.trans hfl)
    rw [e1] at hx
    refine ⟨fun h0 => by rw [hx, if_pos (hv h0)], fun z hz hcz => ?_⟩
    obtain ⟨h0, m, m', k1, k2, k3, k4, k5⟩ := hmz z hz hcz
    refine ⟨m, m'.composition, k1, k2, c'.material.text, hn.1, hn.2, ?_, ?_⟩
    · rw [hx, if_neg fun hh => h0 (by rw [hh]; exact text_zero)]
    · obtain ⟨b, hb, dw, fs, rfl, hdw, hfs⟩ := filter_number (p := fun c : List Str => decide (c.take 2 = [c!"mat", c'.material.text])) hm hl (by
        rintro m b ⟨dw, fs, rfl, -⟩
        simp) k3
      exact ⟨dw, fs, by rw [hmat, hb, k4], by rw [hdw, k5], hfs⟩

/-- **C95** for OpenMC. The deck read from the input, as in C92, has cards for all materials in use, and these give fractions of atoms. Then the written file gives every cell that is not filled with a universe
the substance of its material card and the density of its cell card, and voids stay void. Missing: fractions of mass (negative), see C45; the decks excluded by C92; cells outside the world are not in the file. -/
theorem C95_openmc_partial (e : Env K) (hio : Exact e.io) (cosDeg : K → K) (quick : Bool) (nucs : Material K → List (Nuc K)) (rank : Int → Nat) (text : Str) (d d' : Deck K)
    (hr : readDeck e.io cosDeg (readText text) = .ok d) (hd : ProperDeck e.sqrt rank d) (hq : quick = true ∨ ∀ s ∈ d.surfaces, TwoSheet s)
    (hdef : Defined d.materials d.cells) (hat : ∀ m ∈ d.materials, AtomFractions m.2.composition)
    (h : finishDeck e.fuel e.io cosDeg e.sqrt quick d = some (.ok d')) (hw : OpenmcDeck e.io nucs d'.cells d'.surfaces d'.materials) :
    ∃ fuel₀, ∀ fuel ≥ fuel₀, ∃ g m xs es ys, Converts { e with fuel := fuel } cosDeg quick text .openmc (.xml g m) ∧ openmcGeometry g = some (xs, es) ∧ openmcMaterials m = some ys ∧
      ∀ x ∈ es, ∃ c ∈ d.cells, x.id = intStr c.id ∧ MadeOf d c (x.material = some c!"void") fun density comp => x.material ≠ some c!"void" ∧ OpenmcHas e.io ys x density comp := by
  obtain ⟨hid, hpos, hcells⟩ := processed_cells hio hd hq h
  obtain ⟨hl, hmats⟩ := processed_materials hio hr hd hdef hat h
  refine ⟨max d'.cells.length e.fuel, fun fuel hf => ?_⟩
  obtain ⟨g, m, xs, es, ys, kept, hret, hg, hys, -, hm, hsub, -, hes⟩ := C91_files_partial { e with fuel := fuel } nucs d'.cells d'.surfaces d'.materials hw (le_trans (le_max_left _ _) hf)
  refine ⟨g, m, xs, es, ys, ?_, hg, hys, ?_⟩
  · refine converts_of (d := d) (d' := d') (e := { e with fuel := fuel }) hr (finishDeck_mono (le_trans (le_max_right _ _) hf) h) (s := ⟨d'.cells, d'.surfaces, d'.materials, []⟩) ?_
    rw [writeCode, returns_bind]
    exact ⟨_, hret, by rw [returns_pure]⟩
  · intro x hx
    obtain ⟨c', hc', k'⟩ := forall₂_right hes x hx
    obtain ⟨c, hc, ⟨⟨e1, -, e3, -⟩, -⟩, hv, hmz⟩ := forall₂_right (forall₂_both hcells hmats) c' (hsub.subset hc')
    refine ⟨c, hc, by rw [k'.1, e1], fun hfl => ?_⟩
    obtain ⟨-, -, -, -, k⟩ := k'
    rw [e3.trans hfl] at k
    refine ⟨fun h0 => ?_, fun z hz hcz => ?_⟩
    · rw [k.2, hv h0, if_pos text_zero]
    · obtain ⟨h0, m, m', k1, k2, k3, k4, k5⟩ := hmz z hz hcz
      obtain ⟨y, hy, y1, -, y3, l, y4, y5⟩ := forall₂_left_mem hm k3
      rw [if_neg h0] at k
      refine ⟨m, m'.composition, k1, k2, ?_, y, hy, by rw [k.2, y1, k4], k5 ▸ y3, l, y4, y5⟩
      obtain ⟨n, hn⟩ := (hw.cells c' (hsub.subset hc')).2.2
      intro hh
      rw [k.2] at hh
      rw [Option.some.inj hh, show parseInt c!"void" = none by decide] at hn
      cases hn

/-- **C95** for PHITS. The deck read from the input, as in C92, has cards for all materials in use, and these give fractions of atoms. Then the written file gives every cell that is not filled with a universe
the substance of its material card and the density of its cell card, and voids stay void. Missing: fractions of mass (negative), see C45; the decks excluded by C92; the libraries of the nuclides. -/
theorem C95_phits_partial (e : Env K) (hio : Exact e.io) (cosDeg : K → K) (quick : Bool) (rank : Int → Nat) (text : Str) (d d' : Deck K)
    (hr : readDeck e.io cosDeg (readText text) = .ok d) (hd : ProperDeck e.sqrt rank d) (hq : quick = true ∨ ∀ s ∈ d.surfaces, TwoSheet s)
    (hdef : Defined d.materials d.cells) (hat : ∀ m ∈ d.materials, AtomFractions m.2.composition)
    (h : finishDeck e.fuel e.io cosDeg e.sqrt quick d = some (.ok d')) (hw : PhitsDeck e.io d'.cells d'.surfaces d'.materials) :
    ∃ fuel₀, ∀ fuel ≥ fuel₀, ∃ out secs cl ml ccards mcards, Converts { e with fuel := fuel } cosDeg quick text .phits (.text out) ∧ phitsSections (readlines out) = ([], secs) ∧
      secs.lookup c!"cell" = some cl ∧ secs.lookup c!"material" = some ml ∧ phitsCards cl = ([], ccards) ∧ phitsCards ml = ([], mcards) ∧
      List.Forall₂ (fun c card => MadeOf d c (phitsFilling card = some (intStr c.id, c!"0", none))
        fun density comp => ∃ name dw, name ≠ c!"0" ∧ phitsFilling card = some (intStr c.id, name, some dw) ∧ e.io.parse dw = some density ∧ PhitsHas e.io mcards name comp) d.cells ccards := by
  obtain ⟨hid, hpos, hcells⟩ := processed_cells hio hd hq h
  obtain ⟨hl, hmats⟩ := processed_materials hio hr hd hdef hat h
  obtain ⟨out, ⟨fuel₀, hout⟩, tl, pl, sl, cl, il, ml, hsec, -, -, ⟨ccards, hcl, hc⟩, -, mcards, hml, hm⟩ := C89_file_partial e e.sqrt d'.cells d'.surfaces d'.materials hw
  refine ⟨max fuel₀ e.fuel, fun fuel hf => ⟨out, _, cl, ml, ccards, mcards, ?_, hsec, by rfl, by rfl, hcl, hml, ?_⟩⟩
  · refine converts_of (d := d) (d' := d') (e := { e with fuel := fuel }) hr (finishDeck_mono (le_trans (le_max_right _ _) hf) h) (s := ⟨d'.cells, d'.surfaces, d'.materials, []⟩) ?_
    rw [writeCode, returns_bind]
    exact ⟨_, hout fuel (le_trans (le_max_left _ _) hf), by rw [returns_pure]⟩
  · refine forall₂_trans ?_ (forall₂_both hcells hmats) hc
    rintro c c' card ⟨⟨⟨e1, e2, e3, -⟩, -⟩, hv, hmz⟩ ⟨dd, g, ps, offs, rots, rfl, hdd, -⟩ hfl
    refine ⟨fun h0 => ?_, fun z hz hcz => ?_⟩
    · simp only [phitsFilling, hv h0, List.cons_append, text_zero, e1, if_true]
    · obtain ⟨h0, m, m', k1, k2, k3, k4, k5⟩ := hmz z hz hcz
      have h0' : c'.material ≠ .int 0 := fun hh => h0 (by rw [hh]; exact text_zero)
      refine ⟨m, m'.composition, k1, k2, c'.material.text, dd, h0, ?_, by rw [hdd h0', e2], ?_⟩
      · simp only [phitsFilling, List.cons_append, e1, if_neg h0, if_neg h0', List.nil_append, List.head?_cons]
      · obtain ⟨b, hb, ns, rfl, hns⟩ := filter_number (p := fun c : List Str => decide (c.head? = some (c!"M" ++ c'.material.text))) hm hl (by
          rintro m b ⟨ns, rfl, -⟩
          simp) k3
        refine ⟨ns, by rw [hb, k4], forall₂_imp ?_ hns⟩
        rintro a b ⟨x, -, a1, a2⟩
        exact ⟨⟨x, a1⟩, a2⟩

/-- No FLUKA material of an element or isotope is called by a number. -/
private theorem properName_number {n k : Nat} : properName n ≠ some (c!"M" ++ natStr k) := by
  intro h
  have key : ∀ p ∈ flukaIsotopes ++ flukaElements, ∀ c ∈ (p.2.drop 1).head?, p.2.head? = some 'M' → isDigit c = false := by decide +kernel
  have hmem : ∃ p ∈ flukaIsotopes ++ flukaElements, p.2 = c!"M" ++ natStr k := by
    unfold properName at h
    split at h
    · rename_i s hs
      cases h
      exact ⟨_, List.mem_append_left _ (mem_of_lookup hs), rfl⟩
    · exact ⟨_, List.mem_append_right _ (mem_of_lookup h), rfl⟩
  obtain ⟨p, hp, e⟩ := hmem
  obtain ⟨c, hc⟩ := List.exists_mem_of_ne_nil _ (natStr_ne_nil k)
  cases hk : natStr k with
  | nil => exact natStr_ne_nil k hk
  | cons a l =>
    have hd := natStr_digits k a (by rw [hk]; simp)
    rw [key p hp a (by rw [e, hk]; simp) (by rw [e]; rfl)] at hd
    cases hd

/-- Of the blocks for a list one has the cards with a key. -/
private theorem filter_block {α β : Type} {R : α → List β → Prop} {p : β → Bool} {key : α → Str} {as : List α} {blocks : List (List β)} (h : List.Forall₂ R as blocks) (hn : (as.map key).Nodup)
    {a : α} (ha : a ∈ as) (hp : ∀ a' b, R a' b → key a' ≠ key a → ∀ c ∈ b, p c = false) : ∃ b, R a b ∧ blocks.flatten.filter p = b.filter p := by
  induction h with
  | nil => cases ha
  | @cons e b as blocks hr hrest ih =>
    rw [List.map_cons, List.nodup_cons] at hn
    rw [List.flatten_cons, List.filter_append]
    rcases List.mem_cons.1 ha with rfl | ha
    · refine ⟨b, hr, ?_⟩
      suffices hnil : blocks.flatten.filter p = [] by rw [hnil, List.append_nil]
      rw [List.filter_eq_nil_iff]
      intro c hc
      obtain ⟨b', hb', hcb⟩ := List.mem_flatten.1 hc
      obtain ⟨a', ha', k⟩ := forall₂_right hrest b' hb'
      rw [hp a' b' k (fun hh => hn.1 (by rw [← hh]; exact List.mem_map_of_mem ha')) c hcb]
      simp
    · obtain ⟨b', k1, k2⟩ := ih hn.2 ha
      refine ⟨b', k1, ?_⟩
      rw [k2, List.filter_eq_nil_iff.2, List.nil_append]
      intro c hc
      rw [hp e b hr (fun hh => hn.1 (by rw [hh]; exact List.mem_map_of_mem ha)) c hc]
      simp

/-- **C95** for FLUKA. The deck read from the input, as in C92, has cards for all materials in use, and these give fractions of atoms. Then the written file gives every cell that is not filled with a universe
the substance of its material card and the density of its cell card, and voids stay void. Missing: fractions of mass (negative), see C45; the decks excluded by C92; densities in atoms per barn and cm, which FLUKA takes for g/cm³; shares of isotopes of elements that FLUKA knows as one material. -/
theorem C95_fluka_partial (e : Env K) (hio : Exact e.io) (cosDeg : K → K) (quick : Bool) (rank : Int → Nat) (text : Str)
    (d d' : Deck K) (comps : List (List (Nat × K)))
    (hr : readDeck e.io cosDeg (readText text) = .ok d) (hd : ProperDeck e.sqrt rank d) (hq : quick = true ∨ ∀ s ∈ d.surfaces, TwoSheet s)
    (hdef : Defined d.materials d.cells) (hat : ∀ m ∈ d.materials, AtomFractions m.2.composition)
    (h : finishDeck e.fuel e.io cosDeg e.sqrt quick d = some (.ok d')) (hw : FlukaDeck e d'.cells d'.surfaces d'.materials comps) (hnum : ∀ m ∈ d'.materials, ∃ k : Nat, m.1 = natStr k) :
    ∃ fuel₀, ∀ fuel ≥ fuel₀, ∃ out input, Converts { e with fuel := fuel } cosDeg quick text .fluka (.text out) ∧ flukaRead out = some input ∧
      List.Forall₂ (fun c l => field l 2 = c!"C" ++ intStr c.id ∧ MadeOf d c (field l 1 = c!"BLCKHOLE" ∨ field l 1 = c!"VACUUM")
        fun density comp => FlukaHas e.io e.sci3 input.cards (field l 1) density comp) d.cells (input.cards.filter fun l => decide (field l 0 = c!"ASSIGNMA")) := by
  obtain ⟨hid, hpos, hcells⟩ := processed_cells hio hd hq h
  obtain ⟨hl, hmats⟩ := processed_materials hio hr hd hdef hat h
  refine ⟨e.fuel, fun fuel hf => ?_⟩
  obtain ⟨out, ms', hret, input, hin, -, -, value, bias, assign, elems, blocks, hcards, -, hbias, hass, hel, hblocks⟩ := C90_file_partial { e with fuel := fuel } d'.cells d'.surfaces d'.materials comps
    ⟨hw.numbers, hw.importances, hw.fractions, hw.order, hw.surfaces, hw.cells, hw.nuclides, hw.materials, fun m hm => le_trans (hw.fuel m hm) hf⟩
  refine ⟨out, input, ?_, hin, ?_⟩
  · refine converts_of (d := d) (d' := d') (e := { e with fuel := fuel }) hr (finishDeck_mono hf h) (s := ⟨d'.cells, d'.surfaces, ms', []⟩) ?_
    rw [writeCode, returns_bind]
    exact ⟨_, hret, by rw [returns_pure]⟩
  · have hb0 : ∀ l ∈ bias, field l 0 = c!"BIASING" := fun l hl => by
      obtain ⟨c, -, k⟩ := forall₂_right hbias l hl
      exact k.1
    have ha0 : ∀ l ∈ assign, field l 0 = c!"ASSIGNMA" := fun l hl => by
      obtain ⟨c, -, k⟩ := forall₂_right hass l hl
      exact k.1
    have hm0 : ∀ l ∈ blocks.flatten, field l 0 = c!"MATERIAL" ∨ field l 0 = c!"COMPOUND" := fun l hl => by
      obtain ⟨b, hb, hlb⟩ := List.mem_flatten.1 hl
      obtain ⟨_, -, first, compound, rfl, k1, -, -, -, -, -, -, -, k2, -⟩ := forall₂_right hblocks b hb
      rcases List.mem_cons.1 hlb with rfl | hlc
      · exact .inl k1
      · exact .inr (k2 l hlc).1
    have hassign : (input.cards.filter fun l => decide (field l 0 = c!"ASSIGNMA")) = assign := by
      rw [hcards, List.filter_append, List.filter_append, List.filter_append, (List.filter_eq_nil_iff (l := bias)).2, (List.filter_eq_self (l := assign)).2, (List.filter_eq_nil_iff (l := elems)).2,
        (List.filter_eq_nil_iff (l := blocks.flatten)).2]
      · simp
      · intro l hl
        rcases hm0 l hl with k | k <;> rw [k] <;> decide
      · intro l hl
        rw [(hel.2.2 l hl).1]
        decide
      · intro l hl
        rw [ha0 l hl]
        decide
      · intro l hl
        rw [hb0 l hl]
        decide
    rw [hassign]
    refine forall₂_trans ?_ (forall₂_both hcells hmats) hass
    rintro c c' l ⟨⟨⟨e1, e2, e3, -⟩, -⟩, hv, hmz⟩ ⟨-, a2, -, a4, a5, a6⟩
    refine ⟨by rw [a2, e1], fun hfl => ⟨fun h0 => ?_, fun z hz hcz => ?_⟩⟩
    · by_cases hi : c'.importance = 0
      · exact .inl (a5 (hv h0) hi)
      · exact .inr (a6 (hv h0) hi)
    · obtain ⟨h0, m, m', k1, k2, k3, k4, k5⟩ := hmz z hz hcz
      have h0' : c'.material ≠ .int 0 := fun hh => h0 (by rw [hh]; exact text_zero)
      refine ⟨m, m'.composition, k1, k2, ?_⟩
      rw [a4 h0']
      have hzip : ∃ l, ((c'.material.text, m'), l) ∈ d'.materials.zip comps ∧ m'.composition = l.map (fun p => (natStr p.1, p.2)) := by
        have := hw.nuclides
        clear hblocks hel hw hmats a2 a4 a5 a6 hmz
        clear l
        revert k3
        generalize d'.materials = ms at this ⊢
        intro k3
        induction this with
        | nil => cases k3
        | cons hh _ ih =>
          rcases List.mem_cons.1 k3 with rfl | k3
          · exact ⟨_, by simp, hh.1⟩
          · obtain ⟨l, h1, h2⟩ := ih k3
            exact ⟨l, by simp [h1], h2⟩
      obtain ⟨l, hzl, hcomp⟩ := hzip
      obtain ⟨k, hk⟩ := hnum _ k3
      simp only at hk
      have hkeys : ((d'.materials.zip comps).map fun ml => ml.1.1).Nodup := by
        have : ((d'.materials.zip comps).map fun ml => ml.1.1) = d'.materials.map Prod.fst := by
          rw [show (fun ml : (Str × Material K) × List (Nat × K) => ml.1.1) = Prod.fst ∘ Prod.fst from rfl, ← List.map_map, List.map_fst_zip hw.nuclides.length_eq.le]
        rw [this]
        exact hl.1
      have helem : ∀ l ∈ elems, field l 7 ≠ c!"M" ++ c'.material.text := fun l hl hh => by
        obtain ⟨n, hn, -⟩ := (hel.2.2 l hl).2
        rw [hh, hk] at hn
        exact properName_number hn
      have hone : ∀ kw, kw ≠ c!"BIASING" → kw ≠ c!"ASSIGNMA" → (input.cards.filter fun l => decide (field l 0 = kw ∧ field l 7 = c!"M" ++ c'.material.text)) =
          blocks.flatten.filter fun l => decide (field l 0 = kw ∧ field l 7 = c!"M" ++ c'.material.text) := by
        intro kw w1 w2
        rw [hcards, List.filter_append, List.filter_append, List.filter_append, (List.filter_eq_nil_iff (l := bias)).2, (List.filter_eq_nil_iff (l := assign)).2, (List.filter_eq_nil_iff (l := elems)).2]
        · simp
        · intro l hl
          rw [decide_eq_true_eq]
          exact fun hh => helem l hl hh.2
        · intro l hl
          rw [ha0 l hl]
          simpa using fun hh => absurd hh.symm w2
        · intro l hl
          rw [hb0 l hl]
          simpa using fun hh => absurd hh.symm w1
      have hblock : ∀ kw, ∃ b, FlukaMaterialSays e.io e.sci3 m' l b ∧ (blocks.flatten.filter fun l => decide (field l 0 = kw ∧ field l 7 = c!"M" ++ c'.material.text)) =
          b.filter fun l => decide (field l 0 = kw ∧ field l 7 = c!"M" ++ c'.material.text) := by
        intro kw
        obtain ⟨b, ⟨-, kb⟩, kf⟩ := filter_block (R := fun ml b => ml.1.2.number = ml.1.1 ∧ FlukaMaterialSays e.io e.sci3 ml.1.2 ml.2 b) (key := fun ml => ml.1.1)
          (p := fun l => decide (field l 0 = kw ∧ field l 7 = c!"M" ++ c'.material.text)) (forall₂_imp (fun ml b k => ⟨hl.2 _ (List.of_mem_zip k.1).1, k.2.2⟩) (forall₂_mem hblocks)) hkeys hzl (by
            rintro ml b ⟨n1, first, compound, rfl, -, -, -, -, -, -, -, n2, n3, -⟩ hne c hc
            have : field c 7 = c!"M" ++ ml.1.1 := by
              rcases List.mem_cons.1 hc with rfl | hc
              · rw [n2, n1]
              · rw [(n3 c hc).2, n1]
            rw [this]
            simp [hne])
        exact ⟨b, kb, kf⟩
      refine ⟨?_, l, ?_⟩
      · obtain ⟨b, ⟨first, compound, rfl, f0, -, -, f3, -, -, -, f7, fc, -⟩, hb⟩ := hblock c!"MATERIAL"
        refine ⟨first, ?_, fun hneg => ?_⟩
        · rw [hone _ (by decide) (by decide), hb, List.filter_cons_of_pos (by rw [f0, f7, k4]; simp), List.filter_eq_nil_iff.2]
          intro l hl
          rw [(fc l hl).1]
          simp
        · rw [f3, hio.reads, k5, abs_of_nonpos hneg]
      · obtain ⟨b, ⟨first, compound, rfl, f0, -, -, -, -, -, -, -, fc, names, n1, n2, n3⟩, hb⟩ := hblock c!"COMPOUND"
        refine ⟨names, hcomp, n1, n2, ?_⟩
        rw [hone _ (by decide) (by decide), hb, List.filter_cons_of_neg (by rw [f0]; simp), List.filter_eq_self.2]
        · exact n3
        · intro l hl
          rw [(fc l hl).1, (fc l hl).2, k4]
          simp

/-- **C95** for SCONE. The deck read from the input, as in C92, has cards for all materials in use, and these give fractions of atoms. Then the written file gives every cell that is not filled with a universe
the substance of its material card and the density of its cell card, and voids stay void. Missing: fractions of mass (negative), see C45; the decks excluded by C92; the mass numbers are taken for the masses of the atoms, as the program does. -/
theorem C95_scone_partial (e : Env K) (hio : Exact e.io) (ho : ∀ l, (e.orderInt l).Perm l) (cosDeg tanSq : K → K) (quick : Bool) (read : Str → Option K) (nucs : Material K → List (Nuc K))
    (rank : Int → Nat) (text : Str) (d d' : Deck K)
    (hr : readDeck e.io cosDeg (readText text) = .ok d) (hd : ProperDeck e.sqrt rank d) (hq : quick = true ∨ ∀ s ∈ d.surfaces, TwoSheet s)
    (hdef : Defined d.materials d.cells) (hat : ∀ m ∈ d.materials, AtomFractions m.2.composition)
    (h : finishDeck e.fuel e.io cosDeg e.sqrt quick d = some (.ok d')) (hw : SconeDeck e.sqrt e.degAtan tanSq read e.io e.fixed e.sci nucs d'.cells d'.surfaces d'.materials) :
    ∃ fuel₀, ∀ fuel ≥ fuel₀, ∃ out gs ns ces mes, Converts { e with fuel := fuel } cosDeg quick text .scone (.text out) ∧ sconeRead out = some [.dict c!"geometry" gs, .dict c!"nuclearData" ns] ∧
      .dict c!"cells" ces ∈ gs ∧ .dict c!"materials" mes ∈ ns ∧
      List.Forall₂ (fun c x => MadeOf d c (sconeMaterialOf x = some (intStr c.id, c!"void"))
        fun density comp => ∃ name, name ≠ c!"void" ∧ sconeMaterialOf x = some (intStr c.id, name) ∧ SconeHas e.sci mes name density comp) d.cells ces := by
  obtain ⟨hid, hpos, hcells⟩ := processed_cells hio hd hq h
  obtain ⟨hl, hmats⟩ := processed_materials hio hr hd hdef hat h
  obtain ⟨out, us, ⟨fuel₀, hout⟩, -, ses, ces, ues, mes, hread, -, hc, -, hm⟩ := C87_file_partial e tanSq read nucs d'.cells d'.surfaces d'.materials hw ho
  refine ⟨max fuel₀ e.fuel, fun fuel hf => ⟨out, _, _, ces, mes, ?_, hread, by simp, by simp, ?_⟩⟩
  · refine converts_of (d := d) (d' := d') (e := { e with fuel := fuel }) hr (finishDeck_mono (le_trans (le_max_right _ _) hf) h) (s := ⟨d'.cells, d'.surfaces, d'.materials, us⟩) ?_
    rw [writeCode, returns_bind]
    exact ⟨_, hout fuel (le_trans (le_max_left _ _) hf), by rw [returns_pure]⟩
  · refine forall₂_trans ?_ (forall₂_both hcells hmats) hc
    rintro c c' x ⟨⟨⟨e1, -, e3, -⟩, -⟩, hv, hmz⟩ ⟨g, rfl, -⟩ hfl
    have hof : sconeMaterialOf (.dict (intStr c'.id) ([.value [c!"type", c!"unionCell"], .value [c!"id", intStr c'.id]] ++ sconeFilling c' ++ [.value ([c!"surfaces", c!"["] ++ g ++ [c!"]"])])) =
        some (intStr c.id, if c'.material = .int 0 then c!"void" else c!"m" ++ c'.material.text) := by
      rw [← e1]
      unfold sconeFilling
      rw [e3.trans hfl]
      rfl
    rw [hof]
    refine ⟨fun h0 => by rw [if_pos (hv h0)], fun z hz hcz => ?_⟩
    obtain ⟨h0, m, m', k1, k2, k3, k4, k5⟩ := hmz z hz hcz
    rw [if_neg fun hh => h0 (by rw [hh]; exact text_zero)]
    refine ⟨m, m'.composition, k1, k2, c!"m" ++ c'.material.text, by simp, rfl, ?_⟩
    obtain ⟨b, hb, N, rfl, n1, n2, n3⟩ := filter_number (R := fun m => SconeMaterialSays e.sci m (nucs m)) (p := fun i => decide (sconeName i = some (c!"m" ++ c'.material.text))) hm hl (by
      rintro m b ⟨N, rfl, -⟩
      simp [sconeName]) k3
    have hcomp := (hw.materials _ k3).1
    simp only at hcomp
    refine ⟨nucs m', N, by rw [hb, k4], hcomp, n1, fun hpos => ?_, fun hneg => ?_⟩
    · rw [← k5]
      refine n2 (by rw [k5]; exact hpos) ?_
      have := k2.2
      rw [hcomp, compositionOf, total, List.map_map] at this
      exact this
    · rw [← k5]
      exact n3 (by rw [k5]; exact hneg)

/-- **C95** for MCNP, where the written file is read again. The deck read from the input, as in C92, has cards for all materials in use, and these give fractions of atoms. Then the written file gives every cell that is not filled with a universe
the substance of its material card and the density of its cell card, and voids stay void. Missing: fractions of mass (negative), see C45; the decks excluded by C92; the libraries of the nuclides. -/
theorem C95_mcnp_partial (e : Env K) (hio : Exact e.io) (cosDeg : K → K) (quick : Bool) (rank : Int → Nat) (text : Str) (d d' : Deck K)
    (hr : readDeck e.io cosDeg (readText text) = .ok d) (hd : ProperDeck e.sqrt rank d) (hq : quick = true ∨ ∀ s ∈ d.surfaces, TwoSheet s)
    (hdef : Defined d.materials d.cells) (hat : ∀ m ∈ d.materials, AtomFractions m.2.composition)
    (h : finishDeck e.fuel e.io cosDeg e.sqrt quick d = some (.ok d'))
    (hc : ∀ c ∈ d'.cells, ∃ offs rots, Writable e.io GeometryWord c ∧ WritableParams e.io c offs rots ∧ ReadableCell e.io c)
    (hs : ∀ s ∈ d'.surfaces, Expressible s ∧ s.bc ≠ .periodic ∧ 0 ≤ s.id ∧ (intStr s.id).length ≤ 60 ∧ ∀ x ∈ s.coeffs, e.io.Good x)
    (hmn : ∀ mn ∈ printedMnemonics, e.io.parse mn = none) (hm : ∀ m ∈ d'.materials, Printable e.io m.2) :
    ∃ fuel₀, ∀ fuel ≥ fuel₀, ∃ out d2, Converts { e with fuel := fuel } cosDeg quick text .mcnp (.text out) ∧ readDeck e.io cosDeg (readText out) = .ok d2 ∧
      List.Forall₂ (fun c c2 => c2.id = c.id ∧ MadeOf d c (c2.material.text = c!"0")
        fun density comp => c2.material.text ≠ c!"0" ∧ c2.density = density ∧ ∃ m2, d2.materials.lookup c2.material.text = some m2 ∧ m2.composition = comp) d.cells d2.cells := by
  obtain ⟨hid, hpos, hcells⟩ := processed_cells hio hd hq h
  obtain ⟨hl, hmats⟩ := processed_materials hio hr hd hdef hat h
  have hnum : (d'.materials.map fun m => m.2.number) = d'.materials.map Prod.fst := List.map_congr_left fun m hm => hl.2 m hm
  obtain ⟨out, ⟨fuel₀, hout⟩, d2, hread, hc2, -, ⟨sorted, hperm, -, hsorted⟩, -⟩ := C83_file_partial e cosDeg d'.cells d'.surfaces d'.materials hc hs hmn hm (by rw [hnum]; exact hl.1)
  refine ⟨max fuel₀ e.fuel, fun fuel hf => ⟨out, d2, ?_, hread, ?_⟩⟩
  · refine converts_of (d := d) (d' := d') (e := { e with fuel := fuel }) hr (finishDeck_mono (le_trans (le_max_right _ _) hf) h) (s := ⟨d'.cells, d'.surfaces, d'.materials, []⟩) ?_
    rw [writeCode, returns_bind]
    exact ⟨_, hout fuel (le_trans (le_max_left _ _) hf), by rw [returns_pure]⟩
  · refine forall₂_trans ?_ (forall₂_both hcells hmats) hc2
    rintro c c' c2 ⟨⟨⟨e1, e2, e3, -⟩, -⟩, hv, hmz⟩ hsame
    refine ⟨by rw [hsame.id, e1], fun hfl => ⟨fun h0 => by rw [hsame.material, hv h0]; exact text_zero, fun z hz hcz => ?_⟩⟩
    obtain ⟨h0, m, m', k1, k2, k3, k4, k5⟩ := hmz z hz hcz
    have h0' : c'.material ≠ .int 0 := fun hh => h0 (by rw [hh]; exact text_zero)
    refine ⟨m, m'.composition, k1, k2, by rw [hsame.material]; exact h0, by rw [hsame.density h0', e2], ?_⟩
    have hnd : (d2.materials.map Prod.fst).Nodup := by
      rw [show d2.materials.map Prod.fst = sorted.map fun m => m.2.number from forall₂_map_eq (fun _ _ k => k.1) hsorted, (hperm.map _).nodup_iff, hnum]
      exact hl.1
    obtain ⟨⟨x, m2⟩, hm2, k6, k7⟩ := forall₂_left_mem hsorted (hperm.mem_iff.2 k3)
    refine ⟨m2, (lookup_iff_mem hnd).2 ?_, k7.2.1⟩
    rw [hsame.material, ← k4]
    simp only at k6
    rw [← k6]
    exact hm2

end

/-! ## A case that meets the hypotheses

The deck of `Props/ConvertedSample.lean` meets them all. Here is a material with an element that stands for several nuclides, and fractions that are not normalised. -/

example : AtomFractions [(c!"1001", (2 : ℚ)), (c!"8000", 1)] := by
  have hz : ∀ z, natStr (1000 * z) ∈ [c!"1001", c!"8000"] → z = 8 := by
    intro z hz
    simp only [List.mem_cons, List.not_mem_nil, or_false] at hz
    rcases hz with h | h
    · have := natStr_injective (h.trans (by decide +kernel : c!"1001" = natStr 1001))
      omega
    · have := natStr_injective (h.trans (by decide +kernel : c!"8000" = natStr 8000))
      omega
  refine ⟨⟨by decide, ?_⟩, ?_, by decide, by decide +kernel, ?_⟩
  · intro e he
    simp only [List.mem_cons, List.not_mem_nil, or_false] at he
    rcases he with rfl | rfl
    · exact ⟨1001, by decide +kernel⟩
    · exact ⟨8000, by decide +kernel⟩
  · intro z h
    obtain rfl := hz z h
    decide +kernel
  · intro z h
    obtain rfl := hz z h
    decide +kernel

/-- It becomes light hydrogen and the three oxygen nuclides. -/
example : ∃ comp, SameSubstance [(c!"1001", (2 : ℚ)), (c!"8000", 1)] comp ∧ comp.map Prod.fst = [c!"1001", c!"8016", c!"8017", c!"8018"] := by
  refine ⟨_, ⟨⟨[_, _], .cons (.inr ⟨fun z h => ?_, rfl⟩) (.cons (.inl ⟨8, by decide +kernel, rfl⟩) .nil), .refl _⟩, by decide +kernel⟩, by decide +kernel⟩
  have := natStr_injective ((by decide +kernel : natStr 1001 = c!"1001").trans h)
  omega

end Csg
