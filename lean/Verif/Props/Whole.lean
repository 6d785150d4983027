import Verif.Lemmas.WholeFluka
import Verif.Lemmas.WholeScone

/-!
# C96: conversion from conditions on the input

For each code: if the deck as read meets the conditions of `Verif.Spec.Whole` then the program writes a file, however the loops go, and the file as that code reads it has the cells of the input, with the
same points, materials and densities. C92 and C95 say the same with conditions on the processed deck; here they are on the deck as read.
-/

set_option linter.unusedSectionVars false

namespace Csg

open Spec

section
variable {K : Type} [Field K] [LinearOrder K] [IsStrictOrderedRing K]

theorem converts_unique {e : Env K} {cosDeg : K → K} {quick : Bool} {text : Str} {c : Code} {f g : OutFile} (h : Converts e cosDeg quick text c f) (h' : Converts e cosDeg quick text c g) : f = g := by
  have := returns_unique h.1 h'.1
  simpa using this

/-- **C96** for OpenMC. Partial: macrobodies other than RPP, BOX, SPH and RCC, one-sheet cones, fractions of mass, and input that is not `Convertible` are left out; numbers are exact (`Exact`). -/
theorem C96_openmc_partial (e : Env K) (hio : Exact e.io) (cosDeg : K → K) (quick : Bool) (rank : Int → Nat) (text : Str) (d : Deck K)
    (hr : readDeck e.io cosDeg (readText text) = .ok d) (hd : Convertible e.io e.sqrt rank d) (ho : OpenmcInput e.io d) :
    ∃ fuel₀, ∀ fuel ≥ fuel₀, ∃ g m xs es ys, Converts { e with fuel := fuel } cosDeg quick text .openmc (.xml g m) ∧ openmcGeometry g = some (xs, es) ∧ openmcMaterials m = some ys ∧
      (∀ c ∈ d.cells, InGeometry d.cells c → ∃ x ∈ es, x.id = intStr c.id) ∧
      ∀ x ∈ es, ∃ c ∈ d.cells, InGeometry d.cells c ∧ x.id = intStr c.id ∧ (∀ p, InOpenmc e.sqrt e.io xs x p ↔ InDeckCell e.sqrt d c.id p) ∧
        MadeOf d c (x.material = some c!"void") fun density comp => x.material ≠ some c!"void" ∧ OpenmcHas e.io ys x density comp := by
  obtain ⟨f, d', h⟩ := convertible_finishes (quick := quick) hio hr hd
  have hw := openmc_ready hio hr hd ho h
  obtain ⟨f1, h1⟩ := C92_openmc_partial { e with fuel := f } hio cosDeg quick nucsOf rank text d d' hr hd.proper (.inr hd.sheets) h hw
  obtain ⟨f2, h2⟩ := C95_openmc_partial { e with fuel := f } hio cosDeg quick nucsOf rank text d d' hr hd.proper (.inr hd.sheets) hd.defined hd.atoms h hw
  refine ⟨max f1 f2, fun fuel hf => ?_⟩
  obtain ⟨g, m, xs, es, a1, a2, a3, a4⟩ := h1 fuel (le_trans (le_max_left _ _) hf)
  obtain ⟨g', m', xs', es', ys, b1, b2, b3, b4⟩ := h2 fuel (le_trans (le_max_right _ _) hf)
  have e1 := converts_unique a1 b1
  cases e1
  rw [a2] at b2
  cases b2
  refine ⟨g, m, xs, es, ys, a1, a2, b3, a3, fun x hx => ?_⟩
  obtain ⟨c, hc, k1, k2, k3⟩ := a4 x hx
  obtain ⟨c2, hc2, j1, j2⟩ := b4 x hx
  have : c2 = c := List.inj_on_of_nodup_map hd.proper.complements.ids hc2 hc (intStr_injective (by rw [← j1, k2]))
  subst this
  exact ⟨c2, hc, k1, k2, k3, j2⟩

/-- **C96** for Serpent. Partial as for OpenMC; also, the numbers that the processed surfaces have must be printed such that Serpent reads them (`hread`), which is a condition on the result of processing. -/
theorem C96_serpent_partial (e : Env K) (hio : Exact e.io) (cosDeg : K → K) (quick : Bool) (read : Str → Option K) (approx : K → K) (rank : Int → Nat) (text : Str) (d : Deck K)
    (hsci : ∀ x, FloatText (e.sci x) ∧ e.io.parse (e.sci x) = some (approx x))
    (hr : readDeck e.io cosDeg (readText text) = .ok d) (hd : Convertible e.io e.sqrt rank d) (hc : CardInput e.io d)
    (hk : ∀ s ∈ d.surfaces, IsCone s.type ∨ IsTorus s.type → ∀ x ∈ s.coeffs, Prints read e.fixed x)
    (hs : ShortCells e.io d) (hread : ∀ fuel d', finishDeck fuel e.io cosDeg e.sqrt quick d = some (.ok d') → PrintedSurfaces read e.io d') :
    ∃ fuel₀, ∀ fuel ≥ fuel₀, ∃ out cards, Converts { e with fuel := fuel } cosDeg quick text .serpent (.text out) ∧ serpentCards out = ([], cards) ∧
      List.Forall₂ (fun c r => ∃ g, r = some (intStr c.id, g) ∧ ∀ p, InSerpent e.sqrt read cards g p ↔ InDeckCell e.sqrt d c.id p) d.cells (serpentRegions cards) ∧
      List.Forall₂ (fun c x => MadeOf d c (x = some (intStr c.id, c!"void"))
        fun density comp => ∃ name, name ≠ c!"void" ∧ name ≠ c!"outside" ∧ x = some (intStr c.id, name) ∧ SerpentHas e.io approx cards name density comp) d.cells (serpentFillings cards) := by
  obtain ⟨f, d', h⟩ := convertible_finishes (quick := quick) hio hr hd
  have hw := serpent_ready hio hsci hr hd hc hk h (short_out hio hr hd h hs) (hread _ _ h)
  obtain ⟨f1, h1⟩ := C92_serpent_partial { e with fuel := f } hio cosDeg quick read approx _ _ rank text d d' hr hd.proper (.inr hd.sheets) h hw
  obtain ⟨f2, h2⟩ := C95_serpent_partial { e with fuel := f } hio cosDeg quick read approx _ _ rank text d d' hr hd.proper (.inr hd.sheets) hd.defined hd.atoms h hw
  refine ⟨max f1 f2, fun fuel hf => ?_⟩
  obtain ⟨out, cards, a1, a2, a3⟩ := h1 fuel (le_trans (le_max_left _ _) hf)
  obtain ⟨out', cards', b1, b2, b3⟩ := h2 fuel (le_trans (le_max_right _ _) hf)
  cases converts_unique a1 b1
  rw [a2] at b2
  cases b2
  exact ⟨out, cards, a1, a2, a3, b3⟩

/-- **C96** for PHITS. Partial as for OpenMC; also, the texts of the numbers that the processed surfaces have must fit on a card (`hss`), which is a condition on the result of processing. -/
theorem C96_phits_partial (e : Env K) (hio : Exact e.io) (cosDeg : K → K) (quick : Bool) (rank : Int → Nat) (text : Str) (d : Deck K)
    (hr : readDeck e.io cosDeg (readText text) = .ok d) (hd : Convertible e.io e.sqrt rank d) (hc : CardInput e.io d) (hx : ∀ m ∈ d.materials, PrintableXs m.2)
    (hs : ShortCells e.io d) (hss : ∀ fuel d', finishDeck fuel e.io cosDeg e.sqrt quick d = some (.ok d') → ShortSurfaces e.io d') :
    ∃ fuel₀, ∀ fuel ≥ fuel₀, ∃ out secs sl cl ml scards ccards mcards, Converts { e with fuel := fuel } cosDeg quick text .phits (.text out) ∧ phitsSections (readlines out) = ([], secs) ∧
      secs.lookup c!"surface" = some sl ∧ secs.lookup c!"cell" = some cl ∧ secs.lookup c!"material" = some ml ∧ phitsCards sl = ([], scards) ∧ phitsCards cl = ([], ccards) ∧ phitsCards ml = ([], mcards) ∧
      List.Forall₂ (fun c card => ∃ g, phitsRegion card = some (intStr c.id, g) ∧ ∀ p, InPhits e.sqrt e.io scards g p ↔ InDeckCell e.sqrt d c.id p) d.cells ccards ∧
      List.Forall₂ (fun c card => MadeOf d c (phitsFilling card = some (intStr c.id, c!"0", none))
        fun density comp => ∃ name dw, name ≠ c!"0" ∧ phitsFilling card = some (intStr c.id, name, some dw) ∧ e.io.parse dw = some density ∧ PhitsHas e.io mcards name comp) d.cells ccards := by
  obtain ⟨f, d', h⟩ := convertible_finishes (quick := quick) hio hr hd
  have hw := phits_ready hio hr hd hc hx h (short_out hio hr hd h hs) (hss _ _ h)
  obtain ⟨f1, h1⟩ := C92_phits_partial { e with fuel := f } hio cosDeg quick rank text d d' hr hd.proper (.inr hd.sheets) h hw
  obtain ⟨f2, h2⟩ := C95_phits_partial { e with fuel := f } hio cosDeg quick rank text d d' hr hd.proper (.inr hd.sheets) hd.defined hd.atoms h hw
  refine ⟨max f1 f2, fun fuel hf => ?_⟩
  obtain ⟨out, secs, sl, cl, scards, ccards, a1, a2, a3, a4, a5, a6, a7⟩ := h1 fuel (le_trans (le_max_left _ _) hf)
  obtain ⟨out', secs', cl', ml, ccards', mcards, b1, b2, b3, b4, b5, b6, b7⟩ := h2 fuel (le_trans (le_max_right _ _) hf)
  cases converts_unique a1 b1
  rw [a2] at b2
  cases b2
  rw [a4] at b3
  cases b3
  rw [a6] at b5
  cases b5
  exact ⟨out, secs, sl, cl, ml, scards, ccards, mcards, a1, a2, a3, a4, b4, a5, a6, b6, a7, b7⟩

/-- **C96** for MCNP: the written file is read as a deck with the same cells. Partial as for PHITS. -/
theorem C96_mcnp_partial (e : Env K) (hio : Exact e.io) (cosDeg : K → K) (quick : Bool) (rank : Int → Nat) (text : Str) (d : Deck K)
    (hmn : ∀ mn ∈ printedMnemonics, e.io.parse mn = none)
    (hr : readDeck e.io cosDeg (readText text) = .ok d) (hd : Convertible e.io e.sqrt rank d) (hc : CardInput e.io d)
    (hs : ShortCells e.io d) (hi : ∀ (i : Nat) c x, d.cells[i]? = some c → ImportanceIs e.io d i c x → PlainNumber (e.io.render x))
    (hss : ∀ fuel d', finishDeck fuel e.io cosDeg e.sqrt quick d = some (.ok d') → ShortSurfaces e.io d') :
    ∃ fuel₀, ∀ fuel ≥ fuel₀, ∃ out d2, Converts { e with fuel := fuel } cosDeg quick text .mcnp (.text out) ∧ readDeck e.io cosDeg (readText out) = .ok d2 ∧
      List.Forall₂ (fun c c2 => c2.id = c.id ∧ (∀ p, InDeckCell e.sqrt d2 c2.id p ↔ InDeckCell e.sqrt d c.id p) ∧ MadeOf d c (c2.material.text = c!"0")
        fun density comp => c2.material.text ≠ c!"0" ∧ c2.density = density ∧ ∃ m2, d2.materials.lookup c2.material.text = some m2 ∧ m2.composition = comp) d.cells d2.cells := by
  obtain ⟨f, d', h⟩ := convertible_finishes (quick := quick) hio hr hd
  have hw := mcnp_ready hio hr hd hc h (short_out hio hr hd h hs) (importance_out hio hd.proper hd.sheets h hi)
  have hw' := card_surfaces hio hr hd h (hss _ _ h)
  obtain ⟨hl, hm⟩ := card_materials hio hr hd h
  have hn : (d'.materials.map fun m => m.2.number).Nodup := by
    rw [show d'.materials.map (fun m => m.2.number) = d'.materials.map Prod.fst from List.map_congr_left fun m hm => hl.2 m hm]
    exact hl.1
  obtain ⟨f1, h1⟩ := C92_mcnp_partial { e with fuel := f } hio cosDeg quick rank text d d' hr hd.proper (.inr hd.sheets) h hw hw' hmn hm hn
  obtain ⟨f2, h2⟩ := C95_mcnp_partial { e with fuel := f } hio cosDeg quick rank text d d' hr hd.proper (.inr hd.sheets) hd.defined hd.atoms h hw hw' hmn hm
  refine ⟨max f1 f2, fun fuel hf => ?_⟩
  obtain ⟨out, d2, a1, a2, a3⟩ := h1 fuel (le_trans (le_max_left _ _) hf)
  obtain ⟨out', d2', b1, b2, b3⟩ := h2 fuel (le_trans (le_max_right _ _) hf)
  cases converts_unique a1 b1
  rw [a2] at b2
  cases b2
  exact ⟨out, d2, a1, a2, forall₂_imp (fun c c2 k => ⟨k.1.1, k.1.2, k.2.2⟩) (forall₂_both a3 b3)⟩

/-- **C96** for FLUKA. Partial as for OpenMC; also, cones, tori and macrobodies with a transformation are left out, and so are points on the surfaces. -/
theorem C96_fluka_partial (e : Env K) (hio : Exact e.io) (hz : e.io.parse c!"0." = some 0) (hz' : e.io.parse c!"0.0" = some 0) (hzero : (e.io.render 0).length ≤ 10)
    (h3 : ∀ x, x = 0 ∨ 1 / 10 ^ 99 ≤ x → x ≤ 10 ^ 9 → (e.sci3 x).length = 10 ∧ '\n' ∉ e.sci3 x)
    (h4 : ∀ x, 1 / 10 ^ 99 ≤ x → x ≤ 100000 → (e.sci4 x).length ≤ 10 ∧ ' ' ∉ e.sci4 x ∧ '\n' ∉ e.sci4 x) (ho : ∀ l, (e.orderStr l).Perm l)
    (cosDeg : K → K) (quick : Bool) (rank : Int → Nat) (text : Str) (d : Deck K)
    (hr : readDeck e.io cosDeg (readText text) = .ok d) (hd : Convertible e.io e.sqrt rank d) (hf : FlukaSource e.io e.sqrt d) :
    ∃ fuel₀ d', ∀ fuel ≥ fuel₀, finishDeck fuel e.io cosDeg e.sqrt quick d = some (.ok d') ∧ ∃ out input, Converts { e with fuel := fuel } cosDeg quick text .fluka (.text out) ∧ flukaRead out = some input ∧
      List.Forall₂ (fun c r => r.1 = c!"C" ++ intStr c.id ∧
        ∀ p, (∀ s ∈ d'.surfaces, side e.sqrt s.type s.coeffs p ≠ some .on) → (InFluka e.io input.bodies r.2 p ↔ InDeckCell e.sqrt d c.id p)) d.cells input.regions ∧
      List.Forall₂ (fun c l => field l 2 = c!"C" ++ intStr c.id ∧ MadeOf d c (field l 1 = c!"BLCKHOLE" ∨ field l 1 = c!"VACUUM")
        fun density comp => FlukaHas e.io e.sci3 input.cards (field l 1) density comp) d.cells (input.cards.filter fun l => decide (field l 0 = c!"ASSIGNMA")) := by
  obtain ⟨f0, d', h⟩ := convertible_finishes (quick := quick) hio hr hd
  obtain ⟨f, hf0, hlen⟩ : ∃ f, f0 ≤ f ∧ ∀ m ∈ d'.materials, m.2.composition.length ≤ f := by
    refine ⟨f0 + (d'.materials.map fun m => m.2.composition.length).sum, by omega, fun m hm => ?_⟩
    have := List.single_le_sum (l := d'.materials.map fun m => m.2.composition.length) (by simp) _ (List.mem_map_of_mem hm)
    omega
  have h := finishDeck_mono hf0 h
  have hw := fluka_ready (e := { e with fuel := f }) hio hr hd hf h3 h4 hzero ho h hlen
  have hnum : ∀ m ∈ d'.materials, ∃ k : Nat, m.1 = natStr k := by
    intro m hm
    obtain ⟨k, -, -, ek⟩ := ((whole_list hio hr hd h).2 m hm).1
    exact ⟨k, ek⟩
  have hcone : ∀ s ∈ d'.surfaces, ¬ IsCone s.type := by
    intro s hs hk
    obtain ⟨s0, hs0, et, -⟩ := special_surfaces hio hd.proper h s hs (.inl hk)
    exact (hf.surfaces s0 hs0).1 (et ▸ hk)
  obtain ⟨f1, h1⟩ := C92_fluka_partial { e with fuel := f } hio hz hz' cosDeg quick rank text d d' _ hr hd.proper (.inr hd.sheets) h hw
  obtain ⟨f2, h2⟩ := C95_fluka_partial { e with fuel := f } hio cosDeg quick rank text d d' _ hr hd.proper (.inr hd.sheets) hd.defined hd.atoms h hw hnum
  refine ⟨max f (max f1 f2), d', fun fuel hff => ⟨finishDeck_mono (le_trans (le_max_left _ _) hff) h, ?_⟩⟩
  obtain ⟨out, input, a1, a2, a3⟩ := h1 fuel (le_trans (le_trans (le_max_left _ _) (le_max_right _ _)) hff)
  obtain ⟨out', input', b1, b2, b3⟩ := h2 fuel (le_trans (le_trans (le_max_right _ _) (le_max_right _ _)) hff)
  cases converts_unique a1 b1
  rw [a2] at b2
  cases b2
  exact ⟨out, input, a1, a2, forall₂_imp (fun c r k => ⟨k.1, fun p hp => k.2 p fun s hs => ⟨hp s hs, fun hk => absurd hk (hcone s hs)⟩⟩) a3, b3⟩

/-- **C96** for SCONE. Partial as for Serpent; also, tori and points far from the tip of a cone are left out. -/
theorem C96_scone_partial (e : Env K) (hio : Exact e.io) (hsci : ∀ x, SconeOrdinary (e.sci x)) (ho : ∀ l, (e.orderInt l).Perm l) (cosDeg tanSq : K → K) (quick : Bool) (read : Str → Option K)
    (hlit : ∀ w x, Literal w x → read w = some x) (rank : Int → Nat) (text : Str) (d : Deck K)
    (hr : readDeck e.io cosDeg (readText text) = .ok d) (hd : Convertible e.io e.sqrt rank d) (hs : SconeSource e.io e.sqrt e.degAtan tanSq read e.fixed d)
    (hread : ∀ fuel d', finishDeck fuel e.io cosDeg e.sqrt quick d = some (.ok d') → PrintedSurfaces read e.io d') :
    ∃ fuel₀ d', ∀ fuel ≥ fuel₀, finishDeck fuel e.io cosDeg e.sqrt quick d = some (.ok d') ∧
      ∃ out gs ns ses ces mes, Converts { e with fuel := fuel } cosDeg quick text .scone (.text out) ∧ sconeRead out = some [.dict c!"geometry" gs, .dict c!"nuclearData" ns] ∧
        .dict c!"surfaces" ses ∈ gs ∧ .dict c!"cells" ces ∈ gs ∧ .dict c!"materials" mes ∈ ns ∧
        List.Forall₂ (fun c x => ∃ g, sconeRegion x = some (intStr c.id, g) ∧
          ∀ p, (∀ s ∈ d'.surfaces, ∀ u, coneOffset s.type s.coeffs p = some u → |u| < 10 ^ 10) → (InScone tanSq read ses g p ↔ InDeckCell e.sqrt d c.id p)) d.cells ces ∧
        List.Forall₂ (fun c x => MadeOf d c (sconeMaterialOf x = some (intStr c.id, c!"void"))
          fun density comp => ∃ name, name ≠ c!"void" ∧ sconeMaterialOf x = some (intStr c.id, name) ∧ SconeHas e.sci mes name density comp) d.cells ces := by
  obtain ⟨f, d', h⟩ := convertible_finishes (quick := quick) hio hr hd
  have hw := scone_ready hio hsci hlit hr hd hs h (hread _ _ h)
  obtain ⟨f1, h1⟩ := C92_scone_partial { e with fuel := f } hio ho cosDeg tanSq quick read nucsOf rank text d d' hr hd.proper (.inr hd.sheets) h hw
  obtain ⟨f2, h2⟩ := C95_scone_partial { e with fuel := f } hio ho cosDeg tanSq quick read nucsOf rank text d d' hr hd.proper (.inr hd.sheets) hd.defined hd.atoms h hw
  refine ⟨max f (max f1 f2), d', fun fuel hff => ⟨finishDeck_mono (le_trans (le_max_left _ _) hff) h, ?_⟩⟩
  obtain ⟨out, gs, rest, ses, ces, a1, a2, a3, a4, a5, a6⟩ := h1 fuel (le_trans (le_trans (le_max_left _ _) (le_max_right _ _)) hff)
  obtain ⟨out', gs', ns, ces', mes, b1, b2, b3, b4, b5⟩ := h2 fuel (le_trans (le_trans (le_max_right _ _) (le_max_right _ _)) hff)
  cases converts_unique a1 b1
  rw [a2] at b2
  cases b2
  cases a5 _ b3
  exact ⟨out, gs, ns, ses, ces, mes, a1, a2, a3, a4, b4, a6, b5⟩

end

end Csg
