import Verif.Spec.Again
import Verif.Lemmas.Again
import Verif.Props.NestedFile

/-!
# C105: converting the written MCNP file again

The program reads the MCNP file that it wrote and writes it again, any number of times. Nothing drifts: after every run the file has the cells of the first input, with the same points, densities and substances. After the
first run no surfaces and no materials are added.
-/

set_option linter.unusedSectionVars false

namespace Csg

open Spec

section
variable {K : Type} [Field K] [LinearOrder K] [IsStrictOrderedRing K]

theorem writesMcnp_unique {e : Env K} {cosDeg : K → K} {quick : Bool} {text out out' : Str} (h : WritesMcnp e cosDeg quick text out) (h' : WritesMcnp e cosDeg quick text out') : out = out' := by
  obtain ⟨f, h⟩ := h
  obtain ⟨f', h'⟩ := h'
  have := converts_unique (h _ (le_max_left f f')) (h' _ (le_max_right f f'))
  simpa using this

theorem again_unique {e : Env K} {cosDeg : K → K} {quick : Bool} {text : Str} {n : Nat} {out out' : Str} (h : Again e cosDeg quick text n out) (h' : Again e cosDeg quick text n out') : out = out' := by
  induction h generalizing out' with
  | start => cases h'; rfl
  | next _ hw ih =>
    cases h' with
    | next h' hw' =>
      cases ih h'
      exact writesMcnp_unique hw hw'

/-! ## One run -/

private theorem made_trans {io : NumIO K} {cosDeg : K → K} {lines : List Str} {d d2 d3 : Deck K} (hr : readDeck io cosDeg lines = .ok d2) {c c2 c3 : Cell K} (hc : c2 ∈ d2.cells) (hf : c2.fill = c.fill)
    (h : SameContent d d2 c c2) (h' : SameContent d2 d3 c2 c3) : SameContent d d3 c c3 := by
  obtain ⟨z, hz, -⟩ := (readDeck_fresh hr c2 hc).1
  refine ⟨by rw [h'.1, h.1], fun hn => ?_⟩
  obtain ⟨k1, k2⟩ := h.2 hn
  obtain ⟨j1, j2⟩ := h'.2 (by rw [hf, hn])
  have h0 : c2.material.text = c!"0" ↔ z = 0 := by
    rw [hz]
    constructor
    · intro e
      have := parseInt_intStr z
      rw [show intStr z = intStr 0 from e, parseInt_intStr] at this
      exact (Option.some.inj this).symm
    · rintro rfl
      decide
  refine ⟨fun hv => j1 (by rw [hz, h0.1 (k1 hv)]), fun y hy hcy => ?_⟩
  obtain ⟨m, comp, a1, a2, a3, a4, m2, a5, a6⟩ := k2 y hy hcy
  obtain ⟨m2', comp', b1, b2, b3, b4, b5⟩ := j2 z (fun e => a3 (h0.2 e)) hz
  rw [show intStr z = c2.material.text by rw [hz]; rfl, a5] at b1
  cases b1
  rw [a6] at b2
  exact ⟨m, comp', a1, SameSubstance.trans' a2 b2, b3, b4.trans a4, b5⟩

private theorem sameCells_trans {io : NumIO K} {cosDeg sqrt : K → K} {lines : List Str} {d d2 d3 : Deck K} (hr : readDeck io cosDeg lines = .ok d2) (h : SameCells io sqrt d d2) (h' : SameCells io sqrt d2 d3) : SameCells io sqrt d d3 := by
  refine forall₂_trans (S := fun c2 c3 => c2 ∈ d2.cells ∧ c3 ∈ d3.cells ∧ _) ?_ h (forall₂_mem h')
  rintro c c2 c3 ⟨a1, a2, a3, a4, a5⟩ ⟨hc2, -, b1, b2, b3, b4, b5⟩
  exact ⟨by rw [b1, a1], by rw [b2, a2], fun hf p q => (a3 hf p q).trans (b3 (by rw [a1]; exact hf) p q), fun p => (b4 p).trans (a4 p), made_trans hr hc2 a1 a5 b5⟩

/-- The same cells: the same in nested universes. -/
private theorem nested_same {io : NumIO K} {sqrt : K → K} {d d2 : Deck K} (h : SameCells io sqrt d d2) : Agree (DeckFinds io sqrt d) (DeckFinds io sqrt d2) (SameContent d d2) := by
  refine agree_imp (agree_deck (V := fun u u' => u' = u) (io := io) (moves' := DeckMoves io d2) (uni' := fun c u => deckUniverse c = some u) (fill' := deckFill)
    (inside' := fun c => InDeckCell sqrt d2 c.id) h ?_ ?_ ?_ ?_ ?_ rfl) fun c c2 k => k.2.2.2.2
  · rintro c hc c2 u u' ⟨-, k, -⟩ rfl
    rw [deckUniverse, deckUniverse, k]
  · rintro c hc c2 p ⟨-, -, -, k, -⟩
    exact (k p).symm
  · rintro c hc c2 ⟨k, -⟩
    rw [deckFill, deckFill, k]
  · rintro c hc c2 v v' ⟨k, -⟩ hv hv'
    rw [deckFill, k, ← deckFill, hv] at hv'
    cases hv'
    rfl
  · rintro c hc c2 p q ⟨-, -, k, -⟩ hf
    exact k (fun h => hf (deckFill_none h)) p q

/-- What the input of a run has to meet. -/
private structure Rerun (e : Env K) (cosDeg : K → K) (quick : Bool) (rank : Int → Nat) (d : Deck K) : Prop where
  conv : Convertible e.io e.sqrt rank d
  card : CardInput e.io d
  short : ShortCells e.io d
  imps : ∀ (i : Nat) c x, d.cells[i]? = some c → ImportanceIs e.io d i c x → PlainNumber (e.io.render x)
  surfs : ∀ fuel d', finishDeck fuel e.io cosDeg e.sqrt quick d = some (.ok d') → ShortSurfaces e.io d'

/-- What the input of all runs but the first meets besides. -/
private structure Plain (d : Deck K) : Prop where
  surfs : ∀ s ∈ d.surfaces, s.isMacrobody = false ∧ s.transform = none
  one : OneDensity d

private theorem one_run {e : Env K} (hio : Exact e.io) {cosDeg : K → K} {quick : Bool} {rank : Int → Nat} {text : Str} {d : Deck K} (hmn : ∀ mn ∈ printedMnemonics, e.io.parse mn = none)
    (hr : readDeck e.io cosDeg (readText text) = .ok d) (h : Rerun e cosDeg quick rank d) :
    ∃ out d2 f d', WritesMcnp e cosDeg quick text out ∧ readDeck e.io cosDeg (readText out) = .ok d2 ∧ finishDeck f e.io cosDeg e.sqrt quick d = some (.ok d') ∧ ReadBack e.io cosDeg d' d2 ∧ SameCells e.io e.sqrt d d2 := by
  obtain ⟨hd, hc, hs, hi, hss⟩ := h
  obtain ⟨f, d', h⟩ := convertible_finishes (quick := quick) hio hr hd
  have hw := mcnp_ready hio hr hd hc h (short_out hio hr hd h hs) (importance_out hio hd.proper hd.sheets h hi)
  have hw' := card_surfaces hio hr hd h (hss _ _ h)
  obtain ⟨hl, hm⟩ := card_materials hio hr hd h
  have hn : (d'.materials.map fun m => m.2.number).Nodup := by
    rw [show d'.materials.map (fun m => m.2.number) = d'.materials.map Prod.fst from List.map_congr_left fun m hm => hl.2 m hm]
    exact hl.1
  obtain ⟨f1, h1⟩ := C96_mcnp_partial e hio cosDeg quick rank text d hmn hr hd hc hs hi hss
  obtain ⟨out, ⟨f2, hout⟩, d2, hd2, hcells, hsurfs, ⟨sorted, k1, -, k2⟩, k3, k4⟩ := C83_file_partial { e with fuel := f } cosDeg d'.cells d'.surfaces d'.materials hw hw' hmn hm hn
  have b1 : ∀ fuel ≥ max f2 f, Converts { e with fuel := fuel } cosDeg quick text .mcnp (.text out) := by
    intro fuel hf
    refine converts_of (d := d) (d' := d') (e := { e with fuel := fuel }) hr (finishDeck_mono (le_trans (le_max_right _ _) hf) h) (s := ⟨d'.cells, d'.surfaces, d'.materials, []⟩) ?_
    rw [writeCode, returns_bind]
    exact ⟨out, hout fuel (le_trans (le_max_left _ _) hf), by rw [returns_pure]⟩
  refine ⟨out, d2, f, d', ⟨_, b1⟩, hd2, h, ⟨⟨_, hd2⟩, hcells, hsurfs, ⟨sorted, k1, k2⟩, k3, k4⟩, ?_⟩
  obtain ⟨out', d2', a1, a2, a3⟩ := h1 (max f1 (max f2 f)) (le_max_left _ _)
  cases converts_unique a1 (b1 _ (le_max_right _ _))
  rw [show readDeck e.io cosDeg (readText out) = .ok d2 from hd2] at a2
  cases a2
  have hp := nested_processed hio hd.proper (.inr hd.sheets) h
  have hall := forall₂_both a3 (forall₂_trans (T := fun (c c2 : Cell K) => c2.fill = c.fill ∧ c2.uni = c.uni ∧ (c.fill ≠ none → ∀ p q, DeckMoves e.io d c p q ↔ DeckMoves e.io d2 c2 p q))
    (fun c c' c2 x y => ⟨by rw [y.fill, x.2.1], by rw [y.uni, x.2.2.1], fun hf p q => by
      rw [x.2.2.2.2 p q, DeckMoves, deckTransform, if_pos y.trId, same_transform hio y (by rw [x.2.1]; exact hf)]⟩) hp hcells)
  exact forall₂_imp (fun c c2 k => ⟨k.2.1, k.2.2.1, k.2.2.2, k.1.2.1, k.1.1, k.1.2.2⟩) hall

/-- The conditions hold again for the written file. -/
private theorem ready_again {e : Env K} (hio : Exact e.io) {cosDeg : K → K} {quick : Bool} {rank : Int → Nat} {lines : List Str} {d d' d2 : Deck K} {f : Nat} (h0 : (e.io.render 0).length ≤ 24)
    (hr : readDeck e.io cosDeg lines = .ok d) (h : Rerun e cosDeg quick rank d) (hf : finishDeck f e.io cosDeg e.sqrt quick d = some (.ok d')) (hb : ReadBack e.io cosDeg d' d2)
    (hsize : d2.last + 6 * d2.surfaces.length < 10 ^ 58) (hfew : d2.materials.length + d2.cells.length < 10 ^ 9) : Rerun e cosDeg quick rank d2 ∧ Plain d2 := by
  obtain ⟨k1, k2⟩ := hb.short hio hr h.conv h.card hf h.short h0 h.imps
  exact ⟨⟨hb.convertible hio hr h.conv hf hsize hfew, hb.card hio hr h.conv h.card hf h.short h.imps, k1, k2, hb.surfaces_short hio h.conv hf (h.surfs _ _ hf)⟩, hb.plain hio h.conv hf, hb.oneDensity hio hr h.conv hf⟩

private theorem fresh_ints {io : NumIO K} {cosDeg : K → K} {lines : List Str} {d : Deck K} (hr : readDeck io cosDeg lines = .ok d) : ∀ c ∈ d.cells, ∃ z, c.material = .int z := fun c hc => by
  obtain ⟨z, hz, -⟩ := (readDeck_fresh hr c hc).1
  exact ⟨z, hz⟩

/-- A run on a plain deck. -/
private theorem plain_run {e : Env K} (hio : Exact e.io) {cosDeg : K → K} {quick : Bool} {rank : Int → Nat} {text : Str} {d : Deck K} (hmn : ∀ mn ∈ printedMnemonics, e.io.parse mn = none) (h0 : (e.io.render 0).length ≤ 24)
    (hr : readDeck e.io cosDeg (readText text) = .ok d) (h : Rerun e cosDeg quick rank d) (hp : Plain d) :
    ∃ out d2, WritesMcnp e cosDeg quick text out ∧ readDeck e.io cosDeg (readText out) = .ok d2 ∧ Rerun e cosDeg quick rank d2 ∧ Plain d2 ∧ SameCells e.io e.sqrt d d2 ∧
      d2.surfaces.length ≤ d.surfaces.length ∧ d2.materials.length = d.materials.length := by
  obtain ⟨out, d2, f, d', a1, a2, a3, a4, a5⟩ := one_run hio hmn hr h
  obtain ⟨p1, p2, -⟩ := plain_surfaces hp.surfs a3
  have p3 := plain_materials hio h.conv.proper (fresh_ints hr) hp.one a3
  have hlast := (C85_read _ _ _ _ hr).1
  obtain ⟨s1, s2, -, s3, s4⟩ := a4.sizes hio h.conv a3
  have hsz := h.conv.size
  have hfw := h.conv.few
  obtain ⟨k1, k2⟩ := ready_again hio h0 hr h a3 a4 (by omega) (by omega)
  exact ⟨out, d2, a1, a2, k1, k2, a5, by omega, by omega⟩

/-- The first run. -/
private theorem first_run {e : Env K} (hio : Exact e.io) {cosDeg : K → K} {quick : Bool} {rank : Int → Nat} {text : Str} {d : Deck K} (hmn : ∀ mn ∈ printedMnemonics, e.io.parse mn = none) (h0 : (e.io.render 0).length ≤ 24)
    (hr : readDeck e.io cosDeg (readText text) = .ok d) (h : Rerun e cosDeg quick rank d) (hsize : 7 * (d.last + 6 * d.surfaces.length) < 10 ^ 58) (hfew : 2 * (d.materials.length + d.cells.length) < 10 ^ 9) :
    ∃ out d2, WritesMcnp e cosDeg quick text out ∧ readDeck e.io cosDeg (readText out) = .ok d2 ∧ Rerun e cosDeg quick rank d2 ∧ Plain d2 ∧ SameCells e.io e.sqrt d d2 := by
  obtain ⟨out, d2, f, d', a1, a2, a3, a4, a5⟩ := one_run hio hmn hr h
  have hlast := (C85_read _ _ _ _ hr).1
  have p1 := processed_last a3
  obtain ⟨s1, s2, s5, s3, s4⟩ := a4.sizes hio h.conv a3
  have p2 := processed_count hr a3 (a4.cells.length_eq.trans s4)
  obtain ⟨k1, k2⟩ := ready_again hio h0 hr h a3 a4 (by omega) (by omega)
  exact ⟨out, d2, a1, a2, k1, k2, a5⟩

private theorem all_runs {e : Env K} (hio : Exact e.io) {cosDeg : K → K} {quick : Bool} {rank : Int → Nat} {text : Str} {d : Deck K} (hmn : ∀ mn ∈ printedMnemonics, e.io.parse mn = none) (h0 : (e.io.render 0).length ≤ 24)
    (hr : readDeck e.io cosDeg (readText text) = .ok d) (h : Rerun e cosDeg quick rank d) (hsize : 7 * (d.last + 6 * d.surfaces.length) < 10 ^ 58) (hfew : 2 * (d.materials.length + d.cells.length) < 10 ^ 9) (n : Nat) :
    ∃ out dn, Again e cosDeg quick text (n + 1) out ∧ readDeck e.io cosDeg (readText out) = .ok dn ∧ Rerun e cosDeg quick rank dn ∧ Plain dn ∧ SameCells e.io e.sqrt d dn := by
  induction n with
  | zero =>
    obtain ⟨out, d2, a1, a2, a3, a4, a5⟩ := first_run hio hmn h0 hr h hsize hfew
    exact ⟨out, d2, .next .start a1, a2, a3, a4, a5⟩
  | succ n ih =>
    obtain ⟨mid, dn, a1, a2, a3, a4, a5⟩ := ih
    obtain ⟨out, d2, b1, b2, b3, b4, b5, -⟩ := plain_run hio hmn h0 a2 a3 a4
    exact ⟨out, d2, .next a1 b1, b2, b3, b4, sameCells_trans a2 a5 b5⟩

/-! ## The theorems -/

/-- **C105** for the deck as read. However often the program is run on its own MCNP file, it finishes, and the file has the cells of the deck at the beginning: the same points, densities and substances, also within nested
universes. Partial: the conditions of C96; the numbers of surfaces, materials and cells leave room for what the first run adds, and zero is written with at most 24 characters. -/
theorem C105_deck_partial (e : Env K) (hio : Exact e.io) (cosDeg : K → K) (quick : Bool) (rank : Int → Nat) (text : Str) (d : Deck K) (hmn : ∀ mn ∈ printedMnemonics, e.io.parse mn = none)
    (h0 : (e.io.render 0).length ≤ 24) (hr : readDeck e.io cosDeg (readText text) = .ok d) (hd : Convertible e.io e.sqrt rank d) (hc : CardInput e.io d) (hs : ShortCells e.io d)
    (hi : ∀ (i : Nat) c x, d.cells[i]? = some c → ImportanceIs e.io d i c x → PlainNumber (e.io.render x))
    (hss : ∀ fuel d', finishDeck fuel e.io cosDeg e.sqrt quick d = some (.ok d') → ShortSurfaces e.io d')
    (hsize : 7 * (d.last + 6 * d.surfaces.length) < 10 ^ 58) (hfew : 2 * (d.materials.length + d.cells.length) < 10 ^ 9) (n : Nat) :
    (∃ out, Again e cosDeg quick text (n + 1) out) ∧
    ∀ out, Again e cosDeg quick text (n + 1) out → ∃ dn, readDeck e.io cosDeg (readText out) = .ok dn ∧ SameCells e.io e.sqrt d dn ∧ Agree (DeckFinds e.io e.sqrt d) (DeckFinds e.io e.sqrt dn) (SameContent d dn) := by
  obtain ⟨out, dn, a1, a2, -, -, a3⟩ := all_runs hio hmn h0 hr ⟨hd, hc, hs, hi, hss⟩ hsize hfew n
  refine ⟨⟨out, a1⟩, fun out' h' => ?_⟩
  cases again_unique a1 h'
  exact ⟨dn, a2, a3, nested_same a3⟩

/-- **C105**, the size of the file: after the first run every further run gives a file with as many materials and cells as the one before, and not more surfaces. Partial as `C105_deck_partial`. -/
theorem C105_size_partial (e : Env K) (hio : Exact e.io) (cosDeg : K → K) (quick : Bool) (rank : Int → Nat) (text : Str) (d : Deck K) (hmn : ∀ mn ∈ printedMnemonics, e.io.parse mn = none)
    (h0 : (e.io.render 0).length ≤ 24) (hr : readDeck e.io cosDeg (readText text) = .ok d) (hd : Convertible e.io e.sqrt rank d) (hc : CardInput e.io d) (hs : ShortCells e.io d)
    (hi : ∀ (i : Nat) c x, d.cells[i]? = some c → ImportanceIs e.io d i c x → PlainNumber (e.io.render x))
    (hss : ∀ fuel d', finishDeck fuel e.io cosDeg e.sqrt quick d = some (.ok d') → ShortSurfaces e.io d')
    (hsize : 7 * (d.last + 6 * d.surfaces.length) < 10 ^ 58) (hfew : 2 * (d.materials.length + d.cells.length) < 10 ^ 9) (n : Nat) (mid out : Str)
    (hm : Again e cosDeg quick text (n + 1) mid) (ho : WritesMcnp e cosDeg quick mid out) :
    ∃ dm dn, readDeck e.io cosDeg (readText mid) = .ok dm ∧ readDeck e.io cosDeg (readText out) = .ok dn ∧
      dn.materials.length = dm.materials.length ∧ dn.cells.length = dm.cells.length ∧ dn.surfaces.length ≤ dm.surfaces.length := by
  obtain ⟨mid', dm, a1, a2, a3, a4, -⟩ := all_runs hio hmn h0 hr ⟨hd, hc, hs, hi, hss⟩ hsize hfew n
  cases again_unique a1 hm
  obtain ⟨out', dn, b1, b2, -, -, b3, b4, b5⟩ := plain_run hio hmn h0 a2 a3 a4
  cases writesMcnp_unique b1 ho
  exact ⟨dm, dn, a2, b2, b5, (List.Forall₂.length_eq b3).symm, b4⟩

/-- **C105** from the text of the input. The cell at a point, found by going down nested universes, and its density and substance are those that the text of the first input describes, however often the program is run.
Partial: the conditions of C103, and those of `C105_deck_partial` on sizes. -/
theorem C105_file_partial (e : Env K) (hio : Exact e.io) (cosDeg : K → K) (quick : Bool) (rank : Int → Nat) (text : Str) (f : InputFile K) (hmn : ∀ mn ∈ printedMnemonics, e.io.parse mn = none)
    (h0 : (e.io.render 0).length ≤ 24) (hf : FileSays e.io text f) (hc : ConvertibleFile e.io cosDeg e.sqrt rank f) (hk : CardFile f) (hroom : RoomyFile f)
    (hi : ∀ (i : Nat) c x, f.cells[i]? = some c → FileImportance e.io f i c x → PlainNumber (e.io.render x))
    (hread : ∀ d fuel d', readDeck e.io cosDeg (readText text) = .ok d → finishDeck fuel e.io cosDeg e.sqrt quick d = some (.ok d') → ShortCells e.io d ∧ ShortSurfaces e.io d')
    (hn : NumberedTransforms f) (n : Nat) :
    (∃ out, Again e cosDeg quick text (n + 1) out) ∧
    ∀ out, Again e cosDeg quick text (n + 1) out → ∃ dn, readDeck e.io cosDeg (readText out) = .ok dn ∧
      Agree (FileFinds e.io cosDeg e.sqrt f) (DeckFinds e.io e.sqrt dn) fun c c2 => c2.id = c.number ∧ FileMadeOf f c (c2.material.text = c!"0")
        fun density comp => c2.material.text ≠ c!"0" ∧ c2.density = density ∧ ∃ m2, dn.materials.lookup c2.material.text = some m2 ∧ m2.composition = comp := by
  obtain ⟨d, hr, ha, hs, hl⟩ := read_file e.io cosDeg e.sqrt text f hf
  have hd := convertible_file hf hr ha hs hl hc
  obtain ⟨fu, d', hfin⟩ := convertible_finishes (quick := quick) hio hr hd
  have hlen : d.surfaces.length = f.surfaces.length := ha.surfaces.length_eq.symm
  have hsize : 7 * (d.last + 6 * d.surfaces.length) < 10 ^ 58 := by
    rcases (C85_read _ _ _ _ hr).2.2.1 with e0 | ⟨s, hs', e0⟩
    · rw [e0, hlen]
      cases hfs : f.surfaces with
      | nil => norm_num
      | cons x l =>
        have k1 := (hc.numbers.2 x (by rw [hfs]; simp)).1
        have k2 := hroom.1 x (by rw [hfs]; simp)
        rw [hfs] at k2
        omega
    · obtain ⟨x, hx, k⟩ := forall₂_right ha.surfaces s hs'
      rw [← e0, k.number, hlen]
      exact hroom.1 x hx
  have hfew : 2 * (d.materials.length + d.cells.length) < 10 ^ 9 := by
    have h1 : d.cells.length = f.cells.length := ha.cells.length_eq.symm
    have h2 : d.materials.length ≤ f.materials.length := by
      have := (readDeck_listed hr).1.subperm (l₂ := f.materials.map fun m => natStr m.1) (fun n hn => by
        obtain ⟨m, hm, e⟩ := (ha.materials n).1 hn
        exact List.mem_map.2 ⟨m, hm, e.symm⟩)
      simpa using this.length_le
    have := hroom.2
    omega
  obtain ⟨h1, h2⟩ := C105_deck_partial e hio cosDeg quick rank text d hmn h0 hr hd (card_file ha hc hk) (hread d fu d' hr hfin).1
    (fun i c x hcx hx => by
      obtain ⟨y, hy, k⟩ := forall₂_getElem? ha.cells.flip hcx
      exact hi i y x hy (file_importance ha hf.importances k hx))
    (fun fuel d' h => (hread d fuel d' hr h).2) hsize hfew n
  refine ⟨h1, fun out ho => ?_⟩
  obtain ⟨dn, k1, -, k2⟩ := h2 out ho
  exact ⟨dn, k1, agree_trans (agree_file hf hn ha hc) k2 fun a b c k j => ⟨by rw [j.1, k.2.number], made_of ha hc (fun c hc => (file_legal hf c hc).2) k.1 k.2 j.2⟩⟩

end

end Csg
