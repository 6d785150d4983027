import Verif.Spec.Reordered
import Verif.Lemmas.SameSubstance
import Verif.Props.FromText
import Verif.Lemmas.FormatE
import Verif.Lemmas.MixedIO

/-!
# C110: the order of the cards
-/

set_option linter.unusedSectionVars false

namespace Csg

open Spec

section
variable {K : Type} [Field K] [LinearOrder K] [IsStrictOrderedRing K]
variable {io : NumIO K} {cosDeg sqrt : K → K} {rank : Int → Nat} {f f' : InputFile K}

private theorem lookup_perm {A B : Type} [BEq A] [LawfulBEq A] {l l' : List (A × B)} (h : l.Perm l') (hn : (l.map Prod.fst).Nodup) (a : A) : l.lookup a = l'.lookup a := by
  induction h with
  | nil => rfl
  | cons x _ ih =>
    rw [List.map_cons, List.nodup_cons] at hn
    obtain ⟨k, v⟩ := x
    rw [List.lookup_cons, List.lookup_cons, ih hn.2]
  | swap x y l =>
    obtain ⟨k, v⟩ := x
    obtain ⟨k', v'⟩ := y
    simp only [List.map_cons, List.nodup_cons, List.mem_cons, not_or] at hn
    simp only [List.lookup_cons]
    by_cases h1 : a = k
    · have h2 : (a == k') = false := beq_eq_false_iff_ne.2 fun e => hn.1.1 (e.symm.trans h1)
      rw [h2]
    · rw [show (a == k) = false from beq_eq_false_iff_ne.2 h1]
  | trans h1 h2 ih1 ih2 =>
    rw [ih1 hn]
    exact ih2 ((h1.map Prod.fst).nodup_iff.1 hn)

private theorem materials_perm (h : Reordered f f') : f.materials.Perm f'.materials := h.data.filterMap _
private theorem transforms_perm (h : Reordered f f') : f.transforms.Perm f'.transforms := h.data.filterMap _

private theorem importances_nil (h : Reordered f f') : f'.importances = [] := by
  have := h.data.filterMap fun | .importance v => some v | _ => (none : Option (List K))
  have e : f.importances.Perm f'.importances := this
  rw [h.importances] at e
  exact e.symm.eq_nil

private theorem place_eq (h : Reordered f f') (ht : (f.transforms.map Prod.fst).Nodup) : f.place cosDeg = f'.place cosDeg := by
  funext tr p
  unfold InputFile.place
  cases tr with
  | none => rfl
  | some n => simp only [lookup_perm (transforms_perm h) ht n]

private theorem sense_eq (h : Reordered f f') (ht : (f.transforms.map Prod.fst).Nodup) (p : Point K) : entrySense cosDeg sqrt f p = entrySense cosDeg sqrt f' p := by
  funext w
  unfold entrySense
  simp only [place_eq h ht, h.surfaces.mem_iff]

/-- The cells of the two files have the same points. -/
theorem C110_points (h : Reordered f f') (ht : (f.transforms.map Prod.fst).Nodup) (n : Int) (p : Point K) : InFileCell cosDeg sqrt f n p ↔ InFileCell cosDeg sqrt f' n p := by
  unfold InFileCell
  simp only [sense_eq h ht, h.cells.mem_iff]

private theorem symm (h : Reordered f f') : Reordered f' f := ⟨h.cells.symm, h.surfaces.symm, h.data.symm, importances_nil h⟩

private theorem universe_mono (h : Reordered f f') {u : Int} (hu : FileUniverse f u) : FileUniverse f' u := by
  induction hu with
  | root => exact .root
  | fill he h1 _ h2 h3 ih => exact .fill (h.cells.mem_iff.1 he) h1 ih h2 h3

private theorem geometry_reordered (h : Reordered f f') (e : CellEntry K) : InFileGeometry f e ↔ InFileGeometry f' e :=
  ⟨fun ⟨u, h1, h2⟩ => ⟨u, h1, universe_mono h h2⟩, fun ⟨u, h1, h2⟩ => ⟨u, h1, universe_mono (symm h) h2⟩⟩

private theorem known_mono (h : Reordered f f') {w : Str} (hw : KnownEntry f w) : KnownEntry f' w := by
  unfold KnownEntry at *
  simpa only [h.surfaces.mem_iff] using hw

private theorem importance_iff (h : Reordered f f') (i j : Nat) (e : CellEntry K) (x : K) : FileImportance io f i e x ↔ FileImportance io f' j e x := by
  unfold FileImportance
  rw [h.importances, importances_nil h]
  simp

/-- If one of the files can be converted, so can the other. -/
theorem C110_convertible (h : Reordered f f') (ht : (f.transforms.map Prod.fst).Nodup) (hc : ConvertibleFile io cosDeg sqrt rank f) : ConvertibleFile io cosDeg sqrt rank f' where
  numbers := by
    refine ⟨(h.surfaces.map _).nodup_iff.1 hc.numbers.1, fun s hs => ?_⟩
    rw [← h.surfaces.length_eq]
    exact hc.numbers.2 s (h.surfaces.mem_iff.2 hs)
  surfaces := fun s hs => hc.surfaces s (h.surfaces.mem_iff.2 hs)
  moved := fun s hs n hn => by
    obtain ⟨h1, h2⟩ := hc.moved s (h.surfaces.mem_iff.2 hs) n hn
    rw [place_eq h ht] at h2
    exact ⟨((transforms_perm h).map _).mem_iff.1 h1, h2⟩
  cells := by
    refine ⟨(h.cells.map _).nodup_iff.1 hc.cells.1, ?_⟩
    rw [← (materials_perm h).length_eq, ← h.cells.length_eq]
    exact hc.cells.2
  words := fun c hm w hw => known_mono h (hc.words c (h.cells.mem_iff.2 hm) w hw)
  complements := fun c hm w hw hh => by
    obtain ⟨n, c', h1, h2⟩ := hc.complements c (h.cells.mem_iff.2 hm) w hw hh
    exact ⟨n, c', h.cells.mem_iff.1 h1, h2⟩
  materials := fun c hm m x hx => by
    obtain ⟨n, h1, h2⟩ := hc.materials c (h.cells.mem_iff.2 hm) m x hx
    exact ⟨n, ((materials_perm h).map _).mem_iff.1 h1, h2⟩
  cards := fun m hm => hc.cards m ((materials_perm h).mem_iff.2 hm)
  fills := fun c hm d ws hw => by
    rcases hc.fills c (h.cells.mem_iff.2 hm) d ws hw with ⟨n, h1, h2⟩ | h1
    · exact .inl ⟨n, ((transforms_perm h).map _).mem_iff.1 h1, h2⟩
    · exact .inr h1
  importances := by
    rw [importances_nil h]
    exact fun _ hv => absurd hv List.not_mem_nil
  outside := fun i c hi hx w z hw hz => by
    have hm : c ∈ f.cells := h.cells.mem_iff.2 (List.mem_of_getElem? hi)
    obtain ⟨j, hj⟩ := List.getElem?_of_mem hm
    obtain ⟨s, h1, h2⟩ := hc.outside j c hj ((importance_iff h j i c 0).2 hx) w z hw hz
    exact ⟨s, h.surfaces.mem_iff.1 h1, h2⟩

private theorem openmc_reordered (h : Reordered f f') (ho : OpenmcFile f) : OpenmcFile f' where
  nuclides := fun m hm => ho.nuclides m ((materials_perm h).mem_iff.2 hm)
  universes := fun c hc => ho.universes c (h.cells.mem_iff.2 hc)
  root := by
    obtain ⟨c, h1, h2⟩ := ho.root
    exact ⟨c, h.cells.mem_iff.1 h1, h2⟩
  nested := by
    obtain ⟨depth, hd⟩ := ho.nested
    exact ⟨depth, fun c hc => hd c (h.cells.mem_iff.2 hc)⟩

private theorem card_reordered (h : Reordered f f') (hk : CardFile f) : CardFile f' where
  ids := fun c hc => hk.ids c (h.cells.mem_iff.2 hc)
  universes := fun c hc => hk.universes c (h.cells.mem_iff.2 hc)
  moves := fun c hc => hk.moves c (h.cells.mem_iff.2 hc)

/-! ## Materials -/

private theorem both_made (h : Reordered f f') (hm : (f.materials.map Prod.fst).Nodup) {c : CellEntry K} {void void' : Prop} {has has' : K → List (Str × K) → Prop} (h1 : FileMadeOf f c void has)
    (h2 : FileMadeOf f' c void' has') : SameFilling c void void' has has' := by
  intro hfill
  have k1 := h1 hfill
  have k2 := h2 hfill
  cases hx : c.content with
  | none =>
    rw [hx] at k1 k2
    exact ⟨k1, k2⟩
  | some mx =>
    obtain ⟨m, x⟩ := mx
    rw [hx] at k1 k2
    obtain ⟨n, entries, fracs, comp, a, i1, i2, i3, i4, i5⟩ := k1
    obtain ⟨n', entries', fracs', comp', b, j1, j2, j3, j4, j5⟩ := k2
    obtain rfl : n = n' := by omega
    have e : (entries, fracs) = (entries', fracs') := by
      have j1 := (materials_perm h).mem_iff.2 j1
      have := List.inj_on_of_nodup_map hm i1 j1 rfl
      exact (Prod.mk.inj this).2
    cases e
    exact ⟨a, b, substance_perm (composition_perm i3 j3) i4 j4, i5, j5⟩

/-! ## Codes -/

/-- **C110** for OpenMC (partial). Two texts with the same cards in different orders are converted to files with the same cells. Missing is what is missing in C100, and importance cards. -/
theorem C110_openmc_partial (e : Env K) (hio : Exact e.io) (cosDeg : K → K) (quick : Bool) (rank : Int → Nat) (text text' : Str) (f f' : InputFile K) (hf : FileSays e.io text f) (hf' : FileSays e.io text' f')
    (h : Reordered f f') (hc : ConvertibleFile e.io cosDeg e.sqrt rank f) (ho : OpenmcFile f) :
    ∃ fuel₀, ∀ fuel ≥ fuel₀, ∃ g m g' m' xs es ys xs' es' ys', Converts { e with fuel := fuel } cosDeg quick text .openmc (.xml g m) ∧ Converts { e with fuel := fuel } cosDeg quick text' .openmc (.xml g' m') ∧
      openmcGeometry g = some (xs, es) ∧ openmcMaterials m = some ys ∧ openmcGeometry g' = some (xs', es') ∧ openmcMaterials m' = some ys' ∧
      (∀ n, n ∈ es.map (·.id) ↔ n ∈ es'.map (·.id)) ∧
      ∀ x ∈ es, ∀ x' ∈ es', x.id = x'.id → ∃ c ∈ f.cells, x.id = intStr c.number ∧ (∀ p, InOpenmc e.sqrt e.io xs x p ↔ InOpenmc e.sqrt e.io xs' x' p) ∧
        SameFilling c (x.material = some c!"void") (x'.material = some c!"void") (fun density comp => x.material ≠ some c!"void" ∧ OpenmcHas e.io ys x density comp)
          (fun density comp => x'.material ≠ some c!"void" ∧ OpenmcHas e.io ys' x' density comp) := by
  obtain ⟨n1, h1⟩ := C100_openmc_partial e hio cosDeg quick rank text f hf hc ho
  obtain ⟨n2, h2⟩ := C100_openmc_partial e hio cosDeg quick rank text' f' hf' (C110_convertible h hf.transforms hc) (openmc_reordered h ho)
  refine ⟨max n1 n2, fun fuel hfu => ?_⟩
  obtain ⟨g, m, xs, es, ys, a1, a2, a3, a4, a5⟩ := h1 fuel (le_trans (le_max_left ..) hfu)
  obtain ⟨g', m', xs', es', ys', b1, b2, b3, b4, b5⟩ := h2 fuel (le_trans (le_max_right ..) hfu)
  refine ⟨g, m, g', m', xs, es, ys, xs', es', ys', a1, b1, a2, a3, b2, b3, fun n => ?_, fun x hx x' hx' e => ?_⟩
  · constructor
    · intro hn
      obtain ⟨x, hx, rfl⟩ := List.mem_map.1 hn
      obtain ⟨c, k1, k2, k3, -⟩ := a5 x hx
      obtain ⟨x', hx', k4⟩ := b4 c (h.cells.mem_iff.1 k1) ((geometry_reordered h c).1 k2)
      exact List.mem_map.2 ⟨x', hx', k4.trans k3.symm⟩
    · intro hn
      obtain ⟨x, hx, rfl⟩ := List.mem_map.1 hn
      obtain ⟨c, k1, k2, k3, -⟩ := b5 x hx
      obtain ⟨x', hx', k4⟩ := a4 c (h.cells.mem_iff.2 k1) ((geometry_reordered h c).2 k2)
      exact List.mem_map.2 ⟨x', hx', k4.trans k3.symm⟩
  · obtain ⟨c, k1, k2, k3, k4, k5⟩ := a5 x hx
    obtain ⟨c', j1, j2, j3, j4, j5⟩ := b5 x' hx'
    have en : c.number = c'.number := intStr_injective (by rw [← k3, e, j3])
    obtain rfl : c = c' := List.inj_on_of_nodup_map hc.cells.1 k1 (h.cells.mem_iff.2 j1) en
    exact ⟨c, k1, k3, fun p => by rw [k4, j4, C110_points h hf.transforms], both_made h hf.materials k5 j5⟩

/-- **C110** for Serpent (partial). Also missing: the texts of numbers must fit on a card and be such that Serpent reads them (`hread`, `hread'`). -/
theorem C110_serpent_partial (e : Env K) (hio : Exact e.io) (cosDeg : K → K) (quick : Bool) (read : Str → Option K) (approx : K → K) (rank : Int → Nat) (text text' : Str) (f f' : InputFile K)
    (hsci : ∀ x, FloatText (e.sci x) ∧ e.io.parse (e.sci x) = some (approx x)) (hf : FileSays e.io text f) (hf' : FileSays e.io text' f') (h : Reordered f f')
    (hc : ConvertibleFile e.io cosDeg e.sqrt rank f) (hk : CardFile f)
    (hread : ∀ d fuel d', readDeck e.io cosDeg (readText text) = .ok d → finishDeck fuel e.io cosDeg e.sqrt quick d = some (.ok d') →
      ShortCells e.io d ∧ PrintedSurfaces read e.io d' ∧ ∀ s ∈ d.surfaces, IsCone s.type ∨ IsTorus s.type → ∀ x ∈ s.coeffs, Prints read e.fixed x)
    (hread' : ∀ d fuel d', readDeck e.io cosDeg (readText text') = .ok d → finishDeck fuel e.io cosDeg e.sqrt quick d = some (.ok d') →
      ShortCells e.io d ∧ PrintedSurfaces read e.io d' ∧ ∀ s ∈ d.surfaces, IsCone s.type ∨ IsTorus s.type → ∀ x ∈ s.coeffs, Prints read e.fixed x) :
    ∃ fuel₀, ∀ fuel ≥ fuel₀, ∃ out cards out' cards', Converts { e with fuel := fuel } cosDeg quick text .serpent (.text out) ∧ Converts { e with fuel := fuel } cosDeg quick text' .serpent (.text out') ∧
      serpentCards out = ([], cards) ∧ serpentCards out' = ([], cards') ∧ (serpentRegions cards).length = f.cells.length ∧ (serpentRegions cards').length = f.cells.length ∧
      ∀ c ∈ f.cells, (∃ g g', some (intStr c.number, g) ∈ serpentRegions cards ∧ some (intStr c.number, g') ∈ serpentRegions cards' ∧ ∀ p, InSerpent e.sqrt read cards g p ↔ InSerpent e.sqrt read cards' g' p) ∧
        ∃ x ∈ serpentFillings cards, ∃ x' ∈ serpentFillings cards', SameFilling c (x = some (intStr c.number, c!"void")) (x' = some (intStr c.number, c!"void"))
          (fun density comp => ∃ name, name ≠ c!"void" ∧ name ≠ c!"outside" ∧ x = some (intStr c.number, name) ∧ SerpentHas e.io approx cards name density comp)
          (fun density comp => ∃ name, name ≠ c!"void" ∧ name ≠ c!"outside" ∧ x' = some (intStr c.number, name) ∧ SerpentHas e.io approx cards' name density comp) := by
  obtain ⟨n1, h1⟩ := C100_serpent_partial e hio cosDeg quick read approx rank text f hsci hf hc hk hread
  obtain ⟨n2, h2⟩ := C100_serpent_partial e hio cosDeg quick read approx rank text' f' hsci hf' (C110_convertible h hf.transforms hc) (card_reordered h hk) hread'
  refine ⟨max n1 n2, fun fuel hfu => ?_⟩
  obtain ⟨out, cards, a1, a2, a3, a4⟩ := h1 fuel (le_trans (le_max_left ..) hfu)
  obtain ⟨out', cards', b1, b2, b3, b4⟩ := h2 fuel (le_trans (le_max_right ..) hfu)
  refine ⟨out, cards, out', cards', a1, b1, a2, b2, a3.length_eq.symm, b3.length_eq.symm.trans h.cells.length_eq.symm, fun c hc => ⟨?_, ?_⟩⟩
  · obtain ⟨r, hr, g, rfl, k1⟩ := forall₂_exists_left a3 hc
    obtain ⟨r', hr', g', rfl, k2⟩ := forall₂_exists_left b3 (h.cells.mem_iff.1 hc)
    exact ⟨g, g', hr, hr', fun p => by rw [k1, k2, C110_points h hf.transforms]⟩
  · obtain ⟨x, hx, k1⟩ := forall₂_exists_left a4 hc
    obtain ⟨x', hx', k2⟩ := forall₂_exists_left b4 (h.cells.mem_iff.1 hc)
    exact ⟨x, hx, x', hx', both_made h hf.materials k1 k2⟩

/-- **C110** for PHITS (partial). Also missing: the texts of numbers and of library names must fit on a card (`hread`, `hread'`). -/
theorem C110_phits_partial (e : Env K) (hio : Exact e.io) (cosDeg : K → K) (quick : Bool) (rank : Int → Nat) (text text' : Str) (f f' : InputFile K) (hf : FileSays e.io text f) (hf' : FileSays e.io text' f')
    (h : Reordered f f') (hc : ConvertibleFile e.io cosDeg e.sqrt rank f) (hk : CardFile f)
    (hread : ∀ d fuel d', readDeck e.io cosDeg (readText text) = .ok d → finishDeck fuel e.io cosDeg e.sqrt quick d = some (.ok d') →
      ShortCells e.io d ∧ ShortSurfaces e.io d' ∧ ∀ m ∈ d.materials, PrintableXs m.2)
    (hread' : ∀ d fuel d', readDeck e.io cosDeg (readText text') = .ok d → finishDeck fuel e.io cosDeg e.sqrt quick d = some (.ok d') →
      ShortCells e.io d ∧ ShortSurfaces e.io d' ∧ ∀ m ∈ d.materials, PrintableXs m.2) :
    ∃ fuel₀, ∀ fuel ≥ fuel₀, ∃ out secs sl cl ml scards ccards mcards out' secs' sl' cl' ml' scards' ccards' mcards',
      (Converts { e with fuel := fuel } cosDeg quick text .phits (.text out) ∧ phitsSections (readlines out) = ([], secs) ∧
        secs.lookup c!"surface" = some sl ∧ secs.lookup c!"cell" = some cl ∧ secs.lookup c!"material" = some ml ∧ phitsCards sl = ([], scards) ∧ phitsCards cl = ([], ccards) ∧ phitsCards ml = ([], mcards)) ∧
      (Converts { e with fuel := fuel } cosDeg quick text' .phits (.text out') ∧ phitsSections (readlines out') = ([], secs') ∧
        secs'.lookup c!"surface" = some sl' ∧ secs'.lookup c!"cell" = some cl' ∧ secs'.lookup c!"material" = some ml' ∧ phitsCards sl' = ([], scards') ∧ phitsCards cl' = ([], ccards') ∧
        phitsCards ml' = ([], mcards')) ∧
      ccards.length = f.cells.length ∧ ccards'.length = f.cells.length ∧
      ∀ c ∈ f.cells, (∃ card ∈ ccards, ∃ card' ∈ ccards', ∃ g g', phitsRegion card = some (intStr c.number, g) ∧ phitsRegion card' = some (intStr c.number, g') ∧
          ∀ p, InPhits e.sqrt e.io scards g p ↔ InPhits e.sqrt e.io scards' g' p) ∧
        ∃ card ∈ ccards, ∃ card' ∈ ccards', SameFilling c (phitsFilling card = some (intStr c.number, c!"0", none)) (phitsFilling card' = some (intStr c.number, c!"0", none))
          (fun density comp => ∃ name dw, name ≠ c!"0" ∧ phitsFilling card = some (intStr c.number, name, some dw) ∧ e.io.parse dw = some density ∧ PhitsHas e.io mcards name comp)
          (fun density comp => ∃ name dw, name ≠ c!"0" ∧ phitsFilling card' = some (intStr c.number, name, some dw) ∧ e.io.parse dw = some density ∧ PhitsHas e.io mcards' name comp) := by
  obtain ⟨n1, h1⟩ := C100_phits_partial e hio cosDeg quick rank text f hf hc hk hread
  obtain ⟨n2, h2⟩ := C100_phits_partial e hio cosDeg quick rank text' f' hf' (C110_convertible h hf.transforms hc) (card_reordered h hk) hread'
  refine ⟨max n1 n2, fun fuel hfu => ?_⟩
  obtain ⟨out, secs, sl, cl, ml, sc, cc, mc, a1, a2, a3, a4, a5, a6, a7, a8, a9, a10⟩ := h1 fuel (le_trans (le_max_left ..) hfu)
  obtain ⟨out', secs', sl', cl', ml', sc', cc', mc', b1, b2, b3, b4, b5, b6, b7, b8, b9, b10⟩ := h2 fuel (le_trans (le_max_right ..) hfu)
  refine ⟨out, secs, sl, cl, ml, sc, cc, mc, out', secs', sl', cl', ml', sc', cc', mc', ⟨a1, a2, a3, a4, a5, a6, a7, a8⟩, ⟨b1, b2, b3, b4, b5, b6, b7, b8⟩, a9.length_eq.symm,
    b9.length_eq.symm.trans h.cells.length_eq.symm, fun c hc => ⟨?_, ?_⟩⟩
  · obtain ⟨r, hr, g, i1, k1⟩ := forall₂_exists_left a9 hc
    obtain ⟨r', hr', g', i2, k2⟩ := forall₂_exists_left b9 (h.cells.mem_iff.1 hc)
    exact ⟨r, hr, r', hr', g, g', i1, i2, fun p => by rw [k1, k2, C110_points h hf.transforms]⟩
  · obtain ⟨x, hx, k1⟩ := forall₂_exists_left a10 hc
    obtain ⟨x', hx', k2⟩ := forall₂_exists_left b10 (h.cells.mem_iff.1 hc)
    exact ⟨x, hx, x', hx', both_made h hf.materials k1 k2⟩

/-- **C110** for MCNP (partial). The written files are read again. Also missing: the texts of numbers must fit on a card (`hread`, `hread'`), and importances must have texts that the reader of cell cards takes (`hi`). -/
theorem C110_mcnp_partial (e : Env K) (hio : Exact e.io) (cosDeg : K → K) (quick : Bool) (rank : Int → Nat) (text text' : Str) (f f' : InputFile K) (hmn : ∀ mn ∈ printedMnemonics, e.io.parse mn = none)
    (hf : FileSays e.io text f) (hf' : FileSays e.io text' f') (h : Reordered f f') (hc : ConvertibleFile e.io cosDeg e.sqrt rank f) (hk : CardFile f)
    (hi : ∀ (i : Nat) c x, f.cells[i]? = some c → FileImportance e.io f i c x → PlainNumber (e.io.render x))
    (hread : ∀ d fuel d', readDeck e.io cosDeg (readText text) = .ok d → finishDeck fuel e.io cosDeg e.sqrt quick d = some (.ok d') → ShortCells e.io d ∧ ShortSurfaces e.io d')
    (hread' : ∀ d fuel d', readDeck e.io cosDeg (readText text') = .ok d → finishDeck fuel e.io cosDeg e.sqrt quick d = some (.ok d') → ShortCells e.io d ∧ ShortSurfaces e.io d') :
    ∃ fuel₀, ∀ fuel ≥ fuel₀, ∃ out d2 out' d2', Converts { e with fuel := fuel } cosDeg quick text .mcnp (.text out) ∧ readDeck e.io cosDeg (readText out) = .ok d2 ∧
      Converts { e with fuel := fuel } cosDeg quick text' .mcnp (.text out') ∧ readDeck e.io cosDeg (readText out') = .ok d2' ∧ d2.cells.length = f.cells.length ∧ d2'.cells.length = f.cells.length ∧
      ∀ c ∈ f.cells, ∃ c2 ∈ d2.cells, ∃ c2' ∈ d2'.cells, c2.id = c.number ∧ c2'.id = c.number ∧ (∀ p, InDeckCell e.sqrt d2 c2.id p ↔ InDeckCell e.sqrt d2' c2'.id p) ∧
        SameFilling c (c2.material.text = c!"0") (c2'.material.text = c!"0")
          (fun density comp => c2.material.text ≠ c!"0" ∧ c2.density = density ∧ ∃ m2, d2.materials.lookup c2.material.text = some m2 ∧ m2.composition = comp)
          (fun density comp => c2'.material.text ≠ c!"0" ∧ c2'.density = density ∧ ∃ m2, d2'.materials.lookup c2'.material.text = some m2 ∧ m2.composition = comp) := by
  obtain ⟨n1, h1⟩ := C100_mcnp_partial e hio cosDeg quick rank text f hmn hf hc hk hi hread
  have hi' : ∀ (i : Nat) c x, f'.cells[i]? = some c → FileImportance e.io f' i c x → PlainNumber (e.io.render x) := fun i c x hx hm => by
    obtain ⟨j, hj⟩ := List.getElem?_of_mem (h.cells.mem_iff.2 (List.mem_of_getElem? hx))
    exact hi j c x hj ((importance_iff h j i c x).2 hm)
  obtain ⟨n2, h2⟩ := C100_mcnp_partial e hio cosDeg quick rank text' f' hmn hf' (C110_convertible h hf.transforms hc) (card_reordered h hk) hi' hread'
  refine ⟨max n1 n2, fun fuel hfu => ?_⟩
  obtain ⟨out, d2, a1, a2, a3⟩ := h1 fuel (le_trans (le_max_left ..) hfu)
  obtain ⟨out', d2', b1, b2, b3⟩ := h2 fuel (le_trans (le_max_right ..) hfu)
  refine ⟨out, d2, out', d2', a1, a2, b1, b2, a3.length_eq.symm, b3.length_eq.symm.trans h.cells.length_eq.symm, fun c hc => ?_⟩
  obtain ⟨r, hr, i1, i2, i3⟩ := forall₂_exists_left a3 hc
  obtain ⟨r', hr', j1, j2, j3⟩ := forall₂_exists_left b3 (h.cells.mem_iff.1 hc)
  exact ⟨r, hr, r', hr', i1, j1, fun p => by rw [i2, j2, C110_points h hf.transforms], both_made h hf.materials i3 j3⟩

private theorem fluka_reordered (h : Reordered f f') (ht : (f.transforms.map Prod.fst).Nodup) (hk : FlukaFile io cosDeg sqrt f) : FlukaFile io cosDeg sqrt f' where
  surfaces := fun s hs => by
    rw [← place_eq h ht]
    exact hk.surfaces s (h.surfaces.mem_iff.2 hs)
  hashes := fun c hc => hk.hashes c (h.cells.mem_iff.2 hc)
  ids := fun c hc => hk.ids c (h.cells.mem_iff.2 hc)
  importances := fun i c x hc hx => by
    obtain ⟨j, hj⟩ := List.mem_iff_getElem?.1 (h.cells.mem_iff.2 (List.mem_of_getElem? hc))
    exact hk.importances j c x hj ((importance_iff h j i c x).2 hx)
  nuclides := fun m hm => hk.nuclides m ((materials_perm h).mem_iff.2 hm)
  densities := fun c hc => hk.densities c (h.cells.mem_iff.2 hc)
  fractions := fun m hm => hk.fractions m ((materials_perm h).mem_iff.2 hm)

private theorem scone_reordered (h : Reordered f f') (hk : SconeFile io f) : SconeFile io f' where
  surfaces := fun s hs => by
    rw [← h.surfaces.length_eq]
    exact hk.surfaces s (h.surfaces.mem_iff.2 hs)
  ids := fun c hc => hk.ids c (h.cells.mem_iff.2 hc)
  densities := ⟨hk.densities.1, fun c hc => hk.densities.2 c (h.cells.mem_iff.2 hc)⟩
  words := fun c hc => hk.words c (h.cells.mem_iff.2 hc)
  universes := fun c hc => hk.universes c (h.cells.mem_iff.2 hc)
  fractions := fun m hm => hk.fractions m ((materials_perm h).mem_iff.2 hm)
  used := by
    rcases hk.used with h1 | ⟨c, h1, h2⟩
    · exact .inl (by simpa [h1] using (materials_perm h).symm)
    · exact .inr ⟨c, h.cells.mem_iff.1 h1, h2⟩

/-- **C110** for FLUKA (partial). Also missing: cones, tori and macrobodies with a transformation are left out, and so are points on the surfaces of the processed decks. -/
theorem C110_fluka_partial (e : Env K) (hio : Exact e.io) (hz : e.io.parse c!"0." = some 0) (hz' : e.io.parse c!"0.0" = some 0) (hzero : (e.io.render 0).length ≤ 10)
    (h3 : ∀ x, x = 0 ∨ 1 / 10 ^ 99 ≤ x → x ≤ 10 ^ 9 → (e.sci3 x).length = 10 ∧ '\n' ∉ e.sci3 x)
    (h4 : ∀ x, 1 / 10 ^ 99 ≤ x → x ≤ 100000 → (e.sci4 x).length ≤ 10 ∧ ' ' ∉ e.sci4 x ∧ '\n' ∉ e.sci4 x) (ho : ∀ l, (e.orderStr l).Perm l)
    (cosDeg : K → K) (quick : Bool) (rank : Int → Nat) (text text' : Str) (f f' : InputFile K) (hf : FileSays e.io text f) (hf' : FileSays e.io text' f')
    (h : Reordered f f') (hc : ConvertibleFile e.io cosDeg e.sqrt rank f) (hk : FlukaFile e.io cosDeg e.sqrt f) :
    ∃ fuel₀ d d' b b', readDeck e.io cosDeg (readText text) = .ok d ∧ readDeck e.io cosDeg (readText text') = .ok b ∧ ∀ fuel ≥ fuel₀,
      finishDeck fuel e.io cosDeg e.sqrt quick d = some (.ok d') ∧ finishDeck fuel e.io cosDeg e.sqrt quick b = some (.ok b') ∧
      ∃ out input out' input', Converts { e with fuel := fuel } cosDeg quick text .fluka (.text out) ∧ flukaRead out = some input ∧
        Converts { e with fuel := fuel } cosDeg quick text' .fluka (.text out') ∧ flukaRead out' = some input' ∧ input.regions.length = f.cells.length ∧ input'.regions.length = f.cells.length ∧
        ∀ c ∈ f.cells, (∃ g ∈ input.regions, ∃ g' ∈ input'.regions, g.1 = c!"C" ++ intStr c.number ∧ g'.1 = c!"C" ++ intStr c.number ∧
            ∀ p, (∀ s ∈ d'.surfaces ++ b'.surfaces, side e.sqrt s.type s.coeffs p ≠ some .on) → (InFluka e.io input.bodies g.2 p ↔ InFluka e.io input'.bodies g'.2 p)) ∧
          ∃ l ∈ input.cards, ∃ l' ∈ input'.cards, field l 0 = c!"ASSIGNMA" ∧ field l' 0 = c!"ASSIGNMA" ∧ field l 2 = c!"C" ++ intStr c.number ∧ field l' 2 = c!"C" ++ intStr c.number ∧
            SameFilling c (field l 1 = c!"BLCKHOLE" ∨ field l 1 = c!"VACUUM") (field l' 1 = c!"BLCKHOLE" ∨ field l' 1 = c!"VACUUM")
              (fun density comp => FlukaHas e.io e.sci3 input.cards (field l 1) density comp) (fun density comp => FlukaHas e.io e.sci3 input'.cards (field l' 1) density comp) := by
  obtain ⟨n1, d, d', r1, h1⟩ := C100_fluka_partial e hio hz hz' hzero h3 h4 ho cosDeg quick rank text f hf hc hk
  obtain ⟨n2, b, b', r2, h2⟩ := C100_fluka_partial e hio hz hz' hzero h3 h4 ho cosDeg quick rank text' f' hf' (C110_convertible h hf.transforms hc) (fluka_reordered h hf.transforms hk)
  refine ⟨max n1 n2, d, d', b, b', r1, r2, fun fuel hfu => ?_⟩
  obtain ⟨a0, out, input, a1, a2, a3, a4⟩ := h1 fuel (le_trans (le_max_left ..) hfu)
  obtain ⟨b0, out', input', b1, b2, b3, b4⟩ := h2 fuel (le_trans (le_max_right ..) hfu)
  refine ⟨a0, b0, out, input, out', input', a1, a2, b1, b2, a3.length_eq.symm, b3.length_eq.symm.trans h.cells.length_eq.symm, fun c hcm => ?_⟩
  have hc1 := h.cells.mem_iff.1 hcm
  refine ⟨?_, ?_⟩
  · obtain ⟨g, hg, i1, k1⟩ := forall₂_exists_left a3 hcm
    obtain ⟨g', hg', i2, k2⟩ := forall₂_exists_left b3 hc1
    exact ⟨g, hg, g', hg', i1, i2, fun p hp => by
      rw [k1 p fun s hs => hp s (List.mem_append_left _ hs), k2 p fun s hs => hp s (List.mem_append_right _ hs), C110_points h hf.transforms]⟩
  · obtain ⟨l, hl, i1, k1⟩ := forall₂_exists_left a4 hcm
    obtain ⟨l', hl', i2, k2⟩ := forall₂_exists_left b4 hc1
    obtain ⟨hl, hl0⟩ := List.mem_filter.1 hl
    obtain ⟨hl', hl0'⟩ := List.mem_filter.1 hl'
    exact ⟨l, hl, l', hl', of_decide_eq_true hl0, of_decide_eq_true hl0', i1, i2, both_made h hf.materials k1 k2⟩

/-- **C110** for SCONE (partial). Also missing: tori and points far from the tip of a cone are left out, and the texts of numbers must be such that SCONE reads them (`hread`, `hread'`). -/
theorem C110_scone_partial (e : Env K) (hio : Exact e.io) (hsci : ∀ x, SconeOrdinary (e.sci x)) (ho : ∀ l, (e.orderInt l).Perm l) (cosDeg tanSq : K → K) (quick : Bool) (read : Str → Option K)
    (hlit : ∀ w x, Literal w x → read w = some x) (rank : Int → Nat) (text text' : Str) (f f' : InputFile K) (hf : FileSays e.io text f) (hf' : FileSays e.io text' f')
    (h : Reordered f f') (hc : ConvertibleFile e.io cosDeg e.sqrt rank f) (hk : SconeFile e.io f)
    (hread : ∀ d fuel d', readDeck e.io cosDeg (readText text) = .ok d → finishDeck fuel e.io cosDeg e.sqrt quick d = some (.ok d') → PrintedSurfaces read e.io d' ∧
      ∀ s ∈ d.surfaces, IsCone s.type → (∀ x ∈ s.coeffs, Prints read e.fixed x) ∧ ∀ t, s.coeffs[3]? = some t → 0 ≤ t ∧ Prints read e.io.render (e.degAtan (e.sqrt t)) ∧ tanSq (e.degAtan (e.sqrt t)) = t)
    (hread' : ∀ d fuel d', readDeck e.io cosDeg (readText text') = .ok d → finishDeck fuel e.io cosDeg e.sqrt quick d = some (.ok d') → PrintedSurfaces read e.io d' ∧
      ∀ s ∈ d.surfaces, IsCone s.type → (∀ x ∈ s.coeffs, Prints read e.fixed x) ∧ ∀ t, s.coeffs[3]? = some t → 0 ≤ t ∧ Prints read e.io.render (e.degAtan (e.sqrt t)) ∧ tanSq (e.degAtan (e.sqrt t)) = t) :
    ∃ fuel₀ d d' b b', readDeck e.io cosDeg (readText text) = .ok d ∧ readDeck e.io cosDeg (readText text') = .ok b ∧ ∀ fuel ≥ fuel₀,
      finishDeck fuel e.io cosDeg e.sqrt quick d = some (.ok d') ∧ finishDeck fuel e.io cosDeg e.sqrt quick b = some (.ok b') ∧
      ∃ out gs ns ses ces mes out' gs' ns' ses' ces' mes',
        (Converts { e with fuel := fuel } cosDeg quick text .scone (.text out) ∧ sconeRead out = some [.dict c!"geometry" gs, .dict c!"nuclearData" ns] ∧
          .dict c!"surfaces" ses ∈ gs ∧ .dict c!"cells" ces ∈ gs ∧ .dict c!"materials" mes ∈ ns) ∧
        (Converts { e with fuel := fuel } cosDeg quick text' .scone (.text out') ∧ sconeRead out' = some [.dict c!"geometry" gs', .dict c!"nuclearData" ns'] ∧
          .dict c!"surfaces" ses' ∈ gs' ∧ .dict c!"cells" ces' ∈ gs' ∧ .dict c!"materials" mes' ∈ ns') ∧ ces.length = f.cells.length ∧ ces'.length = f.cells.length ∧
        ∀ c ∈ f.cells, (∃ x ∈ ces, ∃ x' ∈ ces', ∃ g g', sconeRegion x = some (intStr c.number, g) ∧ sconeRegion x' = some (intStr c.number, g') ∧
            ∀ p, (∀ s ∈ d'.surfaces ++ b'.surfaces, ∀ u, coneOffset s.type s.coeffs p = some u → |u| < 10 ^ 10) → (InScone tanSq read ses g p ↔ InScone tanSq read ses' g' p)) ∧
          ∃ x ∈ ces, ∃ x' ∈ ces', SameFilling c (sconeMaterialOf x = some (intStr c.number, c!"void")) (sconeMaterialOf x' = some (intStr c.number, c!"void"))
            (fun density comp => ∃ name, name ≠ c!"void" ∧ sconeMaterialOf x = some (intStr c.number, name) ∧ SconeHas e.sci mes name density comp)
            (fun density comp => ∃ name, name ≠ c!"void" ∧ sconeMaterialOf x' = some (intStr c.number, name) ∧ SconeHas e.sci mes' name density comp) := by
  obtain ⟨n1, d, d', r1, h1⟩ := C100_scone_partial e hio hsci ho cosDeg tanSq quick read hlit rank text f hf hc hk hread
  obtain ⟨n2, b, b', r2, h2⟩ := C100_scone_partial e hio hsci ho cosDeg tanSq quick read hlit rank text' f' hf' (C110_convertible h hf.transforms hc) (scone_reordered h hk) hread'
  refine ⟨max n1 n2, d, d', b, b', r1, r2, fun fuel hfu => ?_⟩
  obtain ⟨a0, out, gs, ns, ses, ces, mes, a1, a2, a3, a4, a5, a6, a7⟩ := h1 fuel (le_trans (le_max_left ..) hfu)
  obtain ⟨b0, out', gs', ns', ses', ces', mes', b1, b2, b3, b4, b5, b6, b7⟩ := h2 fuel (le_trans (le_max_right ..) hfu)
  refine ⟨a0, b0, out, gs, ns, ses, ces, mes, out', gs', ns', ses', ces', mes', ⟨a1, a2, a3, a4, a5⟩, ⟨b1, b2, b3, b4, b5⟩, a6.length_eq.symm, b6.length_eq.symm.trans h.cells.length_eq.symm, fun c hcm => ?_⟩
  have hc1 := h.cells.mem_iff.1 hcm
  refine ⟨?_, ?_⟩
  · obtain ⟨x, hx, g, i1, k1⟩ := forall₂_exists_left a6 hcm
    obtain ⟨x', hx', g', i2, k2⟩ := forall₂_exists_left b6 hc1
    exact ⟨x, hx, x', hx', g, g', i1, i2, fun p hp => by
      rw [k1 p fun s hs => hp s (List.mem_append_left _ hs), k2 p fun s hs => hp s (List.mem_append_right _ hs), C110_points h hf.transforms]⟩
  · obtain ⟨x, hx, k1⟩ := forall₂_exists_left a7 hcm
    obtain ⟨x', hx', k2⟩ := forall₂_exists_left b7 hc1
    exact ⟨x, hx, x', hx', both_made h hf.materials k1 k2⟩

end

private def env : Env ℚ :=
  { fuel := 100, io := mixedIO, fixed := formatF, sci := formatF, sci4 := fun x => (mixedIO.render x).take 10, sci3 := formatF, sqrt := id, degAtan := id, orderStr := id, orderInt := id }

private def geometry : Str := c!"title\n1 1 -7 -1 imp:n=1\n2 0 1 -2 imp:n=1\n3 0 2 imp:n=0\n\n1 3 so 3\n2 so 9\n\n"

/-- The same cards in another order: with the TR card before the material the MCNP file is written, with the TR card at the end of the file there is an exception. -/
theorem C110_refuted :
    (convert env id true (some [c!"mcnp"]) (geometry ++ c!"tr3 1 0 0\nm1 1001 1.0\n")).run =
      .ok (some [(.mcnp, .text c!"C cell definitions\n1 1 -7.0 -1 IMP:N=1.0\n2 0 1 -2 IMP:N=1.0\n3 0 2 IMP:N=0.0\n\nC surface definitions\n1 gq 1.0 1.0 1.0 0.0 0.0 0.0 -2.0 0.0 0.0 -8.0\n2 s 0.0 0.0 0.0 9.0\n\nC material definitions\nC Material M1\nM1     1001 1.0\n")]) ∧
    (convert env id true (some [c!"mcnp"]) (geometry ++ c!"m1 1001 1.0\ntr3 1 0 0\n")).run = .error .indexError :=
  ⟨by decide +kernel, by decide +kernel⟩

end Csg
