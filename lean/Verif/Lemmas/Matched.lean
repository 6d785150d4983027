import Verif.Spec.SameModel
import Verif.Lemmas.SameSubstance
import Verif.Props.FromText

/-!
# Files whose cells have corresponding points
-/

set_option linter.unusedSectionVars false

namespace Csg

open Spec

section
variable {K : Type} [Field K] [LinearOrder K] [IsStrictOrderedRing K]
variable {io : NumIO K} {cosDeg sqrt : K → K} {φ : Point K → Point K} {f f' : InputFile K}

/-- The cells of the two files have the same numbers, contents and parameters. -/
def SameCard (c c' : CellEntry K) : Prop := c'.number = c.number ∧ c'.content = c.content ∧ c'.params = c.params

/-- The two files differ at most in the geometry, and the points of the cells correspond. -/
structure Matched (cosDeg sqrt : K → K) (φ : Point K → Point K) (f f' : InputFile K) : Prop where
  cells : List.Forall₂ SameCard f.cells f'.cells
  materials : f'.materials = f.materials
  importances : f'.importances = f.importances
  points : ∀ c ∈ f.cells, ∀ p, InFileCell cosDeg sqrt f c.number (φ p) ↔ InFileCell cosDeg sqrt f' c.number p

private theorem uni_eq {e e' : CellEntry K} (h : SameCard e e') : e'.uni = e.uni := by unfold CellEntry.uni; rw [h.2.2]
private theorem fill_eq {e e' : CellEntry K} (h : SameCard e e') : e'.fill = e.fill := by unfold CellEntry.fill; rw [h.2.2]
private theorem moves_eq {e e' : CellEntry K} (h : SameCard e e') : e'.moves = e.moves := by unfold CellEntry.moves; rw [h.2.2]

private theorem universe_iff (h : List.Forall₂ SameCard f.cells f'.cells) (u : Int) : FileUniverse f u ↔ FileUniverse f' u := by
  constructor
  · intro hu
    induction hu with
    | root => exact .root
    | fill he h1 _ h2 h3 ih =>
      obtain ⟨e', he', k⟩ := forall₂_exists_left h he
      exact .fill he' (by rwa [uni_eq k]) ih (by rwa [fill_eq k]) h3
  · intro hu
    induction hu with
    | root => exact .root
    | fill he h1 _ h2 h3 ih =>
      obtain ⟨e', he', k⟩ := forall₂_exists_right h he
      exact .fill he' (by rwa [← uni_eq k]) ih (by rwa [← fill_eq k]) h3

private theorem in_geometry_iff (h : List.Forall₂ SameCard f.cells f'.cells) {e e' : CellEntry K} (k : SameCard e e') : InFileGeometry f e ↔ InFileGeometry f' e' := by
  unfold InFileGeometry
  simp only [universe_iff h, uni_eq k]

theorem openmc_matched (h : List.Forall₂ SameCard f.cells f'.cells) (hm : f'.materials = f.materials) (ho : OpenmcFile f) : OpenmcFile f' where
  nuclides := by
    rw [hm]
    exact ho.nuclides
  universes := fun c' hc' => by
    obtain ⟨c, hc, k⟩ := forall₂_exists_right h hc'
    rw [uni_eq k, fill_eq k]
    exact ho.universes c hc
  root := by
    obtain ⟨c, hc, hu⟩ := ho.root
    obtain ⟨c', hc', k⟩ := forall₂_exists_left h hc
    exact ⟨c', hc', by rwa [uni_eq k]⟩
  nested := by
    obtain ⟨depth, hd⟩ := ho.nested
    refine ⟨depth, fun c' hc' => ?_⟩
    obtain ⟨c, hc, k⟩ := forall₂_exists_right h hc'
    rw [uni_eq k, fill_eq k]
    exact hd c hc

theorem card_matched (h : List.Forall₂ SameCard f.cells f'.cells) (hk : CardFile f) : CardFile f' where
  ids := fun c' hc' => by
    obtain ⟨c, hc, k⟩ := forall₂_exists_right h hc'
    rw [k.1]
    exact hk.ids c hc
  universes := fun c' hc' => by
    obtain ⟨c, hc, k⟩ := forall₂_exists_right h hc'
    rw [uni_eq k, fill_eq k]
    exact hk.universes c hc
  moves := fun c' hc' => by
    obtain ⟨c, hc, k⟩ := forall₂_exists_right h hc'
    rw [moves_eq k]
    exact hk.moves c hc

private theorem both_made (h : f'.materials = f.materials) (hm : (f.materials.map Prod.fst).Nodup) {c c' : CellEntry K} (k : SameCard c c') {void void' : Prop} {has has' : K → List (Str × K) → Prop}
    (h1 : FileMadeOf f c void has) (h2 : FileMadeOf f' c' void' has') : SameFilling c void void' has has' := by
  intro hfill
  have k1 := h1 hfill
  have k2 := h2 (by rwa [fill_eq k])
  rw [k.2.1] at k2
  cases hx : c.content with
  | none =>
    rw [hx] at k1 k2
    exact ⟨k1, k2⟩
  | some mx =>
    obtain ⟨m, x⟩ := mx
    rw [hx] at k1 k2
    obtain ⟨n, entries, fracs, comp, a, i1, i2, i3, i4, i5⟩ := k1
    obtain ⟨n', entries', fracs', comp', b, j1, j2, j3, j4, j5⟩ := k2
    rw [h] at j1
    obtain rfl : n = n' := by omega
    have := List.inj_on_of_nodup_map hm i1 j1 rfl
    have e : (entries, fracs) = (entries', fracs') := (Prod.mk.inj this).2
    cases e
    exact ⟨a, b, substance_perm (composition_perm i3 j3) i4 j4, i5, j5⟩

theorem matched_openmc (e : Env K) (hio : Exact e.io) (cosDeg : K → K) (quick : Bool) (rank rank' : Int → Nat) (text text' : Str) (f f' : InputFile K) (hf : FileSays e.io text f) (hf' : FileSays e.io text' f')
    (h : Matched cosDeg e.sqrt φ f f') (hc : ConvertibleFile e.io cosDeg e.sqrt rank f) (hc' : ConvertibleFile e.io cosDeg e.sqrt rank' f') (ho : OpenmcFile f) :
    ∃ fuel₀, ∀ fuel ≥ fuel₀, ∃ out out', Converts { e with fuel := fuel } cosDeg quick text .openmc out ∧ Converts { e with fuel := fuel } cosDeg quick text' .openmc out' ∧ SameOpenmc e φ f.cells out out' := by
  obtain ⟨n1, h1⟩ := C100_openmc_partial e hio cosDeg quick rank text f hf hc ho
  obtain ⟨n2, h2⟩ := C100_openmc_partial e hio cosDeg quick rank' text' f' hf' hc' (openmc_matched h.cells h.materials ho)
  refine ⟨max n1 n2, fun fuel hfu => ?_⟩
  obtain ⟨g, m, xs, es, ys, a1, a2, a3, a4, a5⟩ := h1 fuel (le_trans (le_max_left ..) hfu)
  obtain ⟨g', m', xs', es', ys', b1, b2, b3, b4, b5⟩ := h2 fuel (le_trans (le_max_right ..) hfu)
  have same : ∀ {a b : CellEntry K}, a ∈ f.cells → b ∈ f.cells → a.number = b.number → a = b := fun ha hb e => List.inj_on_of_nodup_map hc.cells.1 ha hb e
  have same' : ∀ {a b : CellEntry K}, a ∈ f'.cells → b ∈ f'.cells → a.number = b.number → a = b := fun ha hb e => List.inj_on_of_nodup_map hc'.cells.1 ha hb e
  refine ⟨_, _, a1, b1, g, m, g', m', xs, es, ys, xs', es', ys', rfl, rfl, a2, a3, b2, b3, fun x hx => ?_, fun x' hx' => ?_, fun c hcm => ⟨⟨fun hn => ?_, fun hn => ?_⟩, fun x hx x' hx' e1 e2 => ?_⟩⟩
  · obtain ⟨c, k1, k2, k3, -⟩ := a5 x hx
    exact ⟨c, k1, k3⟩
  · obtain ⟨c', k1, k2, k3, -⟩ := b5 x' hx'
    obtain ⟨c, hcm, k⟩ := forall₂_exists_right h.cells k1
    exact ⟨c, hcm, by rw [k3, k.1]⟩
  · obtain ⟨x, hx, e1⟩ := List.mem_map.1 hn
    obtain ⟨c1, k1, k2, k3, -⟩ := a5 x hx
    obtain rfl := same k1 hcm (intStr_injective (k3.symm.trans e1))
    obtain ⟨c', hc1, k⟩ := forall₂_exists_left h.cells hcm
    obtain ⟨x', hx', k4⟩ := b4 c' hc1 ((in_geometry_iff h.cells k).1 k2)
    exact List.mem_map.2 ⟨x', hx', by rw [k4, k.1]⟩
  · obtain ⟨x', hx', e2⟩ := List.mem_map.1 hn
    obtain ⟨c', hc1, k⟩ := forall₂_exists_left h.cells hcm
    obtain ⟨c2, k1, k2, k3, -⟩ := b5 x' hx'
    obtain rfl := same' k1 hc1 (by rw [k.1]; exact intStr_injective (k3.symm.trans e2))
    obtain ⟨x, hx, k4⟩ := a4 c hcm ((in_geometry_iff h.cells k).2 k2)
    exact List.mem_map.2 ⟨x, hx, k4⟩
  · obtain ⟨c', hc1, k⟩ := forall₂_exists_left h.cells hcm
    obtain ⟨c1, k1, k2, k3, k4, k5⟩ := a5 x hx
    obtain rfl := same k1 hcm (intStr_injective (k3.symm.trans e1))
    obtain ⟨c2, j1, j2, j3, j4, j5⟩ := b5 x' hx'
    obtain rfl := same' j1 hc1 (by rw [k.1]; exact intStr_injective (j3.symm.trans e2))
    exact ⟨fun p => by rw [k4, j4, k.1, h.points _ hcm], both_made h.materials hf.materials k k5 j5⟩

theorem matched_serpent (e : Env K) (hio : Exact e.io) (cosDeg : K → K) (quick : Bool) (read : Str → Option K) (approx : K → K) (rank rank' : Int → Nat) (text text' : Str) (f f' : InputFile K)
    (hsci : ∀ x, FloatText (e.sci x) ∧ e.io.parse (e.sci x) = some (approx x)) (hf : FileSays e.io text f) (hf' : FileSays e.io text' f') (h : Matched cosDeg e.sqrt φ f f')
    (hc : ConvertibleFile e.io cosDeg e.sqrt rank f) (hc' : ConvertibleFile e.io cosDeg e.sqrt rank' f') (hk : CardFile f)
    (hread : SerpentTexts e cosDeg quick read text) (hread' : SerpentTexts e cosDeg quick read text') :
    ∃ fuel₀, ∀ fuel ≥ fuel₀, ∃ out out', Converts { e with fuel := fuel } cosDeg quick text .serpent (.text out) ∧ Converts { e with fuel := fuel } cosDeg quick text' .serpent (.text out') ∧
      SameSerpent e read approx φ f.cells out out' := by
  obtain ⟨n1, h1⟩ := C100_serpent_partial e hio cosDeg quick read approx rank text f hsci hf hc hk hread
  obtain ⟨n2, h2⟩ := C100_serpent_partial e hio cosDeg quick read approx rank' text' f' hsci hf' hc' (card_matched h.cells hk) hread'
  refine ⟨max n1 n2, fun fuel hfu => ?_⟩
  obtain ⟨out, cards, a1, a2, a3, a4⟩ := h1 fuel (le_trans (le_max_left ..) hfu)
  obtain ⟨out', cards', b1, b2, b3, b4⟩ := h2 fuel (le_trans (le_max_right ..) hfu)
  refine ⟨out, out', a1, b1, cards, cards', a2, b2, a3.length_eq.symm, b3.length_eq.symm.trans h.cells.length_eq.symm, fun c hcm => ?_⟩
  obtain ⟨c', hc1, k⟩ := forall₂_exists_left h.cells hcm
  refine ⟨?_, ?_⟩
  · obtain ⟨q, hq, g, rfl, k1⟩ := forall₂_exists_left a3 hcm
    obtain ⟨q', hq', g', e', k2⟩ := forall₂_exists_left b3 hc1
    rw [k.1] at e'
    exact ⟨g, g', hq, e' ▸ hq', fun p => by rw [k1, k2, k.1, h.points c hcm]⟩
  · obtain ⟨x, hx, k1⟩ := forall₂_exists_left a4 hcm
    obtain ⟨x', hx', k2⟩ := forall₂_exists_left b4 hc1
    rw [k.1] at k2
    exact ⟨x, hx, x', hx', both_made h.materials hf.materials k k1 k2⟩

theorem matched_phits (e : Env K) (hio : Exact e.io) (cosDeg : K → K) (quick : Bool) (rank rank' : Int → Nat) (text text' : Str) (f f' : InputFile K) (hf : FileSays e.io text f) (hf' : FileSays e.io text' f')
    (h : Matched cosDeg e.sqrt φ f f') (hc : ConvertibleFile e.io cosDeg e.sqrt rank f) (hc' : ConvertibleFile e.io cosDeg e.sqrt rank' f') (hk : CardFile f)
    (hread : PhitsTexts e cosDeg quick text) (hread' : PhitsTexts e cosDeg quick text') :
    ∃ fuel₀, ∀ fuel ≥ fuel₀, ∃ out out', Converts { e with fuel := fuel } cosDeg quick text .phits (.text out) ∧ Converts { e with fuel := fuel } cosDeg quick text' .phits (.text out') ∧ SamePhits e φ f.cells out out' := by
  obtain ⟨n1, h1⟩ := C100_phits_partial e hio cosDeg quick rank text f hf hc hk hread
  obtain ⟨n2, h2⟩ := C100_phits_partial e hio cosDeg quick rank' text' f' hf' hc' (card_matched h.cells hk) hread'
  refine ⟨max n1 n2, fun fuel hfu => ?_⟩
  obtain ⟨out, secs, sl, cl, ml, sc, cc, mc, a1, a2, a3, a4, a5, a6, a7, a8, a9, a10⟩ := h1 fuel (le_trans (le_max_left ..) hfu)
  obtain ⟨out', secs', sl', cl', ml', sc', cc', mc', b1, b2, b3, b4, b5, b6, b7, b8, b9, b10⟩ := h2 fuel (le_trans (le_max_right ..) hfu)
  refine ⟨out, out', a1, b1, secs, sl, cl, ml, sc, cc, mc, secs', sl', cl', ml', sc', cc', mc', ⟨a2, a3, a4, a5, a6, a7, a8⟩, ⟨b2, b3, b4, b5, b6, b7, b8⟩, a9.length_eq.symm,
    b9.length_eq.symm.trans h.cells.length_eq.symm, fun c hcm => ?_⟩
  obtain ⟨c', hc1, k⟩ := forall₂_exists_left h.cells hcm
  refine ⟨?_, ?_⟩
  · obtain ⟨q, hq, g, i1, k1⟩ := forall₂_exists_left a9 hcm
    obtain ⟨q', hq', g', i2, k2⟩ := forall₂_exists_left b9 hc1
    exact ⟨q, hq, q', hq', g, g', i1, by rw [i2, k.1], fun p => by rw [k1, k2, k.1, h.points c hcm]⟩
  · obtain ⟨x, hx, k1⟩ := forall₂_exists_left a10 hcm
    obtain ⟨x', hx', k2⟩ := forall₂_exists_left b10 hc1
    rw [k.1] at k2
    exact ⟨x, hx, x', hx', both_made h.materials hf.materials k k1 k2⟩

theorem matched_mcnp (e : Env K) (hio : Exact e.io) (cosDeg : K → K) (quick : Bool) (rank rank' : Int → Nat) (text text' : Str) (f f' : InputFile K) (hmn : ∀ mn ∈ printedMnemonics, e.io.parse mn = none)
    (hf : FileSays e.io text f) (hf' : FileSays e.io text' f') (h : Matched cosDeg e.sqrt φ f f') (hc : ConvertibleFile e.io cosDeg e.sqrt rank f) (hc' : ConvertibleFile e.io cosDeg e.sqrt rank' f') (hk : CardFile f)
    (hi : ∀ (i : Nat) c x, f.cells[i]? = some c → FileImportance e.io f i c x → PlainNumber (e.io.render x)) (hread : McnpTexts e cosDeg quick text) (hread' : McnpTexts e cosDeg quick text') :
    ∃ fuel₀, ∀ fuel ≥ fuel₀, ∃ out out', Converts { e with fuel := fuel } cosDeg quick text .mcnp (.text out) ∧ Converts { e with fuel := fuel } cosDeg quick text' .mcnp (.text out') ∧ SameMcnp e cosDeg φ f.cells out out' := by
  obtain ⟨n1, h1⟩ := C100_mcnp_partial e hio cosDeg quick rank text f hmn hf hc hk hi hread
  have hi' : ∀ (i : Nat) c' x, f'.cells[i]? = some c' → FileImportance e.io f' i c' x → PlainNumber (e.io.render x) := fun i c' x hx hm => by
    have hlt := (List.getElem?_eq_some_iff.1 hx).1
    have e1 : f.cells[i]? = some (f.cells[i]'(h.cells.length_eq ▸ hlt)) := List.getElem?_eq_getElem _
    have k := List.forall₂_iff_get.1 h.cells |>.2 i (h.cells.length_eq ▸ hlt) hlt
    rw [List.get_eq_getElem, List.get_eq_getElem, (List.getElem?_eq_some_iff.1 hx).2] at k
    refine hi i _ x e1 ?_
    unfold FileImportance at hm ⊢
    rwa [h.importances, k.2.2] at hm
  obtain ⟨n2, h2⟩ := C100_mcnp_partial e hio cosDeg quick rank' text' f' hmn hf' hc' (card_matched h.cells hk) hi' hread'
  refine ⟨max n1 n2, fun fuel hfu => ?_⟩
  obtain ⟨out, d2, a1, a2, a3⟩ := h1 fuel (le_trans (le_max_left ..) hfu)
  obtain ⟨out', d2', b1, b2, b3⟩ := h2 fuel (le_trans (le_max_right ..) hfu)
  refine ⟨out, out', a1, b1, d2, d2', a2, b2, a3.length_eq.symm, b3.length_eq.symm.trans h.cells.length_eq.symm, fun c hcm => ?_⟩
  obtain ⟨c', hc1, k⟩ := forall₂_exists_left h.cells hcm
  obtain ⟨q, hq, i1, i2, i3⟩ := forall₂_exists_left a3 hcm
  obtain ⟨q', hq', j1, j2, j3⟩ := forall₂_exists_left b3 hc1
  exact ⟨q, hq, q', hq', i1, j1.trans k.1, fun p => by rw [i2, j2, k.1, h.points c hcm], both_made h.materials hf.materials k i3 j3⟩

theorem matched_fluka (e : Env K) (hio : Exact e.io) (hn : FlukaNumbers e) (cosDeg : K → K) (quick : Bool) (rank rank' : Int → Nat) (text text' : Str) (f f' : InputFile K) (hf : FileSays e.io text f) (hf' : FileSays e.io text' f')
    (h : Matched cosDeg e.sqrt φ f f') (hc : ConvertibleFile e.io cosDeg e.sqrt rank f) (hc' : ConvertibleFile e.io cosDeg e.sqrt rank' f')
    (hk : FlukaFile e.io cosDeg e.sqrt f) (hk' : FlukaFile e.io cosDeg e.sqrt f') :
    ∃ fuel₀ d d' b b', readDeck e.io cosDeg (readText text) = .ok d ∧ readDeck e.io cosDeg (readText text') = .ok b ∧ ∀ fuel ≥ fuel₀,
      finishDeck fuel e.io cosDeg e.sqrt quick d = some (.ok d') ∧ finishDeck fuel e.io cosDeg e.sqrt quick b = some (.ok b') ∧
      ∃ out out', Converts { e with fuel := fuel } cosDeg quick text .fluka (.text out) ∧ Converts { e with fuel := fuel } cosDeg quick text' .fluka (.text out') ∧
        SameFluka e φ d'.surfaces b'.surfaces f.cells out out' := by
  obtain ⟨n1, d, d', r1, h1⟩ := C100_fluka_partial e hio hn.zero.1 hn.zero.2.1 hn.zero.2.2 hn.three hn.four hn.order cosDeg quick rank text f hf hc hk
  obtain ⟨n2, b, b', r2, h2⟩ := C100_fluka_partial e hio hn.zero.1 hn.zero.2.1 hn.zero.2.2 hn.three hn.four hn.order cosDeg quick rank' text' f' hf' hc' hk'
  refine ⟨max n1 n2, d, d', b, b', r1, r2, fun fuel hfu => ?_⟩
  obtain ⟨a0, out, input, a1, a2, a3, a4⟩ := h1 fuel (le_trans (le_max_left ..) hfu)
  obtain ⟨b0, out', input', b1, b2, b3, b4⟩ := h2 fuel (le_trans (le_max_right ..) hfu)
  refine ⟨a0, b0, out, out', a1, b1, input, input', a2, b2, a3.length_eq.symm, b3.length_eq.symm.trans h.cells.length_eq.symm, fun c hcm => ?_⟩
  obtain ⟨c', hc1, k⟩ := forall₂_exists_left h.cells hcm
  refine ⟨?_, ?_⟩
  · obtain ⟨g, hg, i1, k1⟩ := forall₂_exists_left a3 hcm
    obtain ⟨g', hg', i2, k2⟩ := forall₂_exists_left b3 hc1
    exact ⟨g, hg, g', hg', i1, by rw [i2, k.1], fun p hp hp' => by rw [k1 _ hp, k2 p hp', k.1, h.points c hcm]⟩
  · obtain ⟨l, hl, i1, k1⟩ := forall₂_exists_left a4 hcm
    obtain ⟨l', hl', i2, k2⟩ := forall₂_exists_left b4 hc1
    obtain ⟨hl, hl0⟩ := List.mem_filter.1 hl
    obtain ⟨hl', hl0'⟩ := List.mem_filter.1 hl'
    exact ⟨l, hl, l', hl', of_decide_eq_true hl0, of_decide_eq_true hl0', i1, by rw [i2, k.1], both_made h.materials hf.materials k k1 k2⟩

theorem matched_scone (e : Env K) (hio : Exact e.io) (hsci : ∀ x, SconeOrdinary (e.sci x)) (ho : ∀ l, (e.orderInt l).Perm l) (cosDeg tanSq : K → K) (quick : Bool) (read : Str → Option K)
    (hlit : ∀ w x, Literal w x → read w = some x) (rank rank' : Int → Nat) (text text' : Str) (f f' : InputFile K) (hf : FileSays e.io text f) (hf' : FileSays e.io text' f')
    (h : Matched cosDeg e.sqrt φ f f') (hc : ConvertibleFile e.io cosDeg e.sqrt rank f) (hc' : ConvertibleFile e.io cosDeg e.sqrt rank' f') (hk : SconeFile e.io f) (hk' : SconeFile e.io f')
    (hread : SconeTexts e cosDeg tanSq quick read text) (hread' : SconeTexts e cosDeg tanSq quick read text') :
    ∃ fuel₀ d d' b b', readDeck e.io cosDeg (readText text) = .ok d ∧ readDeck e.io cosDeg (readText text') = .ok b ∧ ∀ fuel ≥ fuel₀,
      finishDeck fuel e.io cosDeg e.sqrt quick d = some (.ok d') ∧ finishDeck fuel e.io cosDeg e.sqrt quick b = some (.ok b') ∧
      ∃ out out', Converts { e with fuel := fuel } cosDeg quick text .scone (.text out) ∧ Converts { e with fuel := fuel } cosDeg quick text' .scone (.text out') ∧
        SameSconeCells e tanSq read φ d'.surfaces b'.surfaces f.cells out out' := by
  obtain ⟨n1, d, d', r1, h1⟩ := C100_scone_partial e hio hsci ho cosDeg tanSq quick read hlit rank text f hf hc hk hread
  obtain ⟨n2, b, b', r2, h2⟩ := C100_scone_partial e hio hsci ho cosDeg tanSq quick read hlit rank' text' f' hf' hc' hk' hread'
  refine ⟨max n1 n2, d, d', b, b', r1, r2, fun fuel hfu => ?_⟩
  obtain ⟨a0, out, gs, ns, ses, ces, mes, a1, a2, a3, a4, a5, a6, a7⟩ := h1 fuel (le_trans (le_max_left ..) hfu)
  obtain ⟨b0, out', gs', ns', ses', ces', mes', b1, b2, b3, b4, b5, b6, b7⟩ := h2 fuel (le_trans (le_max_right ..) hfu)
  refine ⟨a0, b0, out, out', a1, b1, gs, ns, ses, ces, mes, gs', ns', ses', ces', mes', ⟨a2, a3, a4, a5⟩, ⟨b2, b3, b4, b5⟩, a6.length_eq.symm, b6.length_eq.symm.trans h.cells.length_eq.symm, fun c hcm => ?_⟩
  obtain ⟨c', hc1, k⟩ := forall₂_exists_left h.cells hcm
  refine ⟨?_, ?_⟩
  · obtain ⟨x, hx, g, i1, k1⟩ := forall₂_exists_left a6 hcm
    obtain ⟨x', hx', g', i2, k2⟩ := forall₂_exists_left b6 hc1
    exact ⟨x, hx, x', hx', g, g', i1, by rw [i2, k.1], fun p hp hp' => by rw [k1 _ hp, k2 p hp', k.1, h.points c hcm]⟩
  · obtain ⟨x, hx, k1⟩ := forall₂_exists_left a7 hcm
    obtain ⟨x', hx', k2⟩ := forall₂_exists_left b7 hc1
    rw [k.1] at k2
    exact ⟨x, hx, x', hx', both_made h.materials hf.materials k k1 k2⟩

end

end Csg
