import Verif.Spec.Renumbered
import Verif.Lemmas.SameSubstance
import Verif.Props.FromText
import Verif.Lemmas.FlattenDeck
import Verif.Lemmas.Processed
import Verif.Lemmas.FormatE
import Verif.Lemmas.MixedIO

/-!
# C114: the numbers of surfaces, cells and materials
-/

set_option linter.unusedSectionVars false

namespace Csg

open Spec

section
variable {K : Type} [Field K] [LinearOrder K] [IsStrictOrderedRing K]
variable {io : NumIO K} {cosDeg sqrt : K → K} {r : Renumbering} {f f' : InputFile K}

private theorem place_eq (h : Renumbered r f f') : f'.place cosDeg = f.place cosDeg := by
  funext tr p
  unfold InputFile.place
  rw [h.transforms]

private theorem surface_to (h : Renumbered r f f') {s : SurfaceEntry K} (hs : s ∈ f.surfaces) : { s with number := r.surface s.number } ∈ f'.surfaces := by
  obtain ⟨s', hs', rfl⟩ := forall₂_exists_left h.surfaces hs
  exact hs'

private theorem surface_from (h : Renumbered r f f') {s' : SurfaceEntry K} (hs : s' ∈ f'.surfaces) : ∃ s ∈ f.surfaces, s' = { s with number := r.surface s.number } :=
  forall₂_exists_right h.surfaces hs

private theorem abs_signed {n : Int} (hn : 0 < n) (b : Bool) : (((if b then n else -n).natAbs : Nat) : Int) = n := by
  cases b
  · rw [if_neg (by decide), Int.natAbs_neg, Int.natAbs_of_nonneg hn.le]
  · rw [if_pos rfl, Int.natAbs_of_nonneg hn.le]

private theorem pos_signed {n : Int} (hn : 0 < n) (b : Bool) : decide (0 < (if b then n else -n)) = b := by
  cases b
  · exact decide_eq_false (by rw [if_neg (by decide)]; omega)
  · exact decide_eq_true hn

private theorem number_iff (h : Renumbered r f f') (p : Point K) {w w' : Str} {n : Int} (b : Bool) (hn : 0 < n) (hw : parseInt w = some (if b then n else -n))
    (hw' : parseInt w' = some (if b then r.surface n else -r.surface n)) : entrySense cosDeg sqrt f p w ↔ entrySense cosDeg sqrt f' p w' := by
  have hn' := h.proper.positive n hn
  have d : ∀ neg z k, w ≠ facetWord neg z k := fun neg z k e => parseInt_no_dot hw (e ▸ dot_mem_facetWord ..)
  have d' : ∀ neg z k, w' ≠ facetWord neg z k := fun neg z k e => parseInt_no_dot hw' (e ▸ dot_mem_facetWord ..)
  unfold entrySense
  rw [place_eq h, hw, hw']
  constructor
  · rintro (⟨z, hz, s, hs, e, k⟩ | ⟨s, -, _, neg, k, _, -, e, -⟩)
    · cases hz
      rw [abs_signed hn] at e
      rw [pos_signed hn] at k
      refine .inl ⟨_, rfl, _, surface_to h hs, ?_, ?_⟩
      · rw [abs_signed hn', e]
      · rw [pos_signed hn']
        exact k
    · exact absurd e (d _ _ _)
  · rintro (⟨z, hz, s', hs', e, k⟩ | ⟨s, -, _, neg, k, _, -, e, -⟩)
    · cases hz
      obtain ⟨s, hs, rfl⟩ := surface_from h hs'
      rw [abs_signed hn'] at e
      rw [pos_signed hn'] at k
      refine .inl ⟨_, rfl, s, hs, ?_, ?_⟩
      · rw [abs_signed hn]
        exact h.proper.surfaces e
      · rw [pos_signed hn]
        exact k
    · exact absurd e (d' _ _ _)

private theorem facet_iff (h : Renumbered r f f') (hpos : ∀ s ∈ f.surfaces, 0 < s.number) (p : Point K) {n : Int} (neg : Bool) (k : Nat) (hn : 0 < n) :
    entrySense cosDeg sqrt f p (facetWord neg n k) ↔ entrySense cosDeg sqrt f' p (facetWord neg (r.surface n) k) := by
  have hn' := h.proper.positive n hn
  unfold entrySense
  rw [place_eq h]
  constructor
  · rintro (⟨z, hz, -⟩ | ⟨s, hs, ty, neg', k', v, h1, h2, h3⟩)
    · exact absurd (dot_mem_facetWord ..) (parseInt_no_dot hz)
    · obtain ⟨rfl, rfl, rfl⟩ := facetWord_injective hn (hpos s hs) h2
      exact .inr ⟨_, surface_to h hs, ty, neg, k, v, h1, rfl, h3⟩
  · rintro (⟨z, hz, -⟩ | ⟨s', hs', ty, neg', k', v, h1, h2, h3⟩)
    · exact absurd (dot_mem_facetWord ..) (parseInt_no_dot hz)
    · obtain ⟨s, hs, rfl⟩ := surface_from h hs'
      obtain ⟨rfl, e, rfl⟩ := facetWord_injective hn' (h.proper.positive _ (hpos s hs)) h2
      obtain rfl := h.proper.surfaces e
      exact .inr ⟨s, hs, ty, neg, k, v, h1, rfl, h3⟩

private theorem word_iff (h : Renumbered r f f') (hpos : ∀ s ∈ f.surfaces, 0 < s.number) (p : Point K) {T T' : Int → Prop} (hT : ∀ n, T n ↔ T' (r.cell n)) {w w' : Str} (hw : RenumberedWord r w w') :
    cellSense (entrySense cosDeg sqrt f p) T w ↔ cellSense (entrySense cosDeg sqrt f' p) T' w' := by
  cases hw with
  | pos hn =>
    rw [cellSense_plain _ _ (hash_not_mem_intStr _), cellSense_plain _ _ (hash_not_mem_intStr _)]
    exact number_iff h p true hn (parseInt_intStr _) (parseInt_intStr _)
  | neg hn =>
    rw [cellSense_plain _ _ (hash_not_mem_minus _), cellSense_plain _ _ (hash_not_mem_minus _)]
    exact number_iff h p false hn (parseInt_minus hn) (parseInt_minus (h.proper.positive _ hn))
  | facet b k hn =>
    rw [cellSense_plain _ _ (hash_not_mem_facetWord _ _ _), cellSense_plain _ _ (hash_not_mem_facetWord _ _ _)]
    exact facet_iff h hpos p b k hn
  | @ref n n' e =>
    have key : ∀ (σ : Str → Prop) (T : Int → Prop) (n : Nat), cellSense σ T (refWord n) ↔ ¬ T n := fun σ T n => by
      unfold cellSense
      rw [if_pos (hash_mem_refWord n)]
      constructor
      · rintro ⟨m, e, hm⟩
        rwa [natStr_injective (List.cons.inj e).2]
      · exact fun hn => ⟨n, rfl, hn⟩
    rw [key, key, hT, e]

private theorem region_iff (h : Renumbered r f f') (hpos : ∀ s ∈ f.surfaces, 0 < s.number) (p : Point K) {T T' : Int → Prop} (hT : ∀ n, T n ↔ T' (r.cell n)) {e e' : CellEntry K} (hc : RenumberedCell r e e') :
    Holds (cellSense (entrySense cosDeg sqrt f p) T) (lexGeometry e.geometry) ↔ Holds (cellSense (entrySense cosDeg sqrt f' p) T') (lexGeometry e'.geometry) := by
  refine (holds_rel _ _ (hc.geometry.imp fun a b hab => ?_)).2
  cases hab with
  | lp => exact .lp
  | rp => exact .rp
  | un => exact .un
  | no => exact .no
  | atom hw => exact .atom (word_iff h hpos p hT hw)

/-- The cells of the two files have the same points. -/
theorem C114_points (h : Renumbered r f f') (hpos : ∀ s ∈ f.surfaces, 0 < s.number) (n : Int) (p : Point K) : InFileCell cosDeg sqrt f n p ↔ InFileCell cosDeg sqrt f' (r.cell n) p := by
  constructor
  · rintro ⟨T, h1, h2⟩
    have hT : ∀ n, T n ↔ (fun k => ∃ m, r.cell m = k ∧ T m) (r.cell n) := fun n => ⟨fun t => ⟨n, rfl, t⟩, by
      rintro ⟨m, e, t⟩
      rwa [← h.proper.cells e]⟩
    refine ⟨fun k => ∃ m, r.cell m = k ∧ T m, fun c' hc' => ?_, ⟨n, rfl, h2⟩⟩
    obtain ⟨c, hc, k⟩ := forall₂_exists_right h.cells hc'
    rw [← region_iff h hpos p hT k, k.number, ← hT]
    exact h1 c hc
  · rintro ⟨T', h1, h2⟩
    refine ⟨fun k => T' (r.cell k), fun c hc => ?_, h2⟩
    obtain ⟨c', hc', k⟩ := forall₂_exists_left h.cells hc
    rw [region_iff h hpos p (T' := T') (fun _ => Iff.rfl) k]
    show T' (r.cell c.number) ↔ _
    rw [← k.number]
    exact h1 c' hc'

private theorem uni_eq {e e' : CellEntry K} (h : RenumberedCell r e e') : e'.uni = e.uni := by unfold CellEntry.uni; rw [h.params]
private theorem fill_eq {e e' : CellEntry K} (h : RenumberedCell r e e') : e'.fill = e.fill := by unfold CellEntry.fill; rw [h.params]

private theorem universe_iff (h : Renumbered r f f') (u : Int) : FileUniverse f u ↔ FileUniverse f' u := by
  constructor
  · intro hu
    induction hu with
    | root => exact .root
    | fill he h1 _ h2 h3 ih =>
      obtain ⟨e', he', k⟩ := forall₂_exists_left h.cells he
      exact .fill he' (by rwa [uni_eq k]) ih (by rwa [fill_eq k]) h3
  · intro hu
    induction hu with
    | root => exact .root
    | fill he h1 _ h2 h3 ih =>
      obtain ⟨e', he', k⟩ := forall₂_exists_right h.cells he
      exact .fill he' (by rwa [← uni_eq k]) ih (by rwa [← fill_eq k]) h3

private theorem in_geometry_iff (h : Renumbered r f f') {e e' : CellEntry K} (k : RenumberedCell r e e') : InFileGeometry f e ↔ InFileGeometry f' e' := by
  unfold InFileGeometry
  simp only [universe_iff h, uni_eq k]

private theorem openmc_renumbered (h : Renumbered r f f') (ho : OpenmcFile f) : OpenmcFile f' where
  nuclides := fun m' hm' => by
    obtain ⟨m, hm, -, e⟩ := forall₂_exists_right h.materials hm'
    rw [e]
    exact ho.nuclides m hm
  universes := fun c' hc' => by
    obtain ⟨c, hc, k⟩ := forall₂_exists_right h.cells hc'
    rw [uni_eq k, fill_eq k]
    exact ho.universes c hc
  root := by
    obtain ⟨c, hc, hu⟩ := ho.root
    obtain ⟨c', hc', k⟩ := forall₂_exists_left h.cells hc
    exact ⟨c', hc', by rwa [uni_eq k]⟩
  nested := by
    obtain ⟨depth, hd⟩ := ho.nested
    refine ⟨depth, fun c' hc' => ?_⟩
    obtain ⟨c, hc, k⟩ := forall₂_exists_right h.cells hc'
    rw [uni_eq k, fill_eq k]
    exact hd c hc

private theorem both_made (h : Renumbered r f f') (hm : (f.materials.map Prod.fst).Nodup) {c c' : CellEntry K} (k : RenumberedCell r c c') {void void' : Prop} {has has' : K → List (Str × K) → Prop}
    (h1 : FileMadeOf f c void has) (h2 : FileMadeOf f' c' void' has') : SameFilling c void void' has has' := by
  intro hfill
  have k1 := h1 hfill
  have k2 := h2 (by rwa [fill_eq k])
  have k3 := k.content
  cases hx : c.content with
  | none =>
    rw [hx] at k1 k3
    rw [k3] at k2
    exact ⟨k1, k2⟩
  | some mx =>
    obtain ⟨m, x⟩ := mx
    rw [hx] at k1 k3
    rw [k3] at k2
    obtain ⟨n, entries, fracs, comp, a, i1, i2, i3, i4, i5⟩ := k1
    obtain ⟨n', entries', fracs', comp', b, j1, j2, j3, j4, j5⟩ := k2
    obtain ⟨⟨n2, e2⟩, hm2, l1, l2⟩ := forall₂_exists_right h.materials j1
    have l1 : (n' : Int) = r.material n2 := l1
    have l2 : (entries', fracs') = e2 := l2
    have e := h.proper.materials (l1.symm.trans j2)
    obtain rfl : n = n2 := by omega
    have := List.inj_on_of_nodup_map hm i1 hm2 rfl
    have e : (entries', fracs') = (entries, fracs) := l2.trans (Prod.mk.inj this).2.symm
    cases e
    exact ⟨a, b, substance_perm (composition_perm i3 j3) i4 j4, i5, j5⟩

/-! ## Codes -/

/-- **C114** for OpenMC (partial). Two texts that differ in the numbers of surfaces, cells and materials are converted to files with the same cells, up to their numbers. Missing is what is missing in C100, for both texts. -/
theorem C114_openmc_partial (e : Env K) (hio : Exact e.io) (cosDeg : K → K) (quick : Bool) (r : Renumbering) (rank rank' : Int → Nat) (text text' : Str) (f f' : InputFile K) (hf : FileSays e.io text f) (hf' : FileSays e.io text' f')
    (h : Renumbered r f f') (hc : ConvertibleFile e.io cosDeg e.sqrt rank f) (hc' : ConvertibleFile e.io cosDeg e.sqrt rank' f') (ho : OpenmcFile f) :
    ∃ fuel₀, ∀ fuel ≥ fuel₀, ∃ g m g' m' xs es ys xs' es' ys', Converts { e with fuel := fuel } cosDeg quick text .openmc (.xml g m) ∧ Converts { e with fuel := fuel } cosDeg quick text' .openmc (.xml g' m') ∧
      openmcGeometry g = some (xs, es) ∧ openmcMaterials m = some ys ∧ openmcGeometry g' = some (xs', es') ∧ openmcMaterials m' = some ys' ∧
      (∀ x ∈ es, ∃ c ∈ f.cells, x.id = intStr c.number) ∧ (∀ x' ∈ es', ∃ c ∈ f.cells, x'.id = intStr (r.cell c.number)) ∧
      ∀ c ∈ f.cells, (intStr c.number ∈ es.map (·.id) ↔ intStr (r.cell c.number) ∈ es'.map (·.id)) ∧
        ∀ x ∈ es, ∀ x' ∈ es', x.id = intStr c.number → x'.id = intStr (r.cell c.number) → (∀ p, InOpenmc e.sqrt e.io xs x p ↔ InOpenmc e.sqrt e.io xs' x' p) ∧
          SameFilling c (x.material = some c!"void") (x'.material = some c!"void") (fun density comp => x.material ≠ some c!"void" ∧ OpenmcHas e.io ys x density comp)
            (fun density comp => x'.material ≠ some c!"void" ∧ OpenmcHas e.io ys' x' density comp) := by
  obtain ⟨n1, h1⟩ := C100_openmc_partial e hio cosDeg quick rank text f hf hc ho
  obtain ⟨n2, h2⟩ := C100_openmc_partial e hio cosDeg quick rank' text' f' hf' hc' (openmc_renumbered h ho)
  refine ⟨max n1 n2, fun fuel hfu => ?_⟩
  obtain ⟨g, m, xs, es, ys, a1, a2, a3, a4, a5⟩ := h1 fuel (le_trans (le_max_left ..) hfu)
  obtain ⟨g', m', xs', es', ys', b1, b2, b3, b4, b5⟩ := h2 fuel (le_trans (le_max_right ..) hfu)
  have pair : ∀ {c}, c ∈ f.cells → ∃ c' ∈ f'.cells, RenumberedCell r c c' := fun hc => forall₂_exists_left h.cells hc
  have same : ∀ {a b : CellEntry K}, a ∈ f.cells → b ∈ f.cells → a.number = b.number → a = b := fun ha hb e => List.inj_on_of_nodup_map hc.cells.1 ha hb e
  have same' : ∀ {a b : CellEntry K}, a ∈ f'.cells → b ∈ f'.cells → a.number = b.number → a = b := fun ha hb e => List.inj_on_of_nodup_map hc'.cells.1 ha hb e
  refine ⟨g, m, g', m', xs, es, ys, xs', es', ys', a1, b1, a2, a3, b2, b3, fun x hx => ?_, fun x' hx' => ?_, fun c hcm => ⟨⟨fun hn => ?_, fun hn => ?_⟩, fun x hx x' hx' e1 e2 => ?_⟩⟩
  · obtain ⟨c, k1, k2, k3, -⟩ := a5 x hx
    exact ⟨c, k1, k3⟩
  · obtain ⟨c', k1, k2, k3, -⟩ := b5 x' hx'
    obtain ⟨c, hcm, k⟩ := forall₂_exists_right h.cells k1
    exact ⟨c, hcm, by rw [k3, k.number]⟩
  · obtain ⟨x, hx, e1⟩ := List.mem_map.1 hn
    obtain ⟨c1, k1, k2, k3, -⟩ := a5 x hx
    obtain rfl := same k1 hcm (intStr_injective (k3.symm.trans e1))
    obtain ⟨c', hc1, k⟩ := pair hcm
    obtain ⟨x', hx', k4⟩ := b4 c' hc1 ((in_geometry_iff h k).1 k2)
    exact List.mem_map.2 ⟨x', hx', by rw [k4, k.number]⟩
  · obtain ⟨x', hx', e2⟩ := List.mem_map.1 hn
    obtain ⟨c', hc1, k⟩ := pair hcm
    obtain ⟨c2, k1, k2, k3, -⟩ := b5 x' hx'
    obtain rfl := same' k1 hc1 (by rw [k.number]; exact intStr_injective (k3.symm.trans e2))
    obtain ⟨x, hx, k4⟩ := a4 c hcm ((in_geometry_iff h k).2 k2)
    exact List.mem_map.2 ⟨x, hx, k4⟩
  · obtain ⟨c', hc1, k⟩ := pair hcm
    obtain ⟨c1, k1, k2, k3, k4, k5⟩ := a5 x hx
    obtain rfl := same k1 hcm (intStr_injective (k3.symm.trans e1))
    obtain ⟨c2, j1, j2, j3, j4, j5⟩ := b5 x' hx'
    obtain rfl := same' j1 hc1 (by rw [k.number]; exact intStr_injective (j3.symm.trans e2))
    exact ⟨fun p => by rw [k4, j4, k.number, C114_points h fun s hs => (hc.numbers.2 s hs).1], both_made h hf.materials k k5 j5⟩

/-- **C114** for Serpent (partial). Also missing: the texts of numbers must fit on a card and be such that Serpent reads them (`hread`, `hread'`). -/
theorem C114_serpent_partial (e : Env K) (hio : Exact e.io) (cosDeg : K → K) (quick : Bool) (r : Renumbering) (read : Str → Option K) (approx : K → K) (rank rank' : Int → Nat) (text text' : Str) (f f' : InputFile K)
    (hsci : ∀ x, FloatText (e.sci x) ∧ e.io.parse (e.sci x) = some (approx x)) (hf : FileSays e.io text f) (hf' : FileSays e.io text' f') (h : Renumbered r f f')
    (hc : ConvertibleFile e.io cosDeg e.sqrt rank f) (hc' : ConvertibleFile e.io cosDeg e.sqrt rank' f') (hk : CardFile f) (hk' : CardFile f')
    (hread : ∀ d fuel d', readDeck e.io cosDeg (readText text) = .ok d → finishDeck fuel e.io cosDeg e.sqrt quick d = some (.ok d') →
      ShortCells e.io d ∧ PrintedSurfaces read e.io d' ∧ ∀ s ∈ d.surfaces, IsCone s.type ∨ IsTorus s.type → ∀ x ∈ s.coeffs, Prints read e.fixed x)
    (hread' : ∀ d fuel d', readDeck e.io cosDeg (readText text') = .ok d → finishDeck fuel e.io cosDeg e.sqrt quick d = some (.ok d') →
      ShortCells e.io d ∧ PrintedSurfaces read e.io d' ∧ ∀ s ∈ d.surfaces, IsCone s.type ∨ IsTorus s.type → ∀ x ∈ s.coeffs, Prints read e.fixed x) :
    ∃ fuel₀, ∀ fuel ≥ fuel₀, ∃ out cards out' cards', Converts { e with fuel := fuel } cosDeg quick text .serpent (.text out) ∧ Converts { e with fuel := fuel } cosDeg quick text' .serpent (.text out') ∧
      serpentCards out = ([], cards) ∧ serpentCards out' = ([], cards') ∧ (serpentRegions cards).length = f.cells.length ∧ (serpentRegions cards').length = f.cells.length ∧
      ∀ c ∈ f.cells, (∃ g g', some (intStr c.number, g) ∈ serpentRegions cards ∧ some (intStr (r.cell c.number), g') ∈ serpentRegions cards' ∧ ∀ p, InSerpent e.sqrt read cards g p ↔ InSerpent e.sqrt read cards' g' p) ∧
        ∃ x ∈ serpentFillings cards, ∃ x' ∈ serpentFillings cards', SameFilling c (x = some (intStr c.number, c!"void")) (x' = some (intStr (r.cell c.number), c!"void"))
          (fun density comp => ∃ name, name ≠ c!"void" ∧ name ≠ c!"outside" ∧ x = some (intStr c.number, name) ∧ SerpentHas e.io approx cards name density comp)
          (fun density comp => ∃ name, name ≠ c!"void" ∧ name ≠ c!"outside" ∧ x' = some (intStr (r.cell c.number), name) ∧ SerpentHas e.io approx cards' name density comp) := by
  obtain ⟨n1, h1⟩ := C100_serpent_partial e hio cosDeg quick read approx rank text f hsci hf hc hk hread
  obtain ⟨n2, h2⟩ := C100_serpent_partial e hio cosDeg quick read approx rank' text' f' hsci hf' hc' hk' hread'
  refine ⟨max n1 n2, fun fuel hfu => ?_⟩
  obtain ⟨out, cards, a1, a2, a3, a4⟩ := h1 fuel (le_trans (le_max_left ..) hfu)
  obtain ⟨out', cards', b1, b2, b3, b4⟩ := h2 fuel (le_trans (le_max_right ..) hfu)
  refine ⟨out, cards, out', cards', a1, b1, a2, b2, a3.length_eq.symm, b3.length_eq.symm.trans h.cells.length_eq.symm, fun c hcm => ?_⟩
  obtain ⟨c', hc1, k⟩ := forall₂_exists_left h.cells hcm
  refine ⟨?_, ?_⟩
  · obtain ⟨q, hq, g, rfl, k1⟩ := forall₂_exists_left a3 hcm
    obtain ⟨q', hq', g', e', k2⟩ := forall₂_exists_left b3 hc1
    rw [k.number] at e'
    exact ⟨g, g', hq, e' ▸ hq', fun p => by rw [k1, k2, k.number, C114_points h fun s hs => (hc.numbers.2 s hs).1]⟩
  · obtain ⟨x, hx, k1⟩ := forall₂_exists_left a4 hcm
    obtain ⟨x', hx', k2⟩ := forall₂_exists_left b4 hc1
    rw [k.number] at k2
    exact ⟨x, hx, x', hx', both_made h hf.materials k k1 k2⟩

/-- **C114** for PHITS (partial). Also missing: the texts of numbers and of library names must fit on a card (`hread`, `hread'`). -/
theorem C114_phits_partial (e : Env K) (hio : Exact e.io) (cosDeg : K → K) (quick : Bool) (r : Renumbering) (rank rank' : Int → Nat) (text text' : Str) (f f' : InputFile K) (hf : FileSays e.io text f) (hf' : FileSays e.io text' f')
    (h : Renumbered r f f') (hc : ConvertibleFile e.io cosDeg e.sqrt rank f) (hc' : ConvertibleFile e.io cosDeg e.sqrt rank' f') (hk : CardFile f) (hk' : CardFile f')
    (hread : ∀ d fuel d', readDeck e.io cosDeg (readText text) = .ok d → finishDeck fuel e.io cosDeg e.sqrt quick d = some (.ok d') →
      ShortCells e.io d ∧ ShortSurfaces e.io d' ∧ ∀ m ∈ d.materials, PrintableXs m.2)
    (hread' : ∀ d fuel d', readDeck e.io cosDeg (readText text') = .ok d → finishDeck fuel e.io cosDeg e.sqrt quick d = some (.ok d') →
      ShortCells e.io d ∧ ShortSurfaces e.io d' ∧ ∀ m ∈ d.materials, PrintableXs m.2) :
    ∃ fuel₀, ∀ fuel ≥ fuel₀, ∃ out secs sl cl ml scards ccards mcards out' secs' sl' cl' ml' scards' ccards' mcards',
      (Converts { e with fuel := fuel } cosDeg quick text .phits (.text out) ∧ phitsSections (readlines out) = ([], secs) ∧
        secs.lookup c!"surface" = some sl ∧ secs.lookup c!"cell" = some cl ∧ secs.lookup c!"material" = some ml ∧ phitsCards sl = ([], scards) ∧ phitsCards cl = ([], ccards) ∧ phitsCards ml = ([], mcards)) ∧
      (Converts { e with fuel := fuel } cosDeg quick text' .phits (.text out') ∧ phitsSections (readlines out') = ([], secs') ∧
        secs'.lookup c!"surface" = some sl' ∧ secs'.lookup c!"cell" = some cl' ∧ secs'.lookup c!"material" = some ml' ∧ phitsCards sl' = ([], scards') ∧ phitsCards cl' = ([], ccards') ∧
        phitsCards ml' = ([], mcards')) ∧
      ccards.length = f.cells.length ∧ ccards'.length = f.cells.length ∧
      ∀ c ∈ f.cells, (∃ card ∈ ccards, ∃ card' ∈ ccards', ∃ g g', phitsRegion card = some (intStr c.number, g) ∧ phitsRegion card' = some (intStr (r.cell c.number), g') ∧
          ∀ p, InPhits e.sqrt e.io scards g p ↔ InPhits e.sqrt e.io scards' g' p) ∧
        ∃ card ∈ ccards, ∃ card' ∈ ccards', SameFilling c (phitsFilling card = some (intStr c.number, c!"0", none)) (phitsFilling card' = some (intStr (r.cell c.number), c!"0", none))
          (fun density comp => ∃ name dw, name ≠ c!"0" ∧ phitsFilling card = some (intStr c.number, name, some dw) ∧ e.io.parse dw = some density ∧ PhitsHas e.io mcards name comp)
          (fun density comp => ∃ name dw, name ≠ c!"0" ∧ phitsFilling card' = some (intStr (r.cell c.number), name, some dw) ∧ e.io.parse dw = some density ∧ PhitsHas e.io mcards' name comp) := by
  obtain ⟨n1, h1⟩ := C100_phits_partial e hio cosDeg quick rank text f hf hc hk hread
  obtain ⟨n2, h2⟩ := C100_phits_partial e hio cosDeg quick rank' text' f' hf' hc' hk' hread'
  refine ⟨max n1 n2, fun fuel hfu => ?_⟩
  obtain ⟨out, secs, sl, cl, ml, sc, cc, mc, a1, a2, a3, a4, a5, a6, a7, a8, a9, a10⟩ := h1 fuel (le_trans (le_max_left ..) hfu)
  obtain ⟨out', secs', sl', cl', ml', sc', cc', mc', b1, b2, b3, b4, b5, b6, b7, b8, b9, b10⟩ := h2 fuel (le_trans (le_max_right ..) hfu)
  refine ⟨out, secs, sl, cl, ml, sc, cc, mc, out', secs', sl', cl', ml', sc', cc', mc', ⟨a1, a2, a3, a4, a5, a6, a7, a8⟩, ⟨b1, b2, b3, b4, b5, b6, b7, b8⟩, a9.length_eq.symm,
    b9.length_eq.symm.trans h.cells.length_eq.symm, fun c hcm => ?_⟩
  obtain ⟨c', hc1, k⟩ := forall₂_exists_left h.cells hcm
  refine ⟨?_, ?_⟩
  · obtain ⟨q, hq, g, i1, k1⟩ := forall₂_exists_left a9 hcm
    obtain ⟨q', hq', g', i2, k2⟩ := forall₂_exists_left b9 hc1
    exact ⟨q, hq, q', hq', g, g', i1, by rw [i2, k.number], fun p => by rw [k1, k2, k.number, C114_points h fun s hs => (hc.numbers.2 s hs).1]⟩
  · obtain ⟨x, hx, k1⟩ := forall₂_exists_left a10 hcm
    obtain ⟨x', hx', k2⟩ := forall₂_exists_left b10 hc1
    rw [k.number] at k2
    exact ⟨x, hx, x', hx', both_made h hf.materials k k1 k2⟩

/-- **C114** for MCNP (partial). The written files are read again. Also missing: the texts of numbers must fit on a card (`hread`, `hread'`), and importances must have texts that the reader of cell cards takes (`hi`). -/
theorem C114_mcnp_partial (e : Env K) (hio : Exact e.io) (cosDeg : K → K) (quick : Bool) (r : Renumbering) (rank rank' : Int → Nat) (text text' : Str) (f f' : InputFile K) (hmn : ∀ mn ∈ printedMnemonics, e.io.parse mn = none)
    (hf : FileSays e.io text f) (hf' : FileSays e.io text' f') (h : Renumbered r f f') (hc : ConvertibleFile e.io cosDeg e.sqrt rank f) (hc' : ConvertibleFile e.io cosDeg e.sqrt rank' f') (hk : CardFile f) (hk' : CardFile f')
    (hi : ∀ (i : Nat) c x, f.cells[i]? = some c → FileImportance e.io f i c x → PlainNumber (e.io.render x))
    (hread : ∀ d fuel d', readDeck e.io cosDeg (readText text) = .ok d → finishDeck fuel e.io cosDeg e.sqrt quick d = some (.ok d') → ShortCells e.io d ∧ ShortSurfaces e.io d')
    (hread' : ∀ d fuel d', readDeck e.io cosDeg (readText text') = .ok d → finishDeck fuel e.io cosDeg e.sqrt quick d = some (.ok d') → ShortCells e.io d ∧ ShortSurfaces e.io d') :
    ∃ fuel₀, ∀ fuel ≥ fuel₀, ∃ out d2 out' d2', Converts { e with fuel := fuel } cosDeg quick text .mcnp (.text out) ∧ readDeck e.io cosDeg (readText out) = .ok d2 ∧
      Converts { e with fuel := fuel } cosDeg quick text' .mcnp (.text out') ∧ readDeck e.io cosDeg (readText out') = .ok d2' ∧ d2.cells.length = f.cells.length ∧ d2'.cells.length = f.cells.length ∧
      ∀ c ∈ f.cells, ∃ c2 ∈ d2.cells, ∃ c2' ∈ d2'.cells, c2.id = c.number ∧ c2'.id = r.cell c.number ∧ (∀ p, InDeckCell e.sqrt d2 c2.id p ↔ InDeckCell e.sqrt d2' c2'.id p) ∧
        SameFilling c (c2.material.text = c!"0") (c2'.material.text = c!"0")
          (fun density comp => c2.material.text ≠ c!"0" ∧ c2.density = density ∧ ∃ m2, d2.materials.lookup c2.material.text = some m2 ∧ m2.composition = comp)
          (fun density comp => c2'.material.text ≠ c!"0" ∧ c2'.density = density ∧ ∃ m2, d2'.materials.lookup c2'.material.text = some m2 ∧ m2.composition = comp) := by
  obtain ⟨n1, h1⟩ := C100_mcnp_partial e hio cosDeg quick rank text f hmn hf hc hk hi hread
  have hi' : ∀ (i : Nat) c' x, f'.cells[i]? = some c' → FileImportance e.io f' i c' x → PlainNumber (e.io.render x) := fun i c' x hx hm => by
    have hlt := (List.getElem?_eq_some_iff.1 hx).1
    have e1 : f.cells[i]? = some (f.cells[i]'(h.cells.length_eq ▸ hlt)) := List.getElem?_eq_getElem _
    have k := List.forall₂_iff_get.1 h.cells |>.2 i (h.cells.length_eq ▸ hlt) hlt
    rw [List.get_eq_getElem, List.get_eq_getElem, (List.getElem?_eq_some_iff.1 hx).2] at k
    refine hi i _ x e1 ?_
    unfold FileImportance at hm ⊢
    rwa [h.importances, k.params] at hm
  obtain ⟨n2, h2⟩ := C100_mcnp_partial e hio cosDeg quick rank' text' f' hmn hf' hc' hk' hi' hread'
  refine ⟨max n1 n2, fun fuel hfu => ?_⟩
  obtain ⟨out, d2, a1, a2, a3⟩ := h1 fuel (le_trans (le_max_left ..) hfu)
  obtain ⟨out', d2', b1, b2, b3⟩ := h2 fuel (le_trans (le_max_right ..) hfu)
  refine ⟨out, d2, out', d2', a1, a2, b1, b2, a3.length_eq.symm, b3.length_eq.symm.trans h.cells.length_eq.symm, fun c hcm => ?_⟩
  obtain ⟨c', hc1, k⟩ := forall₂_exists_left h.cells hcm
  obtain ⟨q, hq, i1, i2, i3⟩ := forall₂_exists_left a3 hcm
  obtain ⟨q', hq', j1, j2, j3⟩ := forall₂_exists_left b3 hc1
  exact ⟨q, hq, q', hq', i1, j1.trans k.number, fun p => by rw [i2, j2, k.number, C114_points h fun s hs => (hc.numbers.2 s hs).1], both_made h hf.materials k i3 j3⟩

/-- **C114** for FLUKA (partial). Also missing: cones, tori and macrobodies with a transformation are left out, and so are points on the surfaces of the processed decks. -/
theorem C114_fluka_partial (e : Env K) (hio : Exact e.io) (hz : e.io.parse c!"0." = some 0) (hz' : e.io.parse c!"0.0" = some 0) (hzero : (e.io.render 0).length ≤ 10)
    (h3 : ∀ x, x = 0 ∨ 1 / 10 ^ 99 ≤ x → x ≤ 10 ^ 9 → (e.sci3 x).length = 10 ∧ '\n' ∉ e.sci3 x)
    (h4 : ∀ x, 1 / 10 ^ 99 ≤ x → x ≤ 100000 → (e.sci4 x).length ≤ 10 ∧ ' ' ∉ e.sci4 x ∧ '\n' ∉ e.sci4 x) (ho : ∀ l, (e.orderStr l).Perm l)
    (cosDeg : K → K) (quick : Bool) (r : Renumbering) (rank rank' : Int → Nat) (text text' : Str) (f f' : InputFile K) (hf : FileSays e.io text f) (hf' : FileSays e.io text' f')
    (h : Renumbered r f f') (hc : ConvertibleFile e.io cosDeg e.sqrt rank f) (hc' : ConvertibleFile e.io cosDeg e.sqrt rank' f') (hk : FlukaFile e.io cosDeg e.sqrt f) (hk' : FlukaFile e.io cosDeg e.sqrt f') :
    ∃ fuel₀ d d' b b', readDeck e.io cosDeg (readText text) = .ok d ∧ readDeck e.io cosDeg (readText text') = .ok b ∧ ∀ fuel ≥ fuel₀,
      finishDeck fuel e.io cosDeg e.sqrt quick d = some (.ok d') ∧ finishDeck fuel e.io cosDeg e.sqrt quick b = some (.ok b') ∧
      ∃ out input out' input', Converts { e with fuel := fuel } cosDeg quick text .fluka (.text out) ∧ flukaRead out = some input ∧
        Converts { e with fuel := fuel } cosDeg quick text' .fluka (.text out') ∧ flukaRead out' = some input' ∧ input.regions.length = f.cells.length ∧ input'.regions.length = f.cells.length ∧
        ∀ c ∈ f.cells, (∃ g ∈ input.regions, ∃ g' ∈ input'.regions, g.1 = c!"C" ++ intStr c.number ∧ g'.1 = c!"C" ++ intStr (r.cell c.number) ∧
            ∀ p, (∀ s ∈ d'.surfaces ++ b'.surfaces, side e.sqrt s.type s.coeffs p ≠ some .on) → (InFluka e.io input.bodies g.2 p ↔ InFluka e.io input'.bodies g'.2 p)) ∧
          ∃ l ∈ input.cards, ∃ l' ∈ input'.cards, field l 0 = c!"ASSIGNMA" ∧ field l' 0 = c!"ASSIGNMA" ∧ field l 2 = c!"C" ++ intStr c.number ∧ field l' 2 = c!"C" ++ intStr (r.cell c.number) ∧
            SameFilling c (field l 1 = c!"BLCKHOLE" ∨ field l 1 = c!"VACUUM") (field l' 1 = c!"BLCKHOLE" ∨ field l' 1 = c!"VACUUM")
              (fun density comp => FlukaHas e.io e.sci3 input.cards (field l 1) density comp) (fun density comp => FlukaHas e.io e.sci3 input'.cards (field l' 1) density comp) := by
  obtain ⟨n1, d, d', r1, h1⟩ := C100_fluka_partial e hio hz hz' hzero h3 h4 ho cosDeg quick rank text f hf hc hk
  obtain ⟨n2, b, b', r2, h2⟩ := C100_fluka_partial e hio hz hz' hzero h3 h4 ho cosDeg quick rank' text' f' hf' hc' hk'
  refine ⟨max n1 n2, d, d', b, b', r1, r2, fun fuel hfu => ?_⟩
  obtain ⟨a0, out, input, a1, a2, a3, a4⟩ := h1 fuel (le_trans (le_max_left ..) hfu)
  obtain ⟨b0, out', input', b1, b2, b3, b4⟩ := h2 fuel (le_trans (le_max_right ..) hfu)
  refine ⟨a0, b0, out, input, out', input', a1, a2, b1, b2, a3.length_eq.symm, b3.length_eq.symm.trans h.cells.length_eq.symm, fun c hcm => ?_⟩
  obtain ⟨c', hc1, k⟩ := forall₂_exists_left h.cells hcm
  refine ⟨?_, ?_⟩
  · obtain ⟨g, hg, i1, k1⟩ := forall₂_exists_left a3 hcm
    obtain ⟨g', hg', i2, k2⟩ := forall₂_exists_left b3 hc1
    exact ⟨g, hg, g', hg', i1, by rw [i2, k.number], fun p hp => by
      rw [k1 p fun s hs => hp s (List.mem_append_left _ hs), k2 p fun s hs => hp s (List.mem_append_right _ hs), k.number, C114_points h fun s hs => (hc.numbers.2 s hs).1]⟩
  · obtain ⟨l, hl, i1, k1⟩ := forall₂_exists_left a4 hcm
    obtain ⟨l', hl', i2, k2⟩ := forall₂_exists_left b4 hc1
    obtain ⟨hl, hl0⟩ := List.mem_filter.1 hl
    obtain ⟨hl', hl0'⟩ := List.mem_filter.1 hl'
    exact ⟨l, hl, l', hl', of_decide_eq_true hl0, of_decide_eq_true hl0', i1, by rw [i2, k.number], both_made h hf.materials k k1 k2⟩

/-- **C114** for SCONE (partial). Also missing: tori and points far from the tip of a cone are left out, and the texts of numbers must be such that SCONE reads them (`hread`, `hread'`). -/
theorem C114_scone_partial (e : Env K) (hio : Exact e.io) (hsci : ∀ x, SconeOrdinary (e.sci x)) (ho : ∀ l, (e.orderInt l).Perm l) (cosDeg tanSq : K → K) (quick : Bool) (read : Str → Option K)
    (hlit : ∀ w x, Literal w x → read w = some x) (r : Renumbering) (rank rank' : Int → Nat) (text text' : Str) (f f' : InputFile K) (hf : FileSays e.io text f) (hf' : FileSays e.io text' f')
    (h : Renumbered r f f') (hc : ConvertibleFile e.io cosDeg e.sqrt rank f) (hc' : ConvertibleFile e.io cosDeg e.sqrt rank' f') (hk : SconeFile e.io f) (hk' : SconeFile e.io f')
    (hread : ∀ d fuel d', readDeck e.io cosDeg (readText text) = .ok d → finishDeck fuel e.io cosDeg e.sqrt quick d = some (.ok d') → PrintedSurfaces read e.io d' ∧
      ∀ s ∈ d.surfaces, IsCone s.type → (∀ x ∈ s.coeffs, Prints read e.fixed x) ∧ ∀ t, s.coeffs[3]? = some t → 0 ≤ t ∧ Prints read e.io.render (e.degAtan (e.sqrt t)) ∧ tanSq (e.degAtan (e.sqrt t)) = t)
    (hread' : ∀ d fuel d', readDeck e.io cosDeg (readText text') = .ok d → finishDeck fuel e.io cosDeg e.sqrt quick d = some (.ok d') → PrintedSurfaces read e.io d' ∧
      ∀ s ∈ d.surfaces, IsCone s.type → (∀ x ∈ s.coeffs, Prints read e.fixed x) ∧ ∀ t, s.coeffs[3]? = some t → 0 ≤ t ∧ Prints read e.io.render (e.degAtan (e.sqrt t)) ∧ tanSq (e.degAtan (e.sqrt t)) = t) :
    ∃ fuel₀ d d' b b', readDeck e.io cosDeg (readText text) = .ok d ∧ readDeck e.io cosDeg (readText text') = .ok b ∧ ∀ fuel ≥ fuel₀,
      finishDeck fuel e.io cosDeg e.sqrt quick d = some (.ok d') ∧ finishDeck fuel e.io cosDeg e.sqrt quick b = some (.ok b') ∧
      ∃ out gs ns ses ces mes out' gs' ns' ses' ces' mes',
        (Converts { e with fuel := fuel } cosDeg quick text .scone (.text out) ∧ sconeRead out = some [.dict c!"geometry" gs, .dict c!"nuclearData" ns] ∧
          .dict c!"surfaces" ses ∈ gs ∧ .dict c!"cells" ces ∈ gs ∧ .dict c!"materials" mes ∈ ns) ∧
        (Converts { e with fuel := fuel } cosDeg quick text' .scone (.text out') ∧ sconeRead out' = some [.dict c!"geometry" gs', .dict c!"nuclearData" ns'] ∧
          .dict c!"surfaces" ses' ∈ gs' ∧ .dict c!"cells" ces' ∈ gs' ∧ .dict c!"materials" mes' ∈ ns') ∧ ces.length = f.cells.length ∧ ces'.length = f.cells.length ∧
        ∀ c ∈ f.cells, (∃ x ∈ ces, ∃ x' ∈ ces', ∃ g g', sconeRegion x = some (intStr c.number, g) ∧ sconeRegion x' = some (intStr (r.cell c.number), g') ∧
            ∀ p, (∀ s ∈ d'.surfaces ++ b'.surfaces, ∀ u, coneOffset s.type s.coeffs p = some u → |u| < 10 ^ 10) → (InScone tanSq read ses g p ↔ InScone tanSq read ses' g' p)) ∧
          ∃ x ∈ ces, ∃ x' ∈ ces', SameFilling c (sconeMaterialOf x = some (intStr c.number, c!"void")) (sconeMaterialOf x' = some (intStr (r.cell c.number), c!"void"))
            (fun density comp => ∃ name, name ≠ c!"void" ∧ sconeMaterialOf x = some (intStr c.number, name) ∧ SconeHas e.sci mes name density comp)
            (fun density comp => ∃ name, name ≠ c!"void" ∧ sconeMaterialOf x' = some (intStr (r.cell c.number), name) ∧ SconeHas e.sci mes' name density comp) := by
  obtain ⟨n1, d, d', r1, h1⟩ := C100_scone_partial e hio hsci ho cosDeg tanSq quick read hlit rank text f hf hc hk hread
  obtain ⟨n2, b, b', r2, h2⟩ := C100_scone_partial e hio hsci ho cosDeg tanSq quick read hlit rank' text' f' hf' hc' hk' hread'
  refine ⟨max n1 n2, d, d', b, b', r1, r2, fun fuel hfu => ?_⟩
  obtain ⟨a0, out, gs, ns, ses, ces, mes, a1, a2, a3, a4, a5, a6, a7⟩ := h1 fuel (le_trans (le_max_left ..) hfu)
  obtain ⟨b0, out', gs', ns', ses', ces', mes', b1, b2, b3, b4, b5, b6, b7⟩ := h2 fuel (le_trans (le_max_right ..) hfu)
  refine ⟨a0, b0, out, gs, ns, ses, ces, mes, out', gs', ns', ses', ces', mes', ⟨a1, a2, a3, a4, a5⟩, ⟨b1, b2, b3, b4, b5⟩, a6.length_eq.symm, b6.length_eq.symm.trans h.cells.length_eq.symm, fun c hcm => ?_⟩
  obtain ⟨c', hc1, k⟩ := forall₂_exists_left h.cells hcm
  refine ⟨?_, ?_⟩
  · obtain ⟨x, hx, g, i1, k1⟩ := forall₂_exists_left a6 hcm
    obtain ⟨x', hx', g', i2, k2⟩ := forall₂_exists_left b6 hc1
    exact ⟨x, hx, x', hx', g, g', i1, by rw [i2, k.number], fun p hp => by
      rw [k1 p fun s hs => hp s (List.mem_append_left _ hs), k2 p fun s hs => hp s (List.mem_append_right _ hs), k.number, C114_points h fun s hs => (hc.numbers.2 s hs).1]⟩
  · obtain ⟨x, hx, k1⟩ := forall₂_exists_left a7 hcm
    obtain ⟨x', hx', k2⟩ := forall₂_exists_left b7 hc1
    rw [k.number] at k2
    exact ⟨x, hx, x', hx', both_made h hf.materials k k1 k2⟩

end

private def env : Env ℚ :=
  { fuel := 100, io := mixedIO, fixed := formatF, sci := formatF, sci4 := fun x => (mixedIO.render x).take 10, sci3 := formatF, sqrt := id, degAtan := id, orderStr := id, orderInt := id }

/-- The part of a box beyond a facet of a second box, which has this number. -/
private def twoBoxes (n : Str) : Str := c!"title\n1 1 -7 -5 " ++ n ++ c!".1 imp:n=1\n2 0 3 imp:n=0\n\n3 so 9\n5 rpp 0 4 0 4 0 4\n" ++ n ++ c!" rpp -2 2 -2 2 -2 2\n\nm1 1001 1.0\n"

/-- The second box has number 6 or 15. With 6 the cell is the part of the first box with `x > 2`; with 15 it is the part with `x > 4`, which is nothing: the facet `15.1` is replaced when box 5 is, because its number ends with 5. -/
theorem C114_refuted :
    (convert env id true (some [c!"mcnp"]) (twoBoxes c!"6")).run =
      .ok (some [(.mcnp, .text c!"C cell definitions\n1 1 -7.0 ( -7 -8 -9 -10 -11 -12 ) 13 IMP:N=1.0\n2 0 3 IMP:N=0.0\n\nC surface definitions\n3 s 0.0 0.0 0.0 9.0\n7 px 4.0\n8 p -1.0 0.0 0.0 0.0\n9 py 4.0\n10 p 0.0 -1.0 0.0 0.0\n11 pz 4.0\n12 p 0.0 0.0 -1.0 0.0\n13 px 2.0\n14 p -1.0 0.0 0.0 2.0\n15 py 2.0\n16 p 0.0 -1.0 0.0 2.0\n17 pz 2.0\n18 p 0.0 0.0 -1.0 2.0\n\nC material definitions\nC Material M1\nM1     1001 1.0\n")]) ∧
    (convert env id true (some [c!"mcnp"]) (twoBoxes c!"15")).run =
      .ok (some [(.mcnp, .text c!"C cell definitions\n1 1 -7.0 ( -16 -17 -18 -19 -20 -21 ) 16 IMP:N=1.0\n2 0 3 IMP:N=0.0\n\nC surface definitions\n3 s 0.0 0.0 0.0 9.0\n16 px 4.0\n17 p -1.0 0.0 0.0 0.0\n18 py 4.0\n19 p 0.0 -1.0 0.0 0.0\n20 pz 4.0\n21 p 0.0 0.0 -1.0 0.0\n22 px 2.0\n23 p -1.0 0.0 0.0 2.0\n24 py 2.0\n25 p 0.0 -1.0 0.0 2.0\n26 pz 2.0\n27 p 0.0 0.0 -1.0 2.0\n\nC material definitions\nC Material M1\nM1     1001 1.0\n")]) :=
  ⟨by decide +kernel, by decide +kernel⟩

end Csg
