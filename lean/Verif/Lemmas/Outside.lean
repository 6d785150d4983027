import Verif.Props.FromText
import Verif.Spec.Outside

/-!
# Lemmas for C102: the cells with importance zero, from the file to the processed deck
-/

set_option linter.unusedSectionVars false

namespace Csg

open Spec

section
variable {K : Type} [Field K] [LinearOrder K] [IsStrictOrderedRing K]

/-- The surfaces that are listed for a flattened cell, if its description names no macrobodies: those listed before, those named in the description, and new ones. -/
theorem flatten_named {io : NumIO K} (hio : Exact io) {cosDeg sqrt : K → K} {rank : Int → Nat} {d : Deck K} (hd : ProperDeck sqrt rank d)
    {cells1 : List (Cell K)} {surfs1 : List (Surface K)} {last1 : Int} (h : flatten io cosDeg sqrt d.cells d.surfaces d.last = .ok (cells1, surfs1, last1)) :
    List.Forall₂ (fun c c' => (∀ n ∈ c.surfaces, n ∈ c'.surfaces) ∧ (NumbersPlain d.surfaces c.text → ∀ n ∈ c'.surfaces, (∃ s ∈ d.surfaces, s.id = n) →
      n ∈ c.surfaces ∨ ∃ w ∈ c.text, ∃ z : Int, parseInt w = some z ∧ n = z.natAbs)) d.cells cells1 := by
  have hloop : ∀ c ∈ d.cells, LoopCell d.surfaces d.surfaces c := fun c hc =>
    ⟨(hd.cells c hc).1.material, (hd.cells c hc).1.legal, (hd.cells c hc).1.parsed, fun w hw hs =>
      LoopWord.of_known ((hd.cells c hc).2 w (by rw [← hs]; exact List.mem_map_of_mem hw))⟩
  obtain ⟨cells', more, last', h1, -, h3, -, -, h6⟩ := flattenGo_ok (fun _ p => p) io hio cosDeg d.surfaces d.surfaces d.last d.cells (uniqueIds_of_nodup hd.ids) hd.range hd.last
    (fun _ h => h) (List.Nodup.of_map _ hd.ids) hd.bodies hloop
  unfold flatten at h
  rw [h1] at h
  cases h
  refine forall₂_imp (fun c c' a => ⟨a.2.more.2, fun hn n hn' hs => ?_⟩) h6
  rcases (a.2.named hn).2 n hn' with k | k | ⟨t, ht, hno, e⟩
  · exact .inl k
  · exact .inr k
  · obtain ⟨s, hs, e'⟩ := hs
    obtain rfl := h3 t ht s (List.mem_append_left _ hs) (by rw [e, e'])
    exact absurd hs hno

variable {fuel : Nat} {io : NumIO K} {cosDeg sqrt : K → K} {quick : Bool} {rank : Int → Nat} {lines : List Str} {d d' : Deck K} {f : InputFile K}

/-- The surfaces that are listed for the cells of the processed deck. -/
theorem processed_named (hio : Exact io) (hd : ProperDeck sqrt rank d) (h : finishDeck fuel io cosDeg sqrt quick d = some (.ok d')) :
    List.Forall₂ (fun c c' => (∀ n ∈ c.surfaces, n ∈ c'.surfaces) ∧ (NumbersPlain d.surfaces c.text → ∀ n ∈ c'.surfaces, (∃ s ∈ d.surfaces, s.id = n) →
      n ∈ c.surfaces ∨ ∃ w ∈ c.text, ∃ z : Int, parseInt w = some z ∧ n = z.natAbs)) d.cells d'.cells := by
  obtain ⟨cells1, cells2, cells3, cells4, cells5, surfs1, surfs2, surfs3, surfs4, r⟩ := finishDeck_run h
  obtain ⟨-, -, -, f4, -⟩ := flatten_facts hio hd r.flat
  obtain ⟨fuel0, cells2', k1, k2, -⟩ := C21_expansion rank cells1 f4
  have e2 : cells2' = cells2 := by
    have a := k1 (max fuel fuel0) (le_max_right _ _)
    have b := explodeFrom_mono (le_max_left fuel fuel0) r.nots
    rw [explodeNots, b] at a
    cases a
    rfl
  subst e2
  refine forall₂_trans (R := fun c c' : Cell K => (∀ n ∈ c.surfaces, n ∈ c'.surfaces) ∧ (NumbersPlain d.surfaces c.text → ∀ n ∈ c'.surfaces, (∃ s ∈ d.surfaces, s.id = n) →
      n ∈ c.surfaces ∨ ∃ w ∈ c.text, ∃ z : Int, parseInt w = some z ∧ n = z.natAbs)) (S := fun c c' : Cell K => c'.surfaces = c.surfaces) (fun a b c x y => ?_) (flatten_named hio hd r.flat) ?_
  · rw [y]
    exact x
  · refine forall₂_trans (R := fun c c' : Cell K => c'.surfaces = c.surfaces) (S := fun c c' : Cell K => c'.surfaces = c.surfaces) (fun a b c x y => by rw [y, x])
      (forall₂_imp (fun c c' k => by rw [k]) k2) ?_
    refine forall₂_trans (R := CellFrame) (S := fun c c' => c' = { c with interpreted := c'.interpreted }) (fun a b c x y => ?_) r.cellFrame r.final.1
    unfold CellFrame at x
    rw [y, x]

/-- The plain surfaces are there after a quick run. -/
theorem processed_plain (hio : Exact io) (hd : ProperDeck sqrt rank d) (h : finishDeck fuel io cosDeg sqrt true d = some (.ok d')) {s : Surface K} (hs : s ∈ d.surfaces) (hm : s.isMacrobody = false) :
    ∃ s' ∈ d'.surfaces, s'.id = s.id := by
  obtain ⟨cells1, cells2, cells3, cells4, cells5, surfs1, surfs2, surfs3, surfs4, r⟩ := finishDeck_run h
  have h1 := (flatten_lists hio hd r.flat).1 s hs hm
  have e2 : surfs4 = d'.surfaces := by
    have e := r.dups
    simp only [if_true] at e
    injection e with e
    exact congrArg Prod.snd e
  rw [← e2]
  obtain ⟨s', hs', k⟩ := forall₂_exists_left (r.surfs hio hd).2 h1
  exact ⟨s', hs', k.1⟩

/-- A cell has one importance. -/
theorem importance_unique (hn : f.importances.length ≤ 1) {e : CellEntry K} {c : Cell K} (k : CellAgrees io cosDeg e c) {i : Nat} {x y : K} (hx : FileImportance io f i e x) (hy : FileImportance io f i e y) : x = y := by
  have one : ∀ vs ∈ f.importances, ∀ vs' ∈ f.importances, vs = vs' := by
    match hf : f.importances with
    | [] => simp
    | [a] => simp
    | a :: b :: l => rw [hf] at hn; simp at hn
  have own : ∀ x, ((∃ v, .importance v ∈ e.params ∧ io.float v = .ok x) ∨ (∀ v, .importance v ∉ e.params) ∧ x = 1) → x = c.importance := by
    rintro x (⟨v, hv, hx⟩ | ⟨hno, rfl⟩)
    · rw [k.params.importance v hv] at hx
      cases hx
      rfl
    · exact (k.params.noImportance hno).symm
  rcases hx with ⟨vs, hvs, hx⟩ | ⟨h0, hx⟩ <;> rcases hy with ⟨vs', hvs', hy⟩ | ⟨h0', hy⟩
  · rw [one vs hvs vs' hvs', hy] at hx
    cases hx
    rfl
  · rw [h0' vs hvs] at hx
    cases hx
  · rw [h0 vs' hvs'] at hy
    cases hy
  · rw [own x hx, own y hy]

/-- The importances of the processed cells are those of the file. -/
theorem file_importances {text : Str} (hio : Exact io) (hsays : FileSays io text f) (ha : DeckAgrees io cosDeg sqrt f d) (hd : ProperDeck sqrt rank d) (hq : ∀ s ∈ d.surfaces, TwoSheet s)
    (h : finishDeck fuel io cosDeg sqrt quick d = some (.ok d')) {i : Nat} {e : CellEntry K} (he : f.cells[i]? = some e) :
    ∃ c c', d.cells[i]? = some c ∧ d'.cells[i]? = some c' ∧ CellAgrees io cosDeg e c ∧ c'.id = e.number ∧ ∀ x, FileImportance io f i e x ↔ c'.importance = x := by
  obtain ⟨c, hc, k⟩ := forall₂_getElem? ha.cells he
  obtain ⟨c', hc', k'⟩ := forall₂_getElem? (processed_cells hio hd (.inr hq) h).2.2 hc
  have := file_importance ha hsays.importances k (processed_importances hio hd h hc hc')
  exact ⟨c, c', hc, hc', k, by rw [k'.1.1, k.number], fun x => ⟨fun hx => importance_unique hsays.importances k this hx, fun hx => hx ▸ this⟩⟩

theorem symbol_text {c : Cell K} {e : CellEntry K} (k : CellAgrees io cosDeg e c) {w : Str} (h : Sym.atom w ∈ lexGeometry e.geometry) : w ∈ c.text := by
  rw [← k.region.1] at h
  obtain ⟨t, ht, e⟩ := List.mem_map.1 h
  rwa [← tokenSym_eq_atom e]

theorem text_symbol {c : Cell K} {e : CellEntry K} (k : CellAgrees io cosDeg e c) {w : Str} {z : Int} (h : w ∈ c.text) (hz : parseInt w = some z) : Sym.atom w ∈ lexGeometry e.geometry := by
  rw [← k.region.1]
  exact mem_text h hz

/-- The surfaces that the processed cells with importance zero list: at least those that the cells of the file name apart, and of those in the file at most those that they name. -/
theorem listed_outside {text : Str} (hio : Exact io) (hsays : FileSays io text f) (hr : readDeck io cosDeg (readText text) = .ok d) (ha : DeckAgrees io cosDeg sqrt f d)
    (hd : Convertible io sqrt rank d) (h : finishDeck fuel io cosDeg sqrt quick d = some (.ok d')) (n : Int) :
    (NamedApart io f n → ∃ c ∈ d'.cells, c.importance = 0 ∧ n ∈ c.surfaces) ∧ ((∃ s ∈ d.surfaces, s.id = n) → (∃ c ∈ d'.cells, c.importance = 0 ∧ n ∈ c.surfaces) → NamedOutside io f n) := by
  have hrec := readDeck_recorded hr
  have hnamed := processed_named hio hd.proper h
  constructor
  · rintro ⟨i, e, a, b, w, z, he, himp, hlex, hlast, hz, rfl⟩
    obtain ⟨c, c', hc, hc', k, -, hi⟩ := file_importances hio hsays ha hd.proper hd.sheets h he
    refine ⟨c', List.mem_of_getElem? hc', (hi 0).1 himp, ?_⟩
    obtain ⟨c'', hc'', k1, -⟩ := forall₂_getElem? hnamed hc
    rw [hc'] at hc''
    cases hc''
    refine k1 _ ?_
    rw [← k.region.1] at hlex
    unfold tokenSyms at hlex
    obtain ⟨a', r, e1, rfl, e3⟩ := List.map_eq_append_iff.1 hlex
    obtain ⟨w', b', rfl, e4, rfl⟩ := List.map_eq_cons_iff.1 e3
    obtain rfl := tokenSym_eq_atom e4
    refine (hrec c (List.mem_of_getElem? hc)).1 a' w' b' z e1 (fun h0 => hlast ?_) hz
    rw [List.getLast?_map, h0]
    rfl
  · rintro hsn ⟨c', hc', himp, hn⟩
    obtain ⟨i, hi⟩ := List.getElem?_of_mem hc'
    obtain ⟨c, hc, k1, k2⟩ := forall₂_getElem? hnamed.flip hi
    obtain ⟨e, he, k⟩ := forall₂_getElem? ha.cells.flip hc
    obtain ⟨c2, c2', hc2, hc2', -, -, hiff⟩ := file_importances hio hsays ha hd.proper hd.sheets h he
    rw [hi] at hc2'
    cases hc2'
    have himp' := (hiff 0).2 himp
    have hplain : NumbersPlain d.surfaces c.text := hd.outside i c hc (by
      have := processed_importances hio hd.proper h hc hi
      rwa [himp] at this)
    rcases k2 hplain n hn hsn with hm | ⟨w, hw, z, hz, rfl⟩
    · obtain ⟨w, hw, z, hz, rfl⟩ := (hrec c (List.mem_of_getElem? hc)).2 n hm
      exact ⟨i, e, w, z, he, himp', text_symbol k hw hz, hz, rfl⟩
    · exact ⟨i, e, w, z, he, himp', text_symbol k hw hz, hz, rfl⟩

end

end Csg
