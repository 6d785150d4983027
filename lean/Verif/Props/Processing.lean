import Verif.Lemmas.Processing
import Verif.Lemmas.Exact
import Verif.Props.DataCards
import Verif.Props.Reorganise
import Verif.Props.Boundary
import Verif.Props.SurfaceCards
import Verif.Props.Blocks

/-!
# Processing a whole deck
-/

set_option linter.unusedSectionVars false

namespace Csg

open Spec

section
variable {K : Type} [Field K] [LinearOrder K] [IsStrictOrderedRing K]

/-! ## C84: processing keeps the point sets -/

variable {fuel : Nat} {io : NumIO K} {cosDeg sqrt : K → K} {quick : Bool} {d d' : Deck K} {cells1 cells2 cells3 cells4 cells5 : List (Cell K)}
    {surfs1 surfs2 surfs3 surfs4 : List (Surface K)}

/-- The deck before duplicate removal. -/
theorem Run.before (r : Run fuel io cosDeg sqrt quick d d' cells1 cells2 cells3 cells4 cells5 surfs1 surfs2 surfs3 surfs4) (hio : Exact io) {rank : Int → Nat}
    (hd : ProperDeck sqrt rank d) :
    List.Forall₂ (Placed sqrt d.transforms) surfs1 surfs4 ∧ (surfs4.map Surface.id).Nodup ∧ (∀ s ∈ surfs4, 0 < s.id ∧ s.id ≤ d'.last ∧ s.isMacrobody = false) ∧
    List.Forall₂ (fun c c' => (c'.id = c.id ∧ c'.density = c.density ∧ c'.fill = c.fill ∧ c'.uni = c.uni) ∧ Legal (itemSyms c'.interpreted) ∧
      OnlyNumbers c'.interpreted ∧ (∀ z ∈ numbers c'.interpreted, ∃ s ∈ surfs4, s.id = z.natAbs) ∧
      ∀ p T, IsCellTruth (pointSense sqrt (placeBy d.transforms) d.surfaces p) T d.cells → (InCell sqrt surfs4 c'.interpreted p ↔ T c.id)) d.cells cells5 := by
  obtain ⟨f1, f2, f3, f4, f5, f6, f7⟩ := flatten_facts hio hd r.flat
  obtain ⟨fuel0, cells2', k1, k2, k3⟩ := C21_expansion rank cells1 f4
  have e2 : cells2' = cells2 := by
    have a := k1 (max fuel fuel0) (le_max_right _ _)
    have b := explodeFrom_mono (le_max_left fuel fuel0) r.nots
    rw [explodeNots, b] at a
    cases a
    rfl
  subst e2
  have hfr := r.cellFrame
  obtain ⟨-, hpl⟩ := r.surfs hio hd
  have hids4 : surfs4.map Surface.id = surfs1.map Surface.id := forall₂_map_eq (fun _ _ a => a.1) hpl
  have hpos4 : ∀ s ∈ surfs4, 0 < s.id ∧ s.id ≤ d'.last ∧ s.isMacrobody = false := by
    intro s hs
    obtain ⟨s1, hs1, a⟩ := forall₂_right hpl s hs
    rw [a.1]
    exact ⟨(f2 s1 hs1).1, (f2 s1 hs1).2.1, a.2.1⟩
  have hw2 : ∀ c ∈ cells2', ∀ w ∈ words c.interpreted, w = c!"(" ∨ w = c!")" ∨ ∃ z : Int, parseInt w = some z ∧ ∃ s ∈ surfs4, s.id = z.natAbs := by
    intro c hc w hw
    have g := explodeFrom_words (P := GoodWord surfs1) (Or.inl rfl) (Or.inr (Or.inl rfl)) fuel _ f5 r.nots c hc w hw
    rcases goodWord_number (fun s hs => (f2 s hs).1) g ((k3 c hc).1 w hw) with g | g | ⟨z, g, s, hs, e⟩
    · exact Or.inl g
    · exact Or.inr (Or.inl g)
    · have hm : s.id ∈ surfs4.map Surface.id := hids4 ▸ List.mem_map_of_mem hs
      obtain ⟨s', hs', e'⟩ := List.mem_map.1 hm
      exact Or.inr (Or.inr ⟨z, g, s', hs', e'.trans e⟩)
  -- the cells before duplicate removal
  have hsense : ∀ p w, pointSense sqrt (placeBy d.transforms) surfs1 p w ↔ wordSense (surfaceSense sqrt (fun _ q => q) surfs4 p) w := by
    intro p w
    have : ∀ z, surfaceSense sqrt (placeBy d.transforms) surfs1 p z ↔ surfaceSense sqrt (fun _ q => q) surfs4 p z :=
      surfaceSense_congr (forall₂_imp (fun s s' a => ⟨a.1, fun b => a.2.2.1 p b⟩) hpl)
    unfold pointSense wordSense
    simp only [this]
    exact or_iff_left (facetSense_plain (fun s hs => (f2 s hs).2.2.1) p w)
  refine ⟨hpl, hids4 ▸ f1, hpos4, ?_⟩
  have h5 : List.Forall₂ (fun c c' => (c'.id = c.id ∧ c'.density = c.density ∧ c'.fill = c.fill ∧ c'.uni = c.uni) ∧ Legal (itemSyms c'.interpreted) ∧
      OnlyNumbers c'.interpreted ∧ (∀ z ∈ numbers c'.interpreted, ∃ s ∈ surfs4, s.id = z.natAbs) ∧
      ∀ p T, IsCellTruth (pointSense sqrt (placeBy d.transforms) d.surfaces p) T d.cells → (InCell sqrt surfs4 c'.interpreted p ↔ T c.id)) d.cells cells5 := by
    refine forall₂_trans ?_ f6 (forall₂_trans (T := fun a c => ∃ b, b ∈ cells2' ∧ b = { a with interpreted := b.interpreted } ∧ CellFrame b c) ?_ (forall₂_mem k2) hfr)
    swap
    · intro a b c x y
      exact ⟨b, x.2.1, x.2.2, y⟩
    · rintro a b c hab ⟨b', hb', e, y⟩
      unfold CellFrame at y
      have ei : c.interpreted = b'.interpreted := by rw [y]
      obtain ⟨g1, g2, g3⟩ := k3 b' hb'
      have eid : b'.id = a.id := by rw [e, hab]
      refine ⟨⟨by rw [y, e, hab], by rw [y, e, hab], by rw [y, e, hab], by rw [y, e, hab]⟩, ei ▸ g2, ?_, ?_, ?_⟩
      · intro w hw
        rw [ei] at hw
        rcases hw2 b' hb' w hw with g | g | ⟨z, g, -⟩
        · exact Or.inl g
        · exact Or.inr (Or.inl g)
        · exact Or.inr (Or.inr ⟨z, g⟩)
      · intro z hz
        rw [ei] at hz
        obtain ⟨w, hw, e⟩ := List.mem_filterMap.1 hz
        rcases hw2 b' hb' w hw with rfl | rfl | ⟨z', g, s⟩
        · rw [show parseInt c!"(" = none by decide] at e; cases e
        · rw [show parseInt c!")" = none by decide] at e; cases e
        · rw [g] at e
          cases e
          exact s
      · intro p T hT
        unfold InCell
        rw [ei, ← eid, ← g3 _ T ((f7 _ p T).1 hT)]
        exact holds_congr fun w _ => (hsense p w).symm
  exact h5

/-- C84, in part. After processing of a proper deck every description is an expression over numbers of surfaces of the new list, which are in the global system of coordinates, and
holds at the points of the cell in the deck as read: with macrobodies, facets, complements of cells and TR cards. Missing are the decks that `ProperDeck` leaves out; without
`quick` also those with one-sheet cones (`C23_refuted`). -/
theorem C84_regions_partial (fuel : Nat) (io : NumIO K) (hio : Exact io) (cosDeg sqrt : K → K) (quick : Bool) (rank : Int → Nat) (d d' : Deck K)
    (hd : ProperDeck sqrt rank d) (hq : quick = true ∨ ∀ s ∈ d.surfaces, TwoSheet s) (h : finishDeck fuel io cosDeg sqrt quick d = some (.ok d')) :
    (d'.surfaces.map Surface.id).Nodup ∧ (∀ s ∈ d'.surfaces, 0 < s.id ∧ s.id ≤ d'.last ∧ s.isMacrobody = false) ∧
    (∀ p, ∃ T, IsCellTruth (pointSense sqrt (placeBy d.transforms) d.surfaces p) T d.cells) ∧
    List.Forall₂ (fun c c' =>
      (c'.id = c.id ∧ c'.density = c.density ∧ c'.fill = c.fill ∧ c'.uni = c.uni) ∧
      Legal (itemSyms c'.interpreted) ∧ OnlyNumbers c'.interpreted ∧ (∀ z ∈ numbers c'.interpreted, ∃ s ∈ d'.surfaces, s.id = z.natAbs) ∧
      ∀ p T, IsCellTruth (pointSense sqrt (placeBy d.transforms) d.surfaces p) T d.cells → (InCell sqrt d'.surfaces c'.interpreted p ↔ T c.id))
      d.cells d'.cells := by
  obtain ⟨cells1, cells2, cells3, cells4, cells5, surfs1, surfs2, surfs3, surfs4, r⟩ := finishDeck_run h
  obtain ⟨-, -, f3, -⟩ := flatten_facts hio hd r.flat
  obtain ⟨hpl, hn4, hpos4, h5⟩ := r.before hio hd
  have hT : ∀ p, ∃ T, IsCellTruth (pointSense sqrt (placeBy d.transforms) d.surfaces p) T d.cells := fun p => (C21_truth_exists_unique rank d.cells hd.complements _).1
  cases quick with
  | true =>
    have e := r.dups
    simp only [if_true] at e
    have e1 : d'.cells = cells5 := by injection e with e; exact (congrArg Prod.fst e).symm
    have e2 : d'.surfaces = surfs4 := by injection e with e; exact (congrArg Prod.snd e).symm
    rw [e1, e2]
    exact ⟨hn4, hpos4, hT, h5⟩
  | false =>
    have e := r.dups
    simp only [Bool.false_eq_true, if_false] at e
    have hq : ∀ s ∈ d.surfaces, TwoSheet s := by simpa using hq
    have hm : Mergeable surfs4 := by
      constructor
      · intro s hs
        obtain ⟨s1, hs1, a⟩ := forall₂_right hpl s hs
        exact ⟨a.2.2.2.1, a.2.2.2.2.1⟩
      · intro s hs t ht _ _
        obtain ⟨s1, hs1, a⟩ := forall₂_right hpl s hs
        exact a.2.2.2.2.2 (f3 hq s1 hs1)
    have ho : ∀ c ∈ cells5, OnlyNumbers c.interpreted := by
      intro c hc
      obtain ⟨c1, -, a⟩ := forall₂_right h5 c hc
      exact a.2.2.1
    obtain ⟨cells6, surfs5, g1, g2⟩ := C23_dedupe_regions_partial sqrt cells5 surfs4 (hn4) (fun s hs => (hpos4 s hs).1) hm ho
    rw [e] at g1
    cases g1
    obtain ⟨m1, m2, -⟩ := C24_dedupe_complete cells5 d'.cells surfs4 d'.surfaces (hn4) (fun s hs => (hpos4 s hs).1) ho e
    refine ⟨List.Nodup.sublist (List.Sublist.map _ m1) (hn4), fun s hs => hpos4 s (m1.subset hs), hT, ?_⟩
    refine forall₂_trans ?_ h5 (forall₂_both g2 m2)
    rintro a b c ⟨x1, x2, x3, x4, x5⟩ ⟨⟨y1, y2, y3, y4⟩, y5, -⟩
    refine ⟨⟨by rw [y1]; exact x1.1, by rw [y1]; exact x1.2.1, by rw [y1]; exact x1.2.2.1, by rw [y1]; exact x1.2.2.2⟩, y3.1 x2, y2, ?_, fun p T hT => ?_⟩
    · intro z' hz'
      obtain ⟨z, hz, hzz⟩ := forall₂_right y5 z' hz'
      exact hzz (x4 z hz)
    · rw [← x5 p T hT]
      exact (y4 p).symm

/-- C84, in part. Processing of a proper deck ends, with a deck or with an exception. -/
theorem C84_ends_partial (io : NumIO K) (hio : Exact io) (cosDeg sqrt : K → K) (quick : Bool) (rank : Int → Nat) (d : Deck K) (hd : ProperDeck sqrt rank d) :
    ∃ fuel r, ∀ more, fuel ≤ more → finishDeck more io cosDeg sqrt quick d = some r := by
  obtain ⟨cells1, surfs1, last1, h, -⟩ := C17_flatten_regions_partial io hio cosDeg sqrt d.cells d.surfaces d.last hd.ids hd.range hd.last hd.bodies hd.cells
  obtain ⟨-, -, -, f4, -⟩ := flatten_facts hio hd h
  obtain ⟨fuel, cells2, k, -⟩ := C21_expansion rank cells1 f4
  have e : ∀ more, fuel ≤ more → finishDeck more io cosDeg sqrt quick d = finishDeck fuel io cosDeg sqrt quick d := by
    intro more hm
    unfold finishDeck
    rw [h]
    simp only
    rw [k more hm, k fuel (le_refl _)]
  have hs : ∃ r, finishDeck fuel io cosDeg sqrt quick d = some r := by
    unfold finishDeck
    rw [h]
    simp only
    rw [k fuel (le_refl _)]
    exact ⟨_, rfl⟩
  obtain ⟨r, hr⟩ := hs
  exact ⟨fuel, r, fun more hm => (e more hm).trans hr⟩

/-! ## C85: the other effects of processing -/

theorem dedupe_frame {cells cells' : List (Cell K)} {surfs surfs' : List (Surface K)} (h : dedupe cells surfs = .ok (cells', surfs')) :
    List.Forall₂ (fun c c' => c' = { c with interpreted := c'.interpreted }) cells cells' ∧ List.Sublist surfs' surfs := by
  unfold dedupe at h
  obtain ⟨gs, -, h⟩ := bind_ok h
  obtain ⟨rs, -, h⟩ := bind_ok h
  obtain ⟨cs, h1, h⟩ := bind_ok h
  cases h
  refine ⟨forall₂_imp (fun c c' x => ?_) (mapM_ok_forall₂ h1), remaining_sublist surfs _⟩
  obtain ⟨is, -, x⟩ := bind_ok x
  cases x
  rfl

theorem Run.final (r : Run fuel io cosDeg sqrt quick d d' cells1 cells2 cells3 cells4 cells5 surfs1 surfs2 surfs3 surfs4) :
    List.Forall₂ (fun c c' => c' = { c with interpreted := c'.interpreted }) cells5 d'.cells ∧ List.Sublist d'.surfaces surfs4 := by
  have e := r.dups
  cases quick with
  | true =>
    simp only [if_true] at e
    have e1 : cells5 = d'.cells := by injection e with e; exact congrArg Prod.fst e
    have e2 : surfs4 = d'.surfaces := by injection e with e; exact congrArg Prod.snd e
    rw [e1, e2]
    exact ⟨List.forall₂_same.2 fun _ _ => rfl, List.Sublist.refl _⟩
  | false =>
    simp only [Bool.false_eq_true, if_false] at e
    exact dedupe_frame e

/-- The expanded descriptions: nothing else changes. -/
theorem Run.expanded (r : Run fuel io cosDeg sqrt quick d d' cells1 cells2 cells3 cells4 cells5 surfs1 surfs2 surfs3 surfs4) (hio : Exact io) {rank : Int → Nat}
    (hd : ProperDeck sqrt rank d) :
    List.Forall₂ (fun c c' => c' = { c with text := c'.text, interpreted := c'.interpreted, surfaces := c'.surfaces }) d.cells cells2 := by
  obtain ⟨-, -, -, f4, -, f6, -⟩ := flatten_facts hio hd r.flat
  obtain ⟨fuel0, cells2', k1, k2, -⟩ := C21_expansion rank cells1 f4
  have e2 : cells2' = cells2 := by
    have a := k1 (max fuel fuel0) (le_max_right _ _)
    have b := explodeFrom_mono (le_max_left fuel fuel0) r.nots
    rw [explodeNots, b] at a
    cases a
    rfl
  subst e2
  exact forall₂_trans (fun a b c x y => by rw [y, x]) f6 k2

theorem assignImportances_spec (io : NumIO K) : ∀ (ws : List Str) (cells : List (Cell K)) {cells' : List (Cell K)}, assignImportances io cells ws = .ok cells' →
    ∀ (i : Nat) c c', cells[i]? = some c → cells'[i]? = some c' → (∀ w, ws[i]? = some w → io.float w = .ok c'.importance) ∧ (ws[i]? = none → c'.importance = c.importance) := by
  intro ws
  induction ws with
  | nil =>
    intro cells cells' h i c c' h1 h2
    unfold assignImportances at h
    cases h
    rw [h1] at h2
    cases h2
    exact ⟨fun w hw => by simp at hw, fun _ => rfl⟩
  | cons w ws ih =>
    intro cells cells' h i c c' h1 h2
    cases cells with
    | nil => cases h
    | cons a cells =>
      unfold assignImportances at h
      obtain ⟨x, hx, h⟩ := bind_ok h
      obtain ⟨cs, hcs, h⟩ := bind_ok h
      cases h
      cases i with
      | zero =>
        simp only [List.getElem?_cons_zero, Option.some.injEq] at h1 h2
        subst h1 h2
        exact ⟨fun v hv => by simp at hv; subst hv; exact hx, fun hv => by simp at hv⟩
      | succ i =>
        simp only [List.getElem?_cons_succ] at h1 h2 ⊢
        exact ih cells hcs i c c' h1 h2

/-- C85, in part: cells. A cell with `fill=n(m)` gets the transformation of TR card `m`; a cell without transformation keeps what it has. The importances of the data card go to the
cells in order; other cells keep theirs. -/
theorem C85_cells_partial (fuel : Nat) (io : NumIO K) (hio : Exact io) (cosDeg sqrt : K → K) (quick : Bool) (rank : Int → Nat) (d d' : Deck K)
    (hd : ProperDeck sqrt rank d) (h : finishDeck fuel io cosDeg sqrt quick d = some (.ok d')) :
    List.Forall₂ (fun c c' =>
      (c.trId = c!"0" → c'.trId = c!"0" ∧ c'.offset = c.offset ∧ c'.rotation = c.rotation) ∧
      (c.trId ≠ c!"0" → c'.trId = c!"0" ∧ ∃ t, d.transforms.lookup c.trId = some t ∧ ∀ p q, FillPoint io c' p q ↔ q = pullback t p)) d.cells d'.cells ∧
    ∀ (i : Nat) c c', d.cells[i]? = some c → d'.cells[i]? = some c' →
      (d.importances = [] → c'.importance = c.importance) ∧
      ∀ t, d.importances.lookup .neutron = some t → (∀ w, (split t)[i]? = some w → io.float w = .ok c'.importance) ∧
        ((split t)[i]? = none → c'.importance = c.importance) := by
  obtain ⟨cells1, cells2, cells3, cells4, cells5, surfs1, surfs2, surfs3, surfs4, r⟩ := finishDeck_run h
  have h12 := r.expanded hio hd
  obtain ⟨h56, -⟩ := r.final
  have h34 := reorganiseMaterials_frame io r.mats
  have h45 := applyImportances_frame io r.imps
  have hframe := fill_frame r.fill
  constructor
  · have h35 : List.Forall₂ (fun c c' : Cell K => c'.trId = c.trId ∧ c'.offset = c.offset ∧ c'.rotation = c.rotation) cells3 d'.cells := by
      refine forall₂_trans (R := MatFrame) (fun a b c x y => ?_) h34 (forall₂_trans (T := fun a c : Cell K => c.trId = a.trId ∧ c.offset = a.offset ∧ c.rotation = a.rotation)
        (fun a b c x y => ?_) h45 h56)
      · unfold MatFrame at x
        rw [y.1, y.2.1, y.2.2, x]
        exact ⟨rfl, rfl, rfl⟩
      · rw [y, x]
        exact ⟨rfl, rfl, rfl⟩
    have hknown : ∀ c ∈ cells2, c.trId ≠ c!"0" → c.trId ∈ d.transforms.map Prod.fst := by
      intro c hc hn
      by_contra hno
      have := (C74_fill_transforms io d.transforms cells2).2 ⟨c, hc, hn, hno⟩
      rw [r.fill] at this
      cases this
    obtain ⟨cells3', e3, h23⟩ := (C74_fill_transforms io d.transforms cells2).1 hknown
    rw [r.fill] at e3
    cases e3
    refine forall₂_trans ?_ h12 (forall₂_trans (T := fun b c : Cell K => b ∈ cells2 ∧ ∃ b', ((b.trId = c!"0" → b' = b) ∧
          (b.trId ≠ c!"0" → b' = { b with offset := b'.offset, rotation := b'.rotation, trId := c!"0" } ∧
            ∀ t, d.transforms.lookup b.trId = some t → ∀ p q, FillPoint io b' p q ↔ q = pullback t p)) ∧ c.trId = b'.trId ∧ c.offset = b'.offset ∧ c.rotation = b'.rotation)
      (fun a b c x y => ⟨x.1, b, x.2.2, y⟩) (forall₂_mem h23) h35)
    rintro a b c x ⟨hb, b', ⟨y1, y2⟩, y3, y4, y5⟩
    have e1 : b.trId = a.trId := by rw [x]
    have e2 : b.offset = a.offset := by rw [x]
    have e3 : b.rotation = a.rotation := by rw [x]
    constructor
    · intro h0
      obtain rfl := y1 (e1.trans h0)
      exact ⟨y3.trans (e1.trans h0), y4.trans e2, y5.trans e3⟩
    · intro h0
      obtain ⟨y6, y7⟩ := y2 (e1 ▸ h0)
      have y8 := congrArg Cell.trId y6
      obtain ⟨t, ht⟩ := lookup_of_mem (hknown b hb (e1 ▸ h0))
      refine ⟨y3.trans y8, t, e1 ▸ ht, fun p q => ?_⟩
      rw [← y7 t ht p q]
      unfold FillPoint
      rw [y4, y5]
  · intro i c c' hc hc'
    have h24 : List.Forall₂ (fun c c' : Cell K => c'.importance = c.importance) cells2 cells4 :=
      forall₂_trans (R := FillFrame) (S := MatFrame) (fun a b c x y => by unfold FillFrame at x; unfold MatFrame at y; rw [y, x]) hframe h34
    have h14 : List.Forall₂ (fun c c' : Cell K => c'.importance = c.importance) d.cells cells4 :=
      forall₂_trans (fun a b c x y => by rw [y, x]) h12 h24
    obtain ⟨c4, hc4, e4⟩ := forall₂_getElem? h14 hc
    obtain ⟨c5, hc5, -⟩ := forall₂_getElem? h45 hc4
    obtain ⟨c6, hc6, e6⟩ := forall₂_getElem? h56 hc5
    rw [hc'] at hc6
    cases hc6
    have e6 : c'.importance = c5.importance := by rw [e6]
    rw [e6, ← e4]
    have hi := r.imps
    unfold applyImportances at hi
    constructor
    · intro h0
      rw [if_pos h0] at hi
      cases hi
      rw [hc4] at hc5
      cases hc5
      rfl
    · intro t ht
      have hne : d.importances ≠ [] := by
        intro h0
        rw [h0] at ht
        cases ht
      rw [if_neg hne, ht] at hi
      simp only at hi
      split at hi
      · rename_i ht0
        subst ht0
        cases hi
        rw [hc4] at hc5
        cases hc5
        exact ⟨fun w hw => by rw [show split [] = [] from rfl] at hw; simp at hw, fun _ => rfl⟩
      · exact assignImportances_spec io _ _ hi i c4 c5 hc4 hc5

/-- C85, in part: materials. A cell with material gets a material of its density with the composition of the card, prepared as in C48; the others stay void. -/
theorem C85_materials_partial (fuel : Nat) (io : NumIO K) (hio : Exact io) (cosDeg sqrt : K → K) (quick : Bool) (rank : Int → Nat) (d d' : Deck K)
    (hd : ProperDeck sqrt rank d) (hkeys : (d.materials.map Prod.fst).Nodup) (hdef : Defined d.materials d.cells) (hprep : ∀ e ∈ d.materials, ∃ m', Prepared e.2 m')
    (h : finishDeck fuel io cosDeg sqrt quick d = some (.ok d')) :
    List.Forall₂ (fun c c' => (c.material = .int 0 → c'.material = .int 0) ∧
      ∀ z, c.material = .int z → z ≠ 0 → c'.material.text ≠ c!"0" ∧ ∃ m m', d.materials.lookup (intStr z) = some m ∧ d'.materials.lookup c'.material.text = some m' ∧ m'.density = c.density ∧
        Prepared m m' ∧ (m.number = intStr z → m'.number = c'.material.text)) d.cells d'.cells := by
  obtain ⟨cells1, cells2, cells3, cells4, cells5, surfs1, surfs2, surfs3, surfs4, r⟩ := finishDeck_run h
  have h12 := r.expanded hio hd
  obtain ⟨h56, -⟩ := r.final
  have h45 := applyImportances_frame io r.imps
  have h13 : List.Forall₂ (fun c c' : Cell K => c'.material = c.material ∧ c'.density = c.density) d.cells cells3 :=
    forall₂_trans (S := FillFrame) (fun a b c x y => by unfold FillFrame at y; rw [y, x]; exact ⟨rfl, rfl⟩) h12 (fill_frame r.fill)
  have hdef3 : Defined d.materials cells3 := by
    intro c hc
    obtain ⟨c0, hc0, e⟩ := forall₂_right h13 c hc
    rw [e.1]
    exact hdef c0 hc0
  obtain ⟨mats', cells4', e, h34⟩ := C48_density io d.materials cells3 hkeys hdef3 hprep
  rw [r.mats] at e
  cases e
  have h46 : List.Forall₂ (fun c c' : Cell K => c'.material = c.material) cells4 d'.cells := forall₂_trans (fun a b c x y => by rw [y, x]) h45 h56
  refine forall₂_trans ?_ h13 (forall₂_trans (T := fun b c : Cell K => ∃ b', (_ ∧ (b.material = .int 0 → b'.material = .int 0) ∧ _) ∧ c.material = b'.material)
    (fun a b c x y => ⟨b, x, y⟩) h34 h46)
  rintro a b c ⟨x1, x2⟩ ⟨b', ⟨-, y1, y2⟩, y3⟩
  rw [y3, ← x1, ← x2]
  exact ⟨y1, y2⟩

/-- C85, in part: boundaries. If nothing is vacuum or reflecting before, a surface of the new list is a vacuum boundary if a cell with importance zero lists it, and else transmits. -/
theorem C85_boundaries_partial (fuel : Nat) (io : NumIO K) (hio : Exact io) (cosDeg sqrt : K → K) (quick : Bool) (rank : Int → Nat) (d d' : Deck K)
    (hd : ProperDeck sqrt rank d) (hbc : ∀ s ∈ d.surfaces, s.bc = .transmission) (h : finishDeck fuel io cosDeg sqrt quick d = some (.ok d')) :
    ∀ s ∈ d'.surfaces, ((∃ c ∈ d'.cells, c.importance = 0 ∧ s.id ∈ c.surfaces) → s.bc = .vacuum) ∧
      ((¬ ∃ c ∈ d'.cells, c.importance = 0 ∧ s.id ∈ c.surfaces) → s.bc = .transmission) := by
  obtain ⟨cells1, cells2, cells3, cells4, cells5, surfs1, surfs2, surfs3, surfs4, r⟩ := finishDeck_run h
  obtain ⟨h56, hsub⟩ := r.final
  obtain ⟨f1, -⟩ := flatten_facts hio hd r.flat
  obtain ⟨hp2, -⟩ := r.surfs hio hd
  have hids2 : surfs2.map Surface.id = surfs1.map Surface.id := forall₂_map_eq (fun _ _ a => a.1) hp2
  have hbc1 : ∀ s ∈ surfs1, s.bc = .transmission := by
    intro s hs
    have hf := r.flat
    unfold flatten at hf
    obtain ⟨⟨c1, more, l1⟩, h1, hf⟩ := bind_ok hf
    have hfaces := flattenGo_faces io hio cosDeg d.surfaces d.last d.cells (fun s hs hm => (hd.bodies s hs hm).1.shape) h1
    cases hf
    rcases List.mem_append.1 (List.mem_filter.1 hs).1 with hm | hm
    · exact hbc s hm
    · obtain ⟨b, -, -, f, -, e⟩ := hfaces s hm
      rw [e]
      rfl
  have hbc2 : ∀ s ∈ surfs2, s.bc = .transmission := by
    intro s hs
    obtain ⟨s1, hs1, e⟩ := forall₂_right (mapM_ok_forall₂ r.move) s hs
    rw [(applyTransformCard_frame e).1]
    exact hbc1 s1 hs1
  have hlist : ∀ n, (∃ c ∈ cells5, c.importance = 0 ∧ n ∈ c.surfaces) ↔ ∃ c ∈ d'.cells, c.importance = 0 ∧ n ∈ c.surfaces := by
    intro n
    have e : d'.cells.map (fun c => (c.importance, c.surfaces)) = cells5.map fun c => (c.importance, c.surfaces) :=
      forall₂_map_eq (fun a b x => by rw [x]) h56
    have key : ∀ l : List (Cell K), (∃ c ∈ l, c.importance = 0 ∧ n ∈ c.surfaces) ↔ ∃ x ∈ l.map (fun c => (c.importance, c.surfaces)), x.1 = 0 ∧ n ∈ x.2 := by
      intro l
      simp
    rw [key, key, e]
  have hv := (C27_listed cells5 surfs2 (hids2 ▸ f1)).2 surfs3 r.vac
  intro s hs
  obtain ⟨s3, hs3, e3⟩ := forall₂_right (mapM_ok_forall₂ r.cones) s (hsub.subset hs)
  obtain ⟨s2, hs2, e2⟩ := forall₂_right hv s3 hs3
  have e3 := updateSurface_frame e3
  have eid : s.id = s3.id := by rw [e3]
  have ebc : s.bc = s3.bc := by rw [e3]
  rw [← hlist, ebc, eid]
  have e23 : s3.id = s2.id := by
    by_cases hl : ∃ c ∈ cells5, c.importance = 0 ∧ s2.id ∈ c.surfaces
    · rw [e2.1 hl]
    · rw [e2.2 hl]
  rw [e23]
  refine ⟨fun hl => by rw [e2.1 hl], fun hl => by rw [e2.2 hl]; exact hbc2 s2 hs2⟩

/-- C85, in part: limits. The box of the problem holds the origin and the boxes of all surfaces of the list before duplicates go, and with that of all of the new list; cones reach
from one end of it to the other along their axis. -/
theorem C85_limits_partial (fuel : Nat) (io : NumIO K) (hio : Exact io) (cosDeg sqrt : K → K) (quick : Bool) (rank : Int → Nat) (d d' : Deck K)
    (hd : ProperDeck sqrt rank d) (hbox : ∀ s ∈ d.surfaces, s.bbox.length = 6) (h : finishDeck fuel io cosDeg sqrt quick d = some (.ok d')) :
    Within d'.bounding ⟨0, 0, 0⟩ ∧ ∀ s ∈ d'.surfaces, (∃ b, s.boundingBox = .ok b ∧ BoxLe b d'.bounding) ∧ s.bbox.length = 6 ∧
      (s.type = .coneX → s.bbox[0]? = d'.bounding[0]? ∧ s.bbox[1]? = d'.bounding[1]?) ∧
      (s.type = .coneY → s.bbox[2]? = d'.bounding[2]? ∧ s.bbox[3]? = d'.bounding[3]?) ∧
      (s.type = .coneZ → s.bbox[4]? = d'.bounding[4]? ∧ s.bbox[5]? = d'.bounding[5]?) := by
  obtain ⟨cells1, cells2, cells3, cells4, cells5, surfs1, surfs2, surfs3, surfs4, r⟩ := finishDeck_run h
  obtain ⟨-, hsub⟩ := r.final
  obtain ⟨hp2, -⟩ := r.surfs hio hd
  have hvf := vacuumGo_frame _ r.vac
  have hw3 : ∀ s ∈ surfs3, WellFormed s := by
    intro s hs
    obtain ⟨s2, hs2, e⟩ := forall₂_right hvf s hs
    obtain ⟨s1, hs1, a⟩ := forall₂_right hp2 s2 hs2
    unfold BcFrame at e
    rw [e]
    exact a.2.2.2.1
  have hb3 : ∀ s ∈ surfs3, s.bbox.length = 6 := by
    intro s hs
    obtain ⟨s2, hs2, e⟩ := forall₂_right hvf s hs
    obtain ⟨s1, hs1, a⟩ := forall₂_right (mapM_ok_forall₂ r.move) s2 hs2
    unfold BcFrame at e
    have : s.bbox = s1.bbox := by rw [e]; exact (applyTransformCard_frame a).2
    rw [this]
    have hf := r.flat
    unfold flatten at hf
    obtain ⟨⟨c1, more, l1⟩, h1, hf⟩ := bind_ok hf
    have hfaces := flattenGo_faces io hio cosDeg d.surfaces d.last d.cells (fun s hs hm => (hd.bodies s hs hm).1.shape) h1
    cases hf
    rcases List.mem_append.1 (List.mem_filter.1 hs1).1 with hm | hm
    · exact hbox s1 hm
    · obtain ⟨b, -, -, f, -, e⟩ := hfaces s1 hm
      rw [e]
      rfl
  obtain ⟨B, e, g1, g2, -⟩ := C11_bounding_coordinates surfs3 hw3
  rw [r.box] at e
  cases e
  refine ⟨g1, fun s hs => ?_⟩
  obtain ⟨s3, hs3, e3⟩ := forall₂_right (mapM_ok_forall₂ r.cones) s (hsub.subset hs)
  have e4 := updateSurface_frame e3
  have ety : s.type = s3.type := by rw [e4]
  have ebb : s.boundingBox = s3.boundingBox := by rw [e4]; rfl
  rw [ebb, ety]
  have hl := hb3 s3 hs3
  have hB : d'.bounding.length = 6 := by
    unfold Within at g1
    split at g1
    · rename_i e; rw [e]; rfl
    · cases g1
  refine ⟨g2 s3 hs3, ?_⟩
  unfold updateSurface at e3
  simp only at e3
  have hget : ∀ {l : List K} {i : Nat} {x : K}, pyGet l i = .ok x → l[i]? = some x := by
    intro l i x h
    unfold pyGet at h
    split at h
    · rename_i y hy; cases h; exact hy
    · cases h
  split at e3
  all_goals rename_i hty
  all_goals first
    | (obtain ⟨lo, h1, e3⟩ := bind_ok e3
       obtain ⟨hi, h2, e3⟩ := bind_ok e3
       cases e3
       rw [hty]
       refine ⟨by simp [hl], ?_⟩
       simp [hget h1, hget h2, hl])
    | (cases e3
       exact ⟨hl, fun hc => absurd hc (by assumption), fun hc => absurd hc (by assumption), fun hc => absurd hc (by assumption)⟩)

/-- C85, in part: surfaces. Title, importances and TR cards stay. With `quick` the numbers of the surfaces that are no macrobodies stay, and new numbers come after them. Without it
no two surfaces of the new list have the same equation up to sign. -/
theorem C85_surfaces_partial (fuel : Nat) (io : NumIO K) (hio : Exact io) (cosDeg sqrt : K → K) (quick : Bool) (rank : Int → Nat) (d d' : Deck K)
    (hd : ProperDeck sqrt rank d) (h : finishDeck fuel io cosDeg sqrt quick d = some (.ok d')) :
    d'.title = d.title ∧ d'.importances = d.importances ∧ d'.transforms = d.transforms ∧
    (quick = true → ∃ new, d'.surfaces.map Surface.id = (d.surfaces.filter fun s => !s.isMacrobody).map Surface.id ++ new ∧ ∀ n ∈ new, d.last < n) ∧
    (quick = false → d'.surfaces.Pairwise fun s t => (IsQuadric s.type → IsQuadric t.type → ¬ SameEquation s t) ∧
      (s.type.isTorus = true → ¬ (s.type = t.type ∧ s.coeffs = t.coeffs))) := by
  obtain ⟨cells1, cells2, cells3, cells4, cells5, surfs1, surfs2, surfs3, surfs4, r⟩ := finishDeck_run h
  obtain ⟨hpl, hn4, hpos4, h5⟩ := r.before hio hd
  refine ⟨r.rest.1, r.rest.2.1, r.rest.2.2, ?_, ?_⟩
  · rintro rfl
    have e := r.dups
    simp only [if_true] at e
    have e2 : d'.surfaces = surfs4 := by injection e with e; exact (congrArg Prod.snd e).symm
    obtain ⟨-, -, -, new, g4, g5⟩ := C16_flatten_surfaces io hio cosDeg sqrt d.cells d.surfaces d.last hd.ids (fun s hs => (hd.range s hs).2)
      (fun s hs hm => (hd.bodies s hs hm).1.shape) r.flat
    refine ⟨new.map Surface.id, ?_, ?_⟩
    · rw [e2, ← List.map_append, ← g4]
      exact forall₂_map_eq (fun _ _ a => a.1) hpl
    · intro n hn
      obtain ⟨s, hs, rfl⟩ := List.mem_map.1 hn
      exact g5 s hs
  · rintro rfl
    have e := r.dups
    simp only [Bool.false_eq_true, if_false] at e
    have ho : ∀ c ∈ cells5, OnlyNumbers c.interpreted := by
      intro c hc
      obtain ⟨c1, -, a⟩ := forall₂_right h5 c hc
      exact a.2.2.1
    obtain ⟨m1, -, m3⟩ := C24_dedupe_complete cells5 d'.cells surfs4 d'.surfaces hn4 (fun s hs => (hpos4 s hs).1) ho e
    have hw : ∀ s ∈ d'.surfaces, WellFormed s := by
      intro s hs
      obtain ⟨s1, -, a⟩ := forall₂_right hpl s (m1.subset hs)
      exact a.2.2.2.1
    exact m3.imp_of_mem fun {s t} hs ht x => x (hw s hs) (hw t ht)

omit [IsStrictOrderedRing K] in
/-- C85, in part: the deck as it is read. The counter is the largest surface number, or 0 without a positive one; no surface has a boundary condition or limits. -/
theorem C85_read (io : NumIO K) (cosDeg : K → K) (lines : List Str) (d : Deck K) (h : readDeck io cosDeg lines = .ok d) :
    0 ≤ d.last ∧ (∀ s ∈ d.surfaces, s.id ≤ d.last) ∧ (d.last = 0 ∨ ∃ s ∈ d.surfaces, s.id = d.last) ∧
      ∀ s ∈ d.surfaces, s.bc = .transmission ∧ s.bbox = [0, 0, 0, 0, 0, 0] := by
  unfold readDeck at h
  obtain ⟨⟨title, l1⟩, -, h⟩ := bind_ok h
  obtain ⟨l2, -, h⟩ := bind_ok h
  obtain ⟨⟨cells, l3⟩, -, h⟩ := bind_ok h
  obtain ⟨⟨surfs, l4⟩, hs, h⟩ := bind_ok h
  obtain ⟨imps, -, h⟩ := bind_ok h
  obtain ⟨trs, -, h⟩ := bind_ok h
  obtain ⟨mats, -, h⟩ := bind_ok h
  cases h
  have hmax : ∀ (l : List (Surface K)) (m : Int), m ≤ l.foldl (fun m s => if m < s.id then s.id else m) m ∧
      (∀ s ∈ l, s.id ≤ l.foldl (fun m s => if m < s.id then s.id else m) m) ∧
      (l.foldl (fun m s => if m < s.id then s.id else m) m = m ∨ ∃ s ∈ l, s.id = l.foldl (fun m s => if m < s.id then s.id else m) m) := by
    intro l
    induction l with
    | nil => intro m; simp
    | cons s l ih =>
      intro m
      obtain ⟨h1, h2, h3⟩ := ih (if m < s.id then s.id else m)
      have hm : m ≤ (if m < s.id then s.id else m) ∧ s.id ≤ (if m < s.id then s.id else m) := by split <;> omega
      refine ⟨le_trans hm.1 h1, ?_, ?_⟩
      · intro t ht
        rcases List.mem_cons.1 ht with rfl | ht
        · exact le_trans hm.2 h1
        · exact h2 t ht
      · rw [List.foldl_cons]
        rcases h3 with h3 | ⟨t, ht, h3⟩
        · rw [h3]
          split
          · exact Or.inr ⟨s, by simp, rfl⟩
          · exact Or.inl rfl
        · exact Or.inr ⟨t, by simp [ht], h3⟩
  refine ⟨(hmax surfs 0).1, (hmax surfs 0).2.1, (hmax surfs 0).2.2, fun s hsm => ?_⟩
  have hcl : ∃ text, classify io text = .ok s := by
    obtain ⟨_, _, groups, -, -, -, -, hm⟩ := (C38_block stripDollar (classify io) l3 surfs l4).1 hs
    obtain ⟨text, -, ht⟩ := forall₂_right (mapM_ok_forall₂ hm) s hsm
    exact ⟨text, ht⟩
  obtain ⟨text, ht⟩ := hcl
  refine ⟨C26_never_reflecting io text s ht, ?_⟩
  unfold classify at ht
  obtain ⟨f, -, ht⟩ := bind_ok ht
  exact classifyFields_bbox f s ht

end

/-- A deck that meets the hypotheses of C84 and C85: cells and surfaces of C17, with a TR card that turns and moves the box, a filled cell, a material and importances. -/
def sampleDeck : Deck ℚ :=
  { title := c!"deck"
    cells := [{ (Cell.blank : Cell ℚ) with id := 1, importance := 1, material := .int 4, density := -3, text := [c!"-5", c!"6", c!"-7"], interpreted := [.op .and, .str c!"-5", .op .and, .str c!"6", .op .and, .str c!"-7"] },
      { (Cell.blank : Cell ℚ) with id := 2, importance := 1, fill := some c!"3", trId := c!"1", text := [c!"5", c!":", c!"-5.1", c!":", c!"#1"], interpreted := [.op .and, .str c!"5", .op .union, .op .and, .str c!"-5.1", .op .union, .op .and, .str c!"#1"] }]
    surfaces := sampleSurfaces
    last := 7
    importances := [(.neutron, c!"1 2")]
    transforms := [(c!"1", ⟨⟨1, 2, 3⟩, ⟨0, 1, 0⟩, ⟨-1, 0, 0⟩, ⟨0, 0, 1⟩⟩)]
    materials := [(c!"4", { name := c!"M4", number := c!"4", composition := [(c!"1001", 1)], xsid := [], density := 0 })]
    bounding := [0, 0, 0, 0, 0, 0] }

example : ProperDeck sampleRoot (fun n => n.toNat) sampleDeck ∧ (∀ s ∈ sampleDeck.surfaces, TwoSheet s ∧ s.bc = .transmission ∧ s.bbox.length = 6) := by
  have l1 : Legal (tokenSyms [c!"-5", c!"6", c!"-7"]) := ⟨_, .one (.inter (.inter (.single (.atom _)) (.atom _)) (.atom _))⟩
  have l2 : Legal (tokenSyms [c!"5", c!":", c!"-5.1", c!":", c!"#1"]) := ⟨_, .union (.union (.one (.single (.atom _))) (.single (.atom _))) (.single (.atom _))⟩
  have h5 : { plainCard 5 .macroRPP [0, 4, 0, 4, 0, 4] with transform := some c!"1" } ∈ sampleSurfaces := List.mem_cons_self ..
  have h6 : plainCard 6 .sphereGeneral [2, 2, 2, 1] ∈ sampleSurfaces := List.mem_cons_of_mem _ (List.mem_cons_self ..)
  have h7 : plainCard 7 .macroRCC [0, 0, 0, 0, 0, 5, 1] ∈ sampleSurfaces := List.mem_cons_of_mem _ (List.mem_cons_of_mem _ (List.mem_cons_self ..))
  refine ⟨⟨by decide, by decide, by decide, ?_, ?_, ?_, ?_, by decide, ?_, ?_⟩, ?_⟩
  · intro s hs hm
    simp only [sampleDeck, sampleSurfaces, List.mem_cons, List.not_mem_nil, or_false] at hs
    rcases hs with rfl | rfl | rfl
    · exact ⟨trivial, trivial⟩
    · cases hm
    · refine ⟨by unfold ProperBody; norm_num [plainCard], ?_⟩
      show RootAt sampleRoot _
      unfold RootAt; decide +kernel
  · intro s hs hm
    simp only [sampleDeck, sampleSurfaces, List.mem_cons, List.not_mem_nil, or_false] at hs
    rcases hs with rfl | rfl | rfl
    · cases hm
    · exact ⟨rfl, Or.inl trivial⟩
    · cases hm
  · intro s hs n hn
    simp only [sampleDeck, sampleSurfaces, List.mem_cons, List.not_mem_nil, or_false] at hs
    rcases hs with rfl | rfl | rfl
    · cases hn
      exact ⟨_, rfl, fun h => by cases h⟩
    · cases hn
    · cases hn
  · intro c hc
    simp only [sampleDeck, List.mem_cons, List.not_mem_nil, or_false] at hc
    rcases hc with rfl | rfl
    · refine ⟨⟨⟨4, rfl, by decide, by decide⟩, l1, by decide⟩, ?_⟩
      intro w hw
      have hw : w = c!"-5" ∨ w = c!"6" ∨ w = c!"-7" := by
        simpa [tokenSyms, tokenSym, wordSym, Cell.blank] using hw
      rcases hw with rfl | rfl | rfl
      · exact Or.inr (Or.inl ⟨_, h5, Or.inr (by decide)⟩)
      · exact Or.inr (Or.inl ⟨_, h6, Or.inl (by decide)⟩)
      · exact Or.inr (Or.inl ⟨_, h7, Or.inr (by decide)⟩)
    · refine ⟨⟨⟨0, rfl, le_refl _, fun _ => rfl⟩, l2, by decide⟩, ?_⟩
      intro w hw
      have hw : w = c!"5" ∨ w = c!"-5.1" ∨ w = c!"#1" := by
        simpa [tokenSyms, tokenSym, wordSym, Cell.blank] using hw
      rcases hw with rfl | rfl | rfl
      · exact Or.inr (Or.inl ⟨_, h5, Or.inl (by decide)⟩)
      · refine Or.inr (Or.inr ⟨_, h5, rfl, true, 1, by decide, by decide, by decide, ?_⟩)
        decide
      · exact Or.inl ⟨1, by decide⟩
  · intro c hc
    simp only [sampleDeck, List.mem_cons, List.not_mem_nil, or_false] at hc
    rcases hc with rfl | rfl
    · exact l1
    · exact l2
  · intro c hc w hw hh
    simp only [sampleDeck, List.mem_cons, List.not_mem_nil, or_false] at hc
    rcases hc with rfl | rfl
    · simp only [words, List.filterMap_cons, List.filterMap_nil, List.mem_cons, List.not_mem_nil, or_false] at hw
      rcases hw with rfl | rfl | rfl <;> simp at hh
    · simp only [words, List.filterMap_cons, List.filterMap_nil, List.mem_cons, List.not_mem_nil, or_false] at hw
      rcases hw with rfl | rfl | rfl
      · simp at hh
      · simp at hh
      · exact ⟨1, _, List.mem_cons_self .., by decide, rfl, by decide⟩
  · intro s hs
    simp only [sampleDeck, sampleSurfaces, List.mem_cons, List.not_mem_nil, or_false] at hs
    rcases hs with rfl | rfl | rfl <;> exact ⟨trivial, rfl, rfl⟩

example : (sampleDeck.materials.map Prod.fst).Nodup ∧ Defined sampleDeck.materials sampleDeck.cells := by
  refine ⟨by decide, fun c hc => ?_⟩
  simp only [sampleDeck, List.mem_cons, List.not_mem_nil, or_false] at hc
  rcases hc with rfl | rfl
  · exact ⟨4, rfl, fun _ => by decide⟩
  · exact ⟨0, rfl, fun h => absurd rfl h⟩

example : (match finishDeck 9 fractionIO id sampleRoot false sampleDeck with
    | some (.ok d) => decide (d.cells.map (fun c => (c.id, c.importance, c.trId, c.material.text)) = [(1, 1, c!"0", c!"4"), (2, 2, c!"0", c!"0")] ∧
        d.surfaces.map Surface.id = [6, 8, 9, 10, 11, 12, 13, 14, 15, 16] ∧ d.last = 16)
    | _ => false) = true := by
  decide +kernel

end Csg
