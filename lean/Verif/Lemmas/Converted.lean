import Verif.Props.Outputs
import Verif.Props.Processing
import Verif.Spec.Converted

/-!
# Lemmas about whole conversions
-/

namespace Csg

open Spec

section
variable {K : Type} [Field K] [LinearOrder K]

/-- With more rounds the result stays. -/
theorem finishDeck_mono {fuel fuel' : Nat} (hf : fuel ≤ fuel') {io : NumIO K} {cosDeg sqrt : K → K} {quick : Bool} {d : Deck K} {r : Py (Deck K)}
    (h : finishDeck fuel io cosDeg sqrt quick d = some r) : finishDeck fuel' io cosDeg sqrt quick d = some r := by
  unfold finishDeck at h ⊢
  cases hfl : flatten io cosDeg sqrt d.cells d.surfaces d.last with
  | error e => rw [hfl] at h; exact h
  | ok x =>
    obtain ⟨cells, surfs, last⟩ := x
    rw [hfl] at h
    simp only at h ⊢
    cases he : explodeNots fuel cells with
    | none => rw [he] at h; cases h
    | some y =>
      rw [he] at h
      have : explodeNots fuel' cells = some y := explodeFrom_mono hf he
      rw [this]
      exact h

/-- After reading and processing the files are written from the new deck. -/
theorem convert_iff {e : Env K} {cosDeg : K → K} {quick : Bool} {text : Str} {d d' : Deck K} (hr : readDeck e.io cosDeg (readText text) = .ok d)
    (hf : finishDeck e.fuel e.io cosDeg e.sqrt quick d = some (.ok d')) (output : Option (List Str)) (fs : List (Code × OutFile)) :
    Returns (convert e cosDeg quick output text) fs ↔ Returns (mainWrite e output d') fs := by
  unfold convert
  rw [returns_bind]
  unfold processDeck
  rw [hr]
  simp only
  rw [hf]
  constructor
  · rintro ⟨a, h, k⟩
    rw [returns_mk] at h
    cases h
    exact k
  · exact fun h => ⟨d', rfl, h⟩

/-- A file that is written from the deck alone is written in all runs without FLUKA in front. -/
theorem converts_of {e : Env K} {cosDeg : K → K} {quick : Bool} {text : Str} {d d' : Deck K} (hr : readDeck e.io cosDeg (readText text) = .ok d)
    (hf : finishDeck e.fuel e.io cosDeg e.sqrt quick d = some (.ok d')) {c : Code} {f : OutFile} {s : Shared K}
    (hw : Returns (writeCode e c { cells := d'.cells, surfaces := d'.surfaces, materials := d'.materials, universes := [] }) (f, s)) : Converts e cosDeg quick text c f := by
  constructor
  · rw [convert_iff hr hf]
    unfold mainWrite
    have : selectCodes (some [codeName c]) = [c] := by cases c <;> decide +kernel
    rw [this, writeCodes_cons]
    exact ⟨f, s, [], hw, by rw [writeCodes, returns_pure], rfl⟩
  · intro output files i t h hi hp
    rw [convert_iff hr hf] at h
    have hn := C64_written e output d' files h
    unfold mainWrite at h
    obtain ⟨hlt, hget⟩ := List.getElem?_eq_some_iff.1 hi
    have hsplit : files = files.take i ++ (c, t) :: files.drop (i + 1) := by
      rw [← hget, List.cons_getElem_drop_succ, List.take_append_drop]
    have hcodes : selectCodes output = (files.take i).map Prod.fst ++ c :: (files.drop (i + 1)).map Prod.fst := by
      rw [← hn]
      conv_lhs => rw [hsplit]
      simp
    rw [hcodes] at h
    obtain ⟨t', s', k1, k2⟩ := C58_independent_partial e _ _ c _ files h (by
        intro hm
        obtain ⟨g, hg, e1⟩ := List.mem_map.1 hm
        exact (hp g hg).1 e1) (by
        intro hc hm
        obtain ⟨g, hg, e1⟩ := List.mem_map.1 hm
        exact (hp g hg).2 hc e1)
    have e1 := returns_unique hw k1
    have hl : ((files.take i).map Prod.fst).length = i := by simp; omega
    rw [hl, hi] at k2
    cases k2
    exact (Prod.mk.inj e1).1.symm

/-- The sense of signed numbers from the sense of points with respect to the surfaces. -/
theorem signed_iff {sqrt : K → K} {surfs : List (Surface K)} {p : Point K} {at_ : Nat → Side → Prop} (hm : ∀ s ∈ surfs, s.isMacrobody = false)
    (h : ∀ n d, at_ n d ↔ ∃ s ∈ surfs, s.id = n ∧ side sqrt s.type s.coeffs p = some d) (z : Int) : signed at_ z ↔ surfaceSense sqrt (fun _ q => q) surfs p z := by
  unfold signed surfaceSense
  rw [h]
  constructor
  · rintro ⟨s, hs, e, k⟩
    refine ⟨s, hs, e, ?_⟩
    unfold OnSide
    rw [hm s hs, k]
    by_cases hz : 0 < z <;> simp [hz]
  · rintro ⟨s, hs, e, k⟩
    refine ⟨s, hs, e, ?_⟩
    unfold OnSide at k
    rw [hm s hs] at k
    simp only [Bool.false_eq_true, if_false] at k
    rw [k]
    by_cases hz : 0 < z <;> simp [hz]

theorem wordSense_congr {σ τ : Int → Prop} (h : ∀ z, σ z ↔ τ z) (w : Str) : wordSense σ w ↔ wordSense τ w := by
  unfold wordSense
  simp only [h]

/-- The cells after processing hold at the points of the cells as read. -/
theorem processed_cells [IsStrictOrderedRing K] {fuel : Nat} {io : NumIO K} (hio : Exact io) {cosDeg sqrt : K → K} {quick : Bool} {rank : Int → Nat} {d d' : Deck K}
    (hd : ProperDeck sqrt rank d) (hq : quick = true ∨ ∀ s ∈ d.surfaces, TwoSheet s) (h : finishDeck fuel io cosDeg sqrt quick d = some (.ok d')) :
    (d'.surfaces.map Surface.id).Nodup ∧ (∀ s ∈ d'.surfaces, 0 < s.id ∧ s.isMacrobody = false) ∧
      List.Forall₂ (fun c c' => (c'.id = c.id ∧ c'.density = c.density ∧ c'.fill = c.fill ∧ c'.uni = c.uni) ∧ Legal (itemSyms c'.interpreted) ∧ OnlyNumbers c'.interpreted ∧
        (∀ z ∈ numbers c'.interpreted, ∃ s ∈ d'.surfaces, s.id = z.natAbs) ∧ ∀ p, InCell sqrt d'.surfaces c'.interpreted p ↔ InDeckCell sqrt d c.id p) d.cells d'.cells := by
  obtain ⟨h1, h2, h3, h4⟩ := C84_regions_partial fuel io hio cosDeg sqrt quick rank d d' hd hq h
  refine ⟨h1, fun s hs => ⟨(h2 s hs).1, (h2 s hs).2.2⟩, forall₂_imp (fun c c' k => ⟨k.1, k.2.1, k.2.2.1, k.2.2.2.1, fun p => ?_⟩) h4⟩
  obtain ⟨T, hT⟩ := h3 p
  constructor
  · exact fun hc => ⟨T, hT, (k.2.2.2.2 p T hT).1 hc⟩
  · rintro ⟨T', hT', hn⟩
    exact (k.2.2.2.2 p T' hT').2 hn

theorem intStr_natAbs {n : Int} (h : 0 < n) : intStr n = natStr n.natAbs := by
  cases n with
  | ofNat k => rfl
  | negSucc k => omega

theorem forall₂_left_mem {α β : Type} {R : α → β → Prop} {l : List α} {r : List β} (h : List.Forall₂ R l r) {x : α} (hx : x ∈ l) : ∃ y ∈ r, R x y := by
  induction h with
  | nil => cases hx
  | cons h _ ih =>
    rcases List.mem_cons.1 hx with rfl | hx
    · exact ⟨_, List.mem_cons_self .., h⟩
    · obtain ⟨y, hy, k⟩ := ih hx
      exact ⟨y, List.mem_cons_of_mem _ hy, k⟩

end

end Csg
