import Verif.Lemmas.Processed
import Verif.Lemmas.ProcessedSurfaces
import Verif.Props.FlukaCellText
import Verif.Props.Processing

/-!
# The form of a processed deck
-/

namespace Csg

open Spec

section
variable {K : Type} [Field K] [LinearOrder K] [IsStrictOrderedRing K]

/-! ## C93: processed decks are as the writers need them -/

private theorem readDeck_parts {io : NumIO K} {cosDeg : K → K} {lines : List Str} {d : Deck K} (h : readDeck io cosDeg lines = .ok d) :
    (∀ c ∈ d.cells, Generalised c) ∧ ∀ s ∈ d.surfaces, NormalPlane s := by
  unfold readDeck at h
  obtain ⟨⟨title, l1⟩, -, h⟩ := bind_ok h
  obtain ⟨l2, -, h⟩ := bind_ok h
  obtain ⟨⟨cells, l3⟩, hc, h⟩ := bind_ok h
  obtain ⟨⟨surfs, l4⟩, hs, h⟩ := bind_ok h
  obtain ⟨imps, -, h⟩ := bind_ok h
  obtain ⟨trs, -, h⟩ := bind_ok h
  obtain ⟨mats, -, h⟩ := bind_ok h
  cases h
  constructor
  · intro c hcm
    obtain ⟨_, _, groups, -, -, -, -, hm⟩ := (C38_block removeInlineComment (readCell io cosDeg) l2 cells l3).1 hc
    obtain ⟨text, -, ht⟩ := forall₂_right (mapM_ok_forall₂ hm) c hcm
    exact interpret_generalised ht
  · intro s hsm
    obtain ⟨_, _, groups, -, -, -, -, hm⟩ := (C38_block stripDollar (classify io) l3 surfs l4).1 hs
    obtain ⟨text, -, ht⟩ := forall₂_right (mapM_ok_forall₂ hm) s hsm
    unfold classify at ht
    obtain ⟨f, -, ht⟩ := bind_ok ht
    exact classifyFields_normal f s ht

/-- C93, in part: the words of descriptions. In the processed deck every word but the parentheses is the number of a surface of the deck in the usual notation, with or without a minus sign;
the words stand where the writers expect them, and the description is an expression. Missing are the decks that `ProperDeck` leaves out. -/
theorem C93_words_partial (fuel : Nat) (io : NumIO K) (hio : Exact io) (cosDeg sqrt : K → K) (quick : Bool) (rank : Int → Nat) (lines : List Str) (d d' : Deck K)
    (hr : readDeck io cosDeg lines = .ok d) (hd : ProperDeck sqrt rank d) (hq : quick = true ∨ ∀ s ∈ d.surfaces, TwoSheet s)
    (h : finishDeck fuel io cosDeg sqrt quick d = some (.ok d')) :
    ∀ c ∈ d'.cells, Spaced c.interpreted ∧ Legal (itemSyms c.interpreted) ∧
      ∀ w, .str w ∈ c.interpreted → ¬ IsParen w → ∃ z : Int, z ≠ 0 ∧ w = intStr z ∧ ∃ s ∈ d'.surfaces, s.id = z.natAbs := by
  obtain ⟨cells1, cells2, cells3, cells4, cells5, surfs1, surfs2, surfs3, surfs4, r⟩ := finishDeck_run h
  obtain ⟨-, f2, -, -, f5, -⟩ := flatten_facts hio hd r.flat
  obtain ⟨-, hpos, -, hcells⟩ := C84_regions_partial fuel io hio cosDeg sqrt quick rank d d' hd hq h
  obtain ⟨cells', surfs', last', e, k, -⟩ := C17_flatten_regions_partial io hio cosDeg sqrt d.cells d.surfaces d.last hd.ids hd.range hd.last hd.bodies hd.cells
  rw [r.flat] at e
  cases e
  have hsp : ∀ c ∈ d'.cells, Spaced c.interpreted := by
    refine r.keeps (Q := Spaced) (fun _ _ _ h1 h2 h3 => splitNots_spaced h1 h2 h3) (fun _ _ _ _ _ h1 h2 => spaced_sameKind (replaceSurface_sameKind h1) h2) ?_
    intro c hc
    obtain ⟨ns, hg⟩ := flatten_generalised (readDeck_parts hr).1 r.flat c hc
    obtain ⟨c0, -, a⟩ := forall₂_right k c hc
    exact generalise_spaced hg a.1.legal
  have hus : ∀ c ∈ d'.cells, ∀ w ∈ words c.interpreted, UsualWord w := by
    refine r.keeps (Q := fun is => ∀ w ∈ words is, UsualWord w) (fun _ _ _ h1 h2 h3 => splitNots_words (Or.inl rfl) (Or.inr (Or.inl rfl)) h3 h2 h1)
      (fun _ _ _ _ _ h1 h2 => replaceSurface_usual h1 h2) ?_
    exact fun c hc w hw => usual_of_good (fun s hs => (f2 s hs).1) (f5 c hc w hw)
  intro c hc
  obtain ⟨c0, -, -, hl, hon, hnum, -⟩ := forall₂_right hcells c hc
  refine ⟨hsp c hc, hl, fun w hw hp => ?_⟩
  have hw := mem_words.2 hw
  rcases hon w hw with h1 | h1 | ⟨z, h1⟩
  · exact absurd (Or.inl h1) hp
  · exact absurd (Or.inr h1) hp
  obtain ⟨s, hs, es⟩ := hnum z (List.mem_filterMap.2 ⟨w, hw, h1⟩)
  have hz : z ≠ 0 := by
    rintro rfl
    have := (hpos s hs).1
    rw [es] at this
    exact absurd this (by decide)
  rcases hus c hc w hw with h2 | h2 | h2 | ⟨z', h2⟩
  · exact absurd (Or.inl h2) hp
  · exact absurd (Or.inr h2) hp
  · exact absurd h2 (parseInt_no_hash h1)
  · rw [h2, parseInt_intStr] at h1
    cases h1
    exact ⟨z, hz, h2, s, hs, es⟩

/-- C93, in part: complements. If in the cells of the input each `#` without a number stands before a parenthesis, each complement of the processed deck does, which FLUKA needs. -/
theorem C93_complements_partial (fuel : Nat) (io : NumIO K) (hio : Exact io) (cosDeg sqrt : K → K) (quick : Bool) (rank : Int → Nat) (lines : List Str) (d d' : Deck K)
    (hr : readDeck io cosDeg lines = .ok d) (hd : ProperDeck sqrt rank d) (ho : ∀ c ∈ d.cells, HashOpen c.text)
    (h : finishDeck fuel io cosDeg sqrt quick d = some (.ok d')) : ∀ c ∈ d'.cells, NotsOpen c.interpreted := by
  obtain ⟨cells1, cells2, cells3, cells4, cells5, surfs1, surfs2, surfs3, surfs4, r⟩ := finishDeck_run h
  obtain ⟨cells', surfs', last', e, -, k⟩ := C17_flatten_regions_partial io hio cosDeg sqrt d.cells d.surfaces d.last hd.ids hd.range hd.last hd.bodies hd.cells
  rw [r.flat] at e
  cases e
  refine r.keeps (Q := NotsOpen) (fun _ _ _ h1 h2 h3 => splitNots_notsOpen h1 h2 h3) (fun _ _ _ _ _ h1 h2 => notsOpen_sameKind (replaceSurface_sameKind h1) h2) ?_
  intro c hc
  obtain ⟨ns, hg⟩ := flatten_generalised (readDeck_parts hr).1 r.flat c hc
  obtain ⟨c0, hc0, a⟩ := forall₂_right k c hc
  exact (C32_nots_open (K := K) c.text c.interpreted ns hg (a (ho c0 hc0))).1

/-- C93, in part: surfaces. In the processed deck every surface is a quadric or a torus with the right number of coefficients, has a positive number and is a vacuum boundary or none, and
MCNP has a mnemonic for it, if the input has no one-sheet cone. -/
theorem C93_surfaces_partial (fuel : Nat) (io : NumIO K) (hio : Exact io) (cosDeg sqrt : K → K) (quick : Bool) (rank : Int → Nat) (lines : List Str) (d d' : Deck K)
    (hr : readDeck io cosDeg lines = .ok d) (hd : ProperDeck sqrt rank d) (h : finishDeck fuel io cosDeg sqrt quick d = some (.ok d')) :
    ∀ s ∈ d'.surfaces, WellFormed s ∧ (IsQuadric s.type ∨ ProperTorus s) ∧ (s.bc = .transmission ∨ s.bc = .vacuum) ∧ 0 < s.id ∧ s.id ≤ d'.last ∧
      ((∀ t ∈ d.surfaces, TwoSheet t) → TwoSheet s ∧ Expressible s) := by
  obtain ⟨cells1, cells2, cells3, cells4, cells5, surfs1, surfs2, surfs3, surfs4, r⟩ := finishDeck_run h
  obtain ⟨-, f2, f3, -⟩ := flatten_facts hio hd r.flat
  obtain ⟨-, hpl⟩ := r.surfs hio hd
  have hbc := C85_boundaries_partial fuel io hio cosDeg sqrt quick rank d d' hd (fun s hs => ((C85_read io cosDeg lines d hr).2.2.2 s hs).1) h
  intro s hs
  obtain ⟨s1, hs1, a⟩ := forall₂_right hpl s (r.left.subset hs)
  obtain ⟨k1, -, -, k4, k5, k6⟩ := a
  refine ⟨k4, k5, ?_, by rw [k1]; exact (f2 s1 hs1).1, by rw [k1]; exact (f2 s1 hs1).2.1, fun ht => ?_⟩
  · by_cases hv : ∃ c ∈ d'.cells, c.importance = 0 ∧ s.id ∈ c.surfaces
    · exact Or.inr ((hbc s hs).1 hv)
    · exact Or.inl ((hbc s hs).2 hv)
  · have := k6 (f3 ht s1 hs1)
    exact ⟨this, expressible_of k4 k5 (r.normal hio hd (readDeck_parts hr).2 s hs) this⟩

end

end Csg
