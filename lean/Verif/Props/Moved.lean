import Verif.Lemmas.Matched
import Verif.Lemmas.FormatE
import Verif.Lemmas.MixedIO

/-!
# C116: one TR card on all surfaces
-/

set_option linter.unusedSectionVars false

namespace Csg

open Spec

section
variable {K : Type} [Field K] [LinearOrder K] [IsStrictOrderedRing K]
variable {io : NumIO K} {cosDeg sqrt : K → K} {rank : Int → Nat} {f f' : InputFile K}

section
variable {n : Nat} {degrees : Bool} {values : List K}

private theorem place_eq (h : MovedFile n degrees values f f') (p : Point K) : f'.place cosDeg (some n) p = trPoint cosDeg degrees values p := by
  unfold InputFile.place
  simp only [h.card]

private theorem sense_eq (h : MovedFile n degrees values f f') (p : Point K) : entrySense cosDeg sqrt f' p = entrySense cosDeg sqrt f (trPoint cosDeg degrees values p) := by
  have hp : ∀ s ∈ f.surfaces, f.place cosDeg s.tr (trPoint cosDeg degrees values p) = f'.place cosDeg (some n) p := fun s hs => by
    rw [place_eq h, h.before s hs]
    rfl
  funext w
  unfold entrySense
  rw [h.surfaces]
  apply propext
  constructor
  · rintro (⟨z, hz, s', hs', e, k⟩ | ⟨s', hs', ty, neg, k, v, h1, h2, h3, h4, h5⟩)
    · obtain ⟨s, hs, rfl⟩ := List.mem_map.1 hs'
      refine .inl ⟨z, hz, s, hs, e, ?_⟩
      rw [hp s hs]
      exact k
    · obtain ⟨s, hs, rfl⟩ := List.mem_map.1 hs'
      refine .inr ⟨s, hs, ty, neg, k, v, h1, h2, h3, ?_, h5⟩
      rw [hp s hs]
      exact h4
  · rintro (⟨z, hz, s, hs, e, k⟩ | ⟨s, hs, ty, neg, k, v, h1, h2, h3, h4, h5⟩)
    · rw [hp s hs] at k
      exact .inl ⟨z, hz, _, List.mem_map.2 ⟨s, hs, rfl⟩, e, k⟩
    · rw [hp s hs] at h4
      exact .inr ⟨_, List.mem_map.2 ⟨s, hs, rfl⟩, ty, neg, k, v, h1, h2, h3, h4, h5⟩

/-- A point is in a cell of the second file exactly if the point in the system of coordinates of the TR card is in the cell of the first. -/
theorem C116_points (h : MovedFile n degrees values f f') (c : Int) (p : Point K) : InFileCell cosDeg sqrt f c (trPoint cosDeg degrees values p) ↔ InFileCell cosDeg sqrt f' c p := by
  unfold InFileCell
  rw [sense_eq h, h.cells]

private theorem known_moved (h : MovedFile n degrees values f f') {w : Str} (hw : KnownEntry f w) : KnownEntry f' w := by
  rcases hw with hw | ⟨s, hs, hw⟩ | ⟨s, hs, ty, neg, k, h1, h2, h3, h4, h5⟩
  · exact .inl hw
  · exact .inr (.inl ⟨{ s with tr := some n }, by rw [h.surfaces]; exact List.mem_map.2 ⟨s, hs, rfl⟩, hw⟩)
  · refine .inr (.inr ⟨{ s with tr := some n }, by rw [h.surfaces]; exact List.mem_map.2 ⟨s, hs, rfl⟩, ty, neg, k, h1, h2, h3, h4, fun m hm => ?_⟩)
    rw [h.surfaces] at hm
    obtain ⟨m, hm1, rfl⟩ := List.mem_map.1 hm
    exact h5 m hm1

private theorem importance_iff (h : MovedFile n degrees values f f') (i : Nat) (e : CellEntry K) (x : K) : FileImportance io f' i e x ↔ FileImportance io f i e x := by
  unfold FileImportance
  rw [h.importances]

/-- The second file can be converted if the first can, if no surface is a torus and none gets the equation of `C03_refuted`. -/
theorem C116_convertible (h : MovedFile n degrees values f f') (hq : ∀ s ∈ f.surfaces, bodyType s.mn = none → ∃ m : Mn, s.mn = m.word ∧ ¬ XZOnly fun p => mcnpValue m s.values (trPoint cosDeg degrees values p))
    (hc : ConvertibleFile io cosDeg sqrt rank f) : ConvertibleFile io cosDeg sqrt rank f' where
  numbers := by
    rw [h.surfaces, List.map_map, List.length_map]
    refine ⟨hc.numbers.1, fun s' hs' => ?_⟩
    obtain ⟨s, hs, rfl⟩ := List.mem_map.1 hs'
    exact hc.numbers.2 s hs
  surfaces := fun s' hs' => by
    rw [h.surfaces] at hs'
    obtain ⟨s, hs, rfl⟩ := List.mem_map.1 hs'
    exact hc.surfaces s hs
  moved := fun s' hs' k hk => by
    rw [h.surfaces] at hs'
    obtain ⟨s, hs, rfl⟩ := List.mem_map.1 hs'
    cases hk
    refine ⟨List.mem_map.2 ⟨_, mem_of_lookup h.card, rfl⟩, fun hb => ?_⟩
    obtain ⟨m, h1, h2⟩ := hq s hs hb
    refine ⟨m, h1, ?_⟩
    simp only [place_eq h]
    exact h2
  cells := by
    rw [h.cells, h.materials]
    exact hc.cells
  words := fun c hcm w hw => known_moved h (hc.words c (h.cells ▸ hcm) w hw)
  complements := by
    rw [h.cells]
    exact hc.complements
  materials := by
    rw [h.cells, h.materials]
    exact hc.materials
  cards := by
    rw [h.materials]
    exact hc.cards
  fills := fun c hcm d ws hm => by
    rcases hc.fills c (h.cells ▸ hcm) d ws hm with ⟨k, hk, e⟩ | hx
    · rw [← h.transforms] at hk
      obtain ⟨t, ht, rfl⟩ := List.mem_map.1 hk
      exact .inl ⟨t.1, List.mem_map.2 ⟨t, (List.mem_filter.1 ht).1, rfl⟩, e⟩
    · exact .inr hx
  importances := by
    rw [h.importances, h.cells]
    exact hc.importances
  outside := fun i c hcm hi w z hw hz => by
    obtain ⟨s, hs, h1, h2⟩ := hc.outside i c (h.cells ▸ hcm) ((importance_iff h i c 0).1 hi) w z hw hz
    exact ⟨{ s with tr := some n }, by rw [h.surfaces]; exact List.mem_map.2 ⟨s, hs, rfl⟩, h1, h2⟩

private theorem scone_moved (h : MovedFile n degrees values f f') (hk : SconeFile io f) : SconeFile io f' where
  surfaces := fun s' hs' => by
    rw [h.surfaces] at hs' ⊢
    obtain ⟨s, hs, rfl⟩ := List.mem_map.1 hs'
    rw [List.length_map]
    exact hk.surfaces s hs
  ids := by rw [h.cells]; exact hk.ids
  densities := by rw [h.cells]; exact hk.densities
  words := by rw [h.cells]; exact hk.words
  universes := by rw [h.cells]; exact hk.universes
  fractions := by rw [h.materials]; exact hk.fractions
  used := by rw [h.cells, h.materials]; exact hk.used

private theorem matched (h : MovedFile n degrees values f f') : Matched cosDeg sqrt (trPoint cosDeg degrees values) f f' where
  cells := by
    rw [h.cells]
    exact List.forall₂_same.2 fun _ _ => ⟨rfl, rfl, rfl⟩
  materials := h.materials
  importances := h.importances
  points := fun c _ p => C116_points h c.number p

end

/-! ## Codes -/

/-- **C116** for OpenMC (partial). Two texts, the second with a TR card on all surfaces, are converted to files with the same cells in different places. Missing is what is missing in C100. -/
theorem C116_openmc_partial (e : Env K) (hio : Exact e.io) (cosDeg : K → K) (quick : Bool) (n : Nat) (degrees : Bool) (values : List K) (rank : Int → Nat) (text text' : Str) (f f' : InputFile K) (hf : FileSays e.io text f) (hf' : FileSays e.io text' f')
    (h : MovedFile n degrees values f f') (hc : ConvertibleFile e.io cosDeg e.sqrt rank f)
    (hq : ∀ s ∈ f.surfaces, bodyType s.mn = none → ∃ m : Mn, s.mn = m.word ∧ ¬ XZOnly fun p => mcnpValue m s.values (trPoint cosDeg degrees values p)) (ho : OpenmcFile f) :
    ∃ fuel₀, ∀ fuel ≥ fuel₀, ∃ out out', Converts { e with fuel := fuel } cosDeg quick text .openmc out ∧ Converts { e with fuel := fuel } cosDeg quick text' .openmc out' ∧ SameOpenmc e (trPoint cosDeg degrees values) f.cells out out' :=
  matched_openmc e hio cosDeg quick rank rank text text' f f' hf hf' (matched h) hc (C116_convertible h hq hc) ho

/-- **C116** for Serpent (partial). Also missing: the texts of numbers must fit on a card and be such that Serpent reads them. -/
theorem C116_serpent_partial (e : Env K) (hio : Exact e.io) (cosDeg : K → K) (quick : Bool) (read : Str → Option K) (approx : K → K) (n : Nat) (degrees : Bool) (values : List K) (rank : Int → Nat) (text text' : Str) (f f' : InputFile K)
    (hsci : ∀ x, FloatText (e.sci x) ∧ e.io.parse (e.sci x) = some (approx x)) (hf : FileSays e.io text f) (hf' : FileSays e.io text' f')
    (h : MovedFile n degrees values f f') (hc : ConvertibleFile e.io cosDeg e.sqrt rank f)
    (hq : ∀ s ∈ f.surfaces, bodyType s.mn = none → ∃ m : Mn, s.mn = m.word ∧ ¬ XZOnly fun p => mcnpValue m s.values (trPoint cosDeg degrees values p)) (hk : CardFile f)
    (hread : SerpentTexts e cosDeg quick read text) (hread' : SerpentTexts e cosDeg quick read text') :
    ∃ fuel₀, ∀ fuel ≥ fuel₀, ∃ out out', Converts { e with fuel := fuel } cosDeg quick text .serpent (.text out) ∧ Converts { e with fuel := fuel } cosDeg quick text' .serpent (.text out') ∧
      SameSerpent e read approx (trPoint cosDeg degrees values) f.cells out out' :=
  matched_serpent e hio cosDeg quick read approx rank rank text text' f f' hsci hf hf' (matched h) hc (C116_convertible h hq hc) hk hread hread'

/-- **C116** for PHITS (partial). Also missing: the texts of numbers and of library names must fit on a card. -/
theorem C116_phits_partial (e : Env K) (hio : Exact e.io) (cosDeg : K → K) (quick : Bool) (n : Nat) (degrees : Bool) (values : List K) (rank : Int → Nat) (text text' : Str) (f f' : InputFile K) (hf : FileSays e.io text f) (hf' : FileSays e.io text' f')
    (h : MovedFile n degrees values f f') (hc : ConvertibleFile e.io cosDeg e.sqrt rank f)
    (hq : ∀ s ∈ f.surfaces, bodyType s.mn = none → ∃ m : Mn, s.mn = m.word ∧ ¬ XZOnly fun p => mcnpValue m s.values (trPoint cosDeg degrees values p)) (hk : CardFile f)
    (hread : PhitsTexts e cosDeg quick text) (hread' : PhitsTexts e cosDeg quick text') :
    ∃ fuel₀, ∀ fuel ≥ fuel₀, ∃ out out', Converts { e with fuel := fuel } cosDeg quick text .phits (.text out) ∧ Converts { e with fuel := fuel } cosDeg quick text' .phits (.text out') ∧
      SamePhits e (trPoint cosDeg degrees values) f.cells out out' :=
  matched_phits e hio cosDeg quick rank rank text text' f f' hf hf' (matched h) hc (C116_convertible h hq hc) hk hread hread'

/-- **C116** for MCNP (partial). The written files are read again. Also missing: the texts of numbers must fit on a card, and importances must have texts that the reader of cell cards takes (`hi`). -/
theorem C116_mcnp_partial (e : Env K) (hio : Exact e.io) (cosDeg : K → K) (quick : Bool) (n : Nat) (degrees : Bool) (values : List K) (rank : Int → Nat) (text text' : Str) (f f' : InputFile K) (hmn : ∀ mn ∈ printedMnemonics, e.io.parse mn = none)
    (hf : FileSays e.io text f) (hf' : FileSays e.io text' f')
    (h : MovedFile n degrees values f f') (hc : ConvertibleFile e.io cosDeg e.sqrt rank f)
    (hq : ∀ s ∈ f.surfaces, bodyType s.mn = none → ∃ m : Mn, s.mn = m.word ∧ ¬ XZOnly fun p => mcnpValue m s.values (trPoint cosDeg degrees values p)) (hk : CardFile f)
    (hi : ∀ (i : Nat) c x, f.cells[i]? = some c → FileImportance e.io f i c x → PlainNumber (e.io.render x)) (hread : McnpTexts e cosDeg quick text) (hread' : McnpTexts e cosDeg quick text') :
    ∃ fuel₀, ∀ fuel ≥ fuel₀, ∃ out out', Converts { e with fuel := fuel } cosDeg quick text .mcnp (.text out) ∧ Converts { e with fuel := fuel } cosDeg quick text' .mcnp (.text out') ∧
      SameMcnp e cosDeg (trPoint cosDeg degrees values) f.cells out out' :=
  matched_mcnp e hio cosDeg quick rank rank text text' f f' hmn hf hf' (matched h) hc (C116_convertible h hq hc) hk hi hread hread'

/-- **C116** for FLUKA (partial). Also missing: cones, tori and macrobodies with a transformation are left out, and so are points on the surfaces of the processed decks. -/
theorem C116_fluka_partial (e : Env K) (hio : Exact e.io) (hn : FlukaNumbers e) (cosDeg : K → K) (quick : Bool) (n : Nat) (degrees : Bool) (values : List K) (rank : Int → Nat) (text text' : Str) (f f' : InputFile K) (hf : FileSays e.io text f) (hf' : FileSays e.io text' f')
    (h : MovedFile n degrees values f f') (hc : ConvertibleFile e.io cosDeg e.sqrt rank f)
    (hq : ∀ s ∈ f.surfaces, bodyType s.mn = none → ∃ m : Mn, s.mn = m.word ∧ ¬ XZOnly fun p => mcnpValue m s.values (trPoint cosDeg degrees values p))
    (hk : FlukaFile e.io cosDeg e.sqrt f) (hk' : FlukaFile e.io cosDeg e.sqrt f') :
    ∃ fuel₀ d d' b b', readDeck e.io cosDeg (readText text) = .ok d ∧ readDeck e.io cosDeg (readText text') = .ok b ∧ ∀ fuel ≥ fuel₀,
      finishDeck fuel e.io cosDeg e.sqrt quick d = some (.ok d') ∧ finishDeck fuel e.io cosDeg e.sqrt quick b = some (.ok b') ∧
      ∃ out out', Converts { e with fuel := fuel } cosDeg quick text .fluka (.text out) ∧ Converts { e with fuel := fuel } cosDeg quick text' .fluka (.text out') ∧
        SameFluka e (trPoint cosDeg degrees values) d'.surfaces b'.surfaces f.cells out out' :=
  matched_fluka e hio hn cosDeg quick rank rank text text' f f' hf hf' (matched h) hc (C116_convertible h hq hc) hk hk'

/-- **C116** for SCONE (partial). Also missing: tori and points far from the tip of a cone are left out, and the texts of numbers must be such that SCONE reads them. -/
theorem C116_scone_partial (e : Env K) (hio : Exact e.io) (hsci : ∀ x, SconeOrdinary (e.sci x)) (ho : ∀ l, (e.orderInt l).Perm l) (cosDeg tanSq : K → K) (quick : Bool) (read : Str → Option K)
    (hlit : ∀ w x, Literal w x → read w = some x) (n : Nat) (degrees : Bool) (values : List K) (rank : Int → Nat) (text text' : Str) (f f' : InputFile K) (hf : FileSays e.io text f) (hf' : FileSays e.io text' f')
    (h : MovedFile n degrees values f f') (hc : ConvertibleFile e.io cosDeg e.sqrt rank f)
    (hq : ∀ s ∈ f.surfaces, bodyType s.mn = none → ∃ m : Mn, s.mn = m.word ∧ ¬ XZOnly fun p => mcnpValue m s.values (trPoint cosDeg degrees values p)) (hk : SconeFile e.io f)
    (hread : SconeTexts e cosDeg tanSq quick read text) (hread' : SconeTexts e cosDeg tanSq quick read text') :
    ∃ fuel₀ d d' b b', readDeck e.io cosDeg (readText text) = .ok d ∧ readDeck e.io cosDeg (readText text') = .ok b ∧ ∀ fuel ≥ fuel₀,
      finishDeck fuel e.io cosDeg e.sqrt quick d = some (.ok d') ∧ finishDeck fuel e.io cosDeg e.sqrt quick b = some (.ok b') ∧
      ∃ out out', Converts { e with fuel := fuel } cosDeg quick text .scone (.text out) ∧ Converts { e with fuel := fuel } cosDeg quick text' .scone (.text out') ∧
        SameSconeCells e tanSq read (trPoint cosDeg degrees values) d'.surfaces b'.surfaces f.cells out out' :=
  matched_scone e hio hsci ho cosDeg tanSq quick read hlit rank rank text text' f f' hf hf' (matched h) hc (C116_convertible h hq hc) hk (scone_moved h hk) hread hread'

end

private def env : Env ℚ :=
  { fuel := 100, io := mixedIO, fixed := formatF, sci := formatF, sci4 := fun x => (mixedIO.render x).take 10, sci3 := formatF, sqrt := id, degAtan := id, orderStr := id, orderInt := id }

/-- A hyperbolic cylinder with the equation `xz = 1` in a ball, without TR numbers and with number 5 on both surfaces. -/
private def still : Str := c!"title\n1 1 -7 -1 -2 imp:n=1\n2 0 1 -2 imp:n=1\n3 0 2 imp:n=0\n\n1 gq 0 0 0 0 0 1 0 0 0 -1\n2 so 9\n\nm1 1001 1.0\n"
private def shifted : Str := c!"title\n1 1 -7 -1 -2 imp:n=1\n2 0 1 -2 imp:n=1\n3 0 2 imp:n=0\n\n1 5 gq 0 0 0 0 0 1 0 0 0 -1\n2 5 so 9\n\ntr5 1 0 0\nm1 1001 1.0\n"

/-- C116 is false in general: the ball is moved by 1, but the hyperbolic cylinder becomes the plane `-z = 1`, because the moved equation has no other term of second degree than `xz`. -/
theorem C116_refuted :
    (convert env id true (some [c!"mcnp"]) still).run =
      .ok (some [(.mcnp, .text c!"C cell definitions\n1 1 -7.0 -1 -2 IMP:N=1.0\n2 0 1 -2 IMP:N=1.0\n3 0 2 IMP:N=0.0\n\nC surface definitions\n1 gq 0.0 0.0 0.0 0.0 0.0 1.0 0.0 0.0 0.0 -1.0\n2 s 0.0 0.0 0.0 9.0\n\nC material definitions\nC Material M1\nM1     1001 1.0\n")]) ∧
    (convert env id true (some [c!"mcnp"]) shifted).run =
      .ok (some [(.mcnp, .text c!"C cell definitions\n1 1 -7.0 -1 -2 IMP:N=1.0\n2 0 1 -2 IMP:N=1.0\n3 0 2 IMP:N=0.0\n\nC surface definitions\n1 p 0.0 0.0 -1.0 1.0\n2 gq 1.0 1.0 1.0 0.0 0.0 0.0 -2.0 0.0 0.0 -80.0\n\nC material definitions\nC Material M1\nM1     1001 1.0\n")]) :=
  ⟨by decide +kernel, by decide +kernel⟩

end Csg
