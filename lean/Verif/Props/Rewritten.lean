import Verif.Lemmas.Matched
import Verif.Lemmas.FormatE
import Verif.Lemmas.MixedIO

/-!
# C117: other expressions for the same cells
-/

set_option linter.unusedSectionVars false

namespace Csg

open Spec

section
variable {K : Type} [Field K] [LinearOrder K] [IsStrictOrderedRing K]
variable {io : NumIO K} {cosDeg sqrt : K → K} {rank : Int → Nat} {f f' : InputFile K}

/-- The cells of the two files have the same points. -/
theorem C117_points (h : RewrittenFile f f') (n : Int) (p : Point K) : InFileCell cosDeg sqrt f n p ↔ InFileCell cosDeg sqrt f' n p := by
  have hp : f'.place cosDeg = f.place cosDeg := by
    funext tr p
    unfold InputFile.place
    rw [h.transforms]
  have hs : entrySense cosDeg sqrt f' p = entrySense cosDeg sqrt f p := by
    funext w
    unfold entrySense
    rw [h.surfaces, hp]
  unfold InFileCell
  rw [hs]
  refine exists_congr fun T => and_congr_left' ⟨fun hT c' hc' => ?_, fun hT c hc => ?_⟩
  · obtain ⟨c, hc, k1, -, -, k2⟩ := forall₂_exists_right h.cells hc'
    rw [k1, ← k2]
    exact hT c hc
  · obtain ⟨c', hc', k1, -, -, k2⟩ := forall₂_exists_left h.cells hc
    rw [← k1, k2]
    exact hT c' hc'

private theorem matched (h : RewrittenFile f f') : Matched cosDeg sqrt id f f' where
  cells := h.cells.imp fun _ _ k => ⟨k.1, k.2.1, k.2.2.1⟩
  materials := h.materials
  importances := h.importances
  points := fun c _ p => C117_points h c.number p

/-! ## Codes -/

/-- **C117** for OpenMC (partial). Two texts that differ in how the geometry of cells is written are converted to files with the same cells. Missing is what is missing in C100. -/
theorem C117_openmc_partial (e : Env K) (hio : Exact e.io) (cosDeg : K → K) (quick : Bool) (rank rank' : Int → Nat) (text text' : Str) (f f' : InputFile K) (hf : FileSays e.io text f) (hf' : FileSays e.io text' f')
    (h : RewrittenFile f f') (hc : ConvertibleFile e.io cosDeg e.sqrt rank f)
    (hc' : ConvertibleFile e.io cosDeg e.sqrt rank' f') (ho : OpenmcFile f) :
    ∃ fuel₀, ∀ fuel ≥ fuel₀, ∃ out out', Converts { e with fuel := fuel } cosDeg quick text .openmc out ∧ Converts { e with fuel := fuel } cosDeg quick text' .openmc out' ∧ SameOpenmc e id f.cells out out' :=
  matched_openmc e hio cosDeg quick rank rank' text text' f f' hf hf' (matched h) hc hc' ho

/-- **C117** for Serpent (partial). Also missing: the texts of numbers must fit on a card and be such that Serpent reads them. -/
theorem C117_serpent_partial (e : Env K) (hio : Exact e.io) (cosDeg : K → K) (quick : Bool) (read : Str → Option K) (approx : K → K) (rank rank' : Int → Nat) (text text' : Str) (f f' : InputFile K)
    (hsci : ∀ x, FloatText (e.sci x) ∧ e.io.parse (e.sci x) = some (approx x)) (hf : FileSays e.io text f) (hf' : FileSays e.io text' f')
    (h : RewrittenFile f f') (hc : ConvertibleFile e.io cosDeg e.sqrt rank f)
    (hc' : ConvertibleFile e.io cosDeg e.sqrt rank' f') (hk : CardFile f)
    (hread : SerpentTexts e cosDeg quick read text) (hread' : SerpentTexts e cosDeg quick read text') :
    ∃ fuel₀, ∀ fuel ≥ fuel₀, ∃ out out', Converts { e with fuel := fuel } cosDeg quick text .serpent (.text out) ∧ Converts { e with fuel := fuel } cosDeg quick text' .serpent (.text out') ∧
      SameSerpent e read approx id f.cells out out' :=
  matched_serpent e hio cosDeg quick read approx rank rank' text text' f f' hsci hf hf' (matched h) hc hc' hk hread hread'

/-- **C117** for PHITS (partial). Also missing: the texts of numbers and of library names must fit on a card. -/
theorem C117_phits_partial (e : Env K) (hio : Exact e.io) (cosDeg : K → K) (quick : Bool) (rank rank' : Int → Nat) (text text' : Str) (f f' : InputFile K) (hf : FileSays e.io text f) (hf' : FileSays e.io text' f')
    (h : RewrittenFile f f') (hc : ConvertibleFile e.io cosDeg e.sqrt rank f)
    (hc' : ConvertibleFile e.io cosDeg e.sqrt rank' f') (hk : CardFile f)
    (hread : PhitsTexts e cosDeg quick text) (hread' : PhitsTexts e cosDeg quick text') :
    ∃ fuel₀, ∀ fuel ≥ fuel₀, ∃ out out', Converts { e with fuel := fuel } cosDeg quick text .phits (.text out) ∧ Converts { e with fuel := fuel } cosDeg quick text' .phits (.text out') ∧
      SamePhits e id f.cells out out' :=
  matched_phits e hio cosDeg quick rank rank' text text' f f' hf hf' (matched h) hc hc' hk hread hread'

/-- **C117** for MCNP (partial). The written files are read again. Also missing: the texts of numbers must fit on a card, and importances must have texts that the reader of cell cards takes (`hi`). -/
theorem C117_mcnp_partial (e : Env K) (hio : Exact e.io) (cosDeg : K → K) (quick : Bool) (rank rank' : Int → Nat) (text text' : Str) (f f' : InputFile K) (hmn : ∀ mn ∈ printedMnemonics, e.io.parse mn = none)
    (hf : FileSays e.io text f) (hf' : FileSays e.io text' f')
    (h : RewrittenFile f f') (hc : ConvertibleFile e.io cosDeg e.sqrt rank f)
    (hc' : ConvertibleFile e.io cosDeg e.sqrt rank' f') (hk : CardFile f)
    (hi : ∀ (i : Nat) c x, f.cells[i]? = some c → FileImportance e.io f i c x → PlainNumber (e.io.render x)) (hread : McnpTexts e cosDeg quick text) (hread' : McnpTexts e cosDeg quick text') :
    ∃ fuel₀, ∀ fuel ≥ fuel₀, ∃ out out', Converts { e with fuel := fuel } cosDeg quick text .mcnp (.text out) ∧ Converts { e with fuel := fuel } cosDeg quick text' .mcnp (.text out') ∧
      SameMcnp e cosDeg id f.cells out out' :=
  matched_mcnp e hio cosDeg quick rank rank' text text' f f' hmn hf hf' (matched h) hc hc' hk hi hread hread'

/-- **C117** for FLUKA (partial). Also missing: cones, tori and macrobodies with a transformation are left out, and so are points on the surfaces of the processed decks. -/
theorem C117_fluka_partial (e : Env K) (hio : Exact e.io) (hn : FlukaNumbers e) (cosDeg : K → K) (quick : Bool) (rank rank' : Int → Nat) (text text' : Str) (f f' : InputFile K) (hf : FileSays e.io text f) (hf' : FileSays e.io text' f')
    (h : RewrittenFile f f') (hc : ConvertibleFile e.io cosDeg e.sqrt rank f)
    (hc' : ConvertibleFile e.io cosDeg e.sqrt rank' f')
    (hk : FlukaFile e.io cosDeg e.sqrt f) (hk' : FlukaFile e.io cosDeg e.sqrt f') :
    ∃ fuel₀ d d' b b', readDeck e.io cosDeg (readText text) = .ok d ∧ readDeck e.io cosDeg (readText text') = .ok b ∧ ∀ fuel ≥ fuel₀,
      finishDeck fuel e.io cosDeg e.sqrt quick d = some (.ok d') ∧ finishDeck fuel e.io cosDeg e.sqrt quick b = some (.ok b') ∧
      ∃ out out', Converts { e with fuel := fuel } cosDeg quick text .fluka (.text out) ∧ Converts { e with fuel := fuel } cosDeg quick text' .fluka (.text out') ∧
        SameFluka e id d'.surfaces b'.surfaces f.cells out out' :=
  matched_fluka e hio hn cosDeg quick rank rank' text text' f f' hf hf' (matched h) hc hc' hk hk'

/-- **C117** for SCONE (partial). Also missing: tori and points far from the tip of a cone are left out, and the texts of numbers must be such that SCONE reads them. -/
theorem C117_scone_partial (e : Env K) (hio : Exact e.io) (hsci : ∀ x, SconeOrdinary (e.sci x)) (ho : ∀ l, (e.orderInt l).Perm l) (cosDeg tanSq : K → K) (quick : Bool) (read : Str → Option K)
    (hlit : ∀ w x, Literal w x → read w = some x) (rank rank' : Int → Nat) (text text' : Str) (f f' : InputFile K) (hf : FileSays e.io text f) (hf' : FileSays e.io text' f')
    (h : RewrittenFile f f') (hc : ConvertibleFile e.io cosDeg e.sqrt rank f)
    (hc' : ConvertibleFile e.io cosDeg e.sqrt rank' f') (hk : SconeFile e.io f) (hk' : SconeFile e.io f')
    (hread : SconeTexts e cosDeg tanSq quick read text) (hread' : SconeTexts e cosDeg tanSq quick read text') :
    ∃ fuel₀ d d' b b', readDeck e.io cosDeg (readText text) = .ok d ∧ readDeck e.io cosDeg (readText text') = .ok b ∧ ∀ fuel ≥ fuel₀,
      finishDeck fuel e.io cosDeg e.sqrt quick d = some (.ok d') ∧ finishDeck fuel e.io cosDeg e.sqrt quick b = some (.ok b') ∧
      ∃ out out', Converts { e with fuel := fuel } cosDeg quick text .scone (.text out) ∧ Converts { e with fuel := fuel } cosDeg quick text' .scone (.text out') ∧
        SameSconeCells e tanSq read id d'.surfaces b'.surfaces f.cells out out' :=
  matched_scone e hio hsci ho cosDeg tanSq quick read hlit rank rank' text text' f f' hf hf' (matched h) hc hc' hk hk' hread hread'

end

private def env : Env ℚ :=
  { fuel := 100, io := mixedIO, fixed := formatF, sci := formatF, sci4 := fun x => (mixedIO.render x).take 10, sci3 := formatF, sqrt := id, degAtan := id, orderStr := id, orderInt := id }

/-- A ball and the outside, where the geometry of the outside is this. -/
private def outsideIs (g : Str) : Str := c!"title\n1 0 -1 imp:n=1\n2 0 " ++ g ++ c!" imp:n=0\n\n1 so 9\n\nm1 1001 1.0\n"

/-- C117 is false for the boundary: the surface of the ball is a vacuum boundary, but it is not if the geometry of the outside is put in parentheses. -/
theorem C117_refuted :
    (convert env id true (some [c!"openmc"]) (outsideIs c!"1")).run =
      .ok (some [(.openmc, .xml c!"<geometry>\n  <surface id=\"1\" type=\"sphere\" coeffs=\"0.0 0.0 0.0 9.0\" boundary=\"vacuum\" />\n  <cell id=\"1\" material=\"void\" region=\" -1\" universe=\"0\" />\n  <cell id=\"2\" material=\"void\" region=\" 1\" universe=\"0\" />\n</geometry>\n"
        c!"<materials>\n  <material id=\"1\" name=\"M1\">\n    <density value=\"0.0\" units=\"atom/b-cm\" />\n    <nuclide name=\"H1\" ao=\"1.0\" />\n  </material>\n</materials>\n")]) ∧
    (convert env id true (some [c!"openmc"]) (outsideIs c!"(1)")).run =
      .ok (some [(.openmc, .xml c!"<geometry>\n  <surface id=\"1\" type=\"sphere\" coeffs=\"0.0 0.0 0.0 9.0\" boundary=\"transmission\" />\n  <cell id=\"1\" material=\"void\" region=\" -1\" universe=\"0\" />\n  <cell id=\"2\" material=\"void\" region=\" ( 1 ) \" universe=\"0\" />\n</geometry>\n"
        c!"<materials>\n  <material id=\"1\" name=\"M1\">\n    <density value=\"0.0\" units=\"atom/b-cm\" />\n    <nuclide name=\"H1\" ao=\"1.0\" />\n  </material>\n</materials>\n")]) :=
  ⟨by decide +kernel, by decide +kernel⟩

end Csg
