import Verif.Props.Outside
import Verif.Lemmas.MixedIO
import Verif.Lemmas.FormatE

/-!
# C102: where the outside world gets lost

Input files for which a written file does not say where the outside world is.
-/

namespace Csg

open Spec

/-- Exact numbers, read and printed as fractions. -/
private def env : Env ℚ :=
  { fuel := 100, io := mixedIO, fixed := formatF, sci := formatF, sci4 := fun x => (mixedIO.render x).take 10, sci3 := formatE, sqrt := id, degAtan := (45 * ·), orderStr := id, orderInt := id }

set_option maxRecDepth 8000 in
/-- C102 is false for Serpent: two files that differ only in the importance of the cell around the ball, zero or one, give the same Serpent file, in which this cell is an ordinary void cell. -/
theorem C102_refuted_serpent : ∃ out : Str,
    Returns (convert env id false (some [c!"serpent"]) c!"title\n1 1 -7 -1 imp:n=1\n2 0 1 imp:n=0\n\n1 so 9\n\nm1 1001 1.0\n") [(.serpent, (.text out))] ∧
    Returns (convert env id false (some [c!"serpent"]) c!"title\n1 1 -7 -1 imp:n=1\n2 0 1 imp:n=1\n\n1 so 9\n\nm1 1001 1.0\n") [(.serpent, (.text out))] ∧
    c!"cell 2 0 void ( 1 ) \n" ∈ readlines out :=
  ⟨c!"% --- surface definitions --- %\nsurf 1 sph 0.0 0.0 0.0 9.0\n% --- cell definitions --- %\ncell 1 0 1 ( -1 ) \ncell 2 0 void ( 1 ) \n% --- material definitions --- %\n% M1\nmat 1 -7.0\n1001 1.000000 \n",
    by unfold Returns; decide +kernel, by unfold Returns; decide +kernel, by decide +kernel⟩

set_option maxRecDepth 8000 in
/-- C102 is false for OpenMC if the outside world is written as the complement of another cell: no surface of the OpenMC file is a vacuum boundary. -/
theorem C102_refuted_complement : ∃ (g m : Str) (x : OpenmcSurface),
    Returns (convert env id false (some [c!"openmc"]) c!"title\n1 1 -7 -1 imp:n=1\n2 0 #1 imp:n=0\n\n1 so 9\n\nm1 1001 1.0\n") [(.openmc, (.xml g m))] ∧
    (openmcGeometry g).map Prod.fst = some [x] ∧ x.boundary = c!"transmission" :=
  ⟨c!"<geometry>\n  <surface id=\"1\" type=\"sphere\" coeffs=\"0.0 0.0 0.0 9.0\" boundary=\"transmission\" />\n  <cell id=\"1\" material=\"1\" region=\" -1\" universe=\"0\" />\n  <cell id=\"2\" material=\"void\" region=\"  ~  (  -1 ) \" universe=\"0\" />\n</geometry>\n",
    c!"<materials>\n  <material id=\"1\" name=\"M1\">\n    <density value=\"7.0\" units=\"g/cc\" />\n    <nuclide name=\"H1\" ao=\"1.0\" />\n  </material>\n</materials>\n",
    ⟨c!"1", c!"sphere", c!"0.0 0.0 0.0 9.0", c!"transmission"⟩, by unfold Returns; decide +kernel, by decide +kernel, rfl⟩

set_option maxRecDepth 8000 in
/-- C102 is false for OpenMC in a run that removes duplicates: of two equal surfaces the later one stays, and if only the earlier one is named by the cell with importance zero no vacuum boundary is left. -/
theorem C102_refuted_duplicate : ∃ (g m : Str) (x : OpenmcSurface),
    Returns (convert env id false (some [c!"openmc"]) c!"title\n1 1 -7 -2 imp:n=1\n2 0 1 imp:n=0\n\n1 so 9\n2 so 9\n\nm1 1001 1.0\n") [(.openmc, (.xml g m))] ∧
    (openmcGeometry g).map Prod.fst = some [x] ∧ x.boundary = c!"transmission" :=
  ⟨c!"<geometry>\n  <surface id=\"2\" type=\"sphere\" coeffs=\"0.0 0.0 0.0 9.0\" boundary=\"transmission\" />\n  <cell id=\"1\" material=\"1\" region=\" -2\" universe=\"0\" />\n  <cell id=\"2\" material=\"void\" region=\" 2\" universe=\"0\" />\n</geometry>\n",
    c!"<materials>\n  <material id=\"1\" name=\"M1\">\n    <density value=\"7.0\" units=\"g/cc\" />\n    <nuclide name=\"H1\" ao=\"1.0\" />\n  </material>\n</materials>\n",
    ⟨c!"2", c!"sphere", c!"0.0 0.0 0.0 9.0", c!"transmission"⟩, by unfold Returns; decide +kernel, by decide +kernel, rfl⟩

/-- What a run writes for FLUKA satisfies a test. -/
private theorem fluka_test {w : W (List (Code × OutFile))} (P : Str → Prop) [DecidablePred P]
    (h : (match w.run with | .ok (some [(.fluka, .text out)]) => decide (P out) | _ => false) = true) : ∃ out, Returns w [(.fluka, .text out)] ∧ P out := by
  unfold Returns
  split at h
  · next out hw => exact ⟨out, hw, of_decide_eq_true h⟩
  · cases h

set_option maxRecDepth 8000 in
/-- C102 is false for FLUKA if a cell with importance zero has a material: the region gets this material and there is no black hole. -/
theorem C102_refuted_fluka : ∃ out : Str, Returns (convert env id false (some [c!"fluka"]) c!"title\n1 1 -7 -1 imp:n=1\n2 1 -7 1 imp:n=0\n\n1 so 9\n\nm1 1001 1.0\n") [(.fluka, (.text out))] ∧
    c!"ASSIGNMA          M1        C2\n" ∈ readlines out ∧ ∀ l ∈ readlines out, ¬ c!"BLCKHOLE" <:+: l :=
  fluka_test (fun out => c!"ASSIGNMA          M1        C2\n" ∈ readlines out ∧ ∀ l ∈ readlines out, ¬ c!"BLCKHOLE" <:+: l) (by decide +kernel)

end Csg
