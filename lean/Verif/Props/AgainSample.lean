import Verif.Props.Again
import Verif.Lemmas.MixedIO
import Verif.Lemmas.FormatE

/-!
# C105: the text of the file is not kept

The comment with the name of a copied material is lost when the file is read.
-/

namespace Csg

open Spec

private def env : Env ℚ :=
  { fuel := 100, io := mixedIO, fixed := formatF, sci := formatF, sci4 := fun x => (mixedIO.render x).take 10, sci3 := formatE, sqrt := id, degAtan := (45 * ·), orderStr := id, orderInt := id }

/-- The file that is written. -/
private def run (text : Str) : Str :=
  match (convert env id false (some [c!"mcnp"]) text).run with
  | .ok (some [(_, .text out)]) => out
  | _ => []

/-- A cube in a ball. Both have the material 1, with different densities. -/
private def text : Str := c!"title\n1 1 -7 -1 imp:n=1\n2 1 -3.0 1 -2 imp:n=1\n3 0 2 imp:n=0\n\n1 rpp 0 1 0 1 0 1\n2 so 9\n\nm1 1001 2.0 8016 3.0\n"

set_option maxRecDepth 16000 in
/-- The stronger claim that the written file is written again as it is, is false: the second file has another comment for the copied material. The third file is the second one. -/
theorem C105_refuted_text : ∃ (e : Env ℚ) (text first second : Str), Exact e.io ∧ Returns (convert e id false (some [c!"mcnp"]) text) [(.mcnp, .text first)] ∧
    Returns (convert e id false (some [c!"mcnp"]) first) [(.mcnp, .text second)] ∧ first ≠ second ∧ Returns (convert e id false (some [c!"mcnp"]) second) [(.mcnp, .text second)] :=
  ⟨env, text, run text, run (run text), mixed_exact, by unfold Returns; decide +kernel, by unfold Returns; decide +kernel, by decide +kernel, by unfold Returns; decide +kernel⟩

end Csg
