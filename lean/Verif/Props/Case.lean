import Verif.Spec.Case
import Verif.Model.SerpentRun
import Verif.Lemmas.InputFile

/-!
# C111: upper and lower case
-/

namespace Csg

open Spec

private theorem lower_val (c : Char) : c.toLower.toNat = if 'A' ≤ c ∧ c ≤ 'Z' then c.toNat + 32 else c.toNat := by
  unfold Char.toLower
  by_cases h : c.val ≥ 'A'.val ∧ c.val ≤ 'Z'.val
  · rw [dif_pos h, if_pos (show 'A' ≤ c ∧ c ≤ 'Z' from h)]
    have h2 : c.val.toNat ≤ 90 := h.2
    show (c.val + ('a'.val - 'A'.val)).toNat = c.val.toNat + 32
    rw [UInt32.toNat_add, show (('a'.val - 'A'.val : UInt32)).toNat = 32 from rfl]
    omega
  · rw [dif_neg h, if_neg (show ¬ ('A' ≤ c ∧ c ≤ 'Z') from h)]

private theorem le_iff (a b : Char) : a ≤ b ↔ a.toNat ≤ b.toNat := Iff.rfl

/-- Two letters agree up to case exactly if their lower cases are equal. -/
private theorem sameLetter_iff (a b : Char) : SameLetter a b ↔ a.toLower = b.toLower := by
  have key : a.toLower = b.toLower ↔ a.toLower.toNat = b.toLower.toNat := ⟨fun h => by rw [h], fun h => Char.toNat_inj.1 h⟩
  have key' : a = b ↔ a.toNat = b.toNat := ⟨fun h => by rw [h], fun h => Char.toNat_inj.1 h⟩
  rw [key, lower_val, lower_val]
  unfold SameLetter
  rw [key']
  simp only [le_iff, show 'A'.toNat = 65 from rfl, show 'Z'.toNat = 90 from rfl]
  split <;> split <;> omega

section
variable {K : Type} [Field K] [LinearOrder K]

private theorem readText_case {text text' : Str} (h : SameUpToCase text text') : readText text = readText text' := by
  have e : lower text = lower text' := by
    induction h with
    | nil => rfl
    | cons h _ ih => exact congrArg₂ List.cons ((sameLetter_iff _ _).1 h) ih
  show (readlines text).map lower = (readlines text').map lower
  rw [← readlines_lower, ← readlines_lower, e]

/-- **C111.** Two texts that agree up to upper and lower case give the same run: the same files or the same exception. -/
theorem C111_case (e : Env K) (cosDeg : K → K) (quick : Bool) (format : Code) (output : Option (List Str)) (text text' : Str) (h : SameUpToCase text text') :
    runMain e cosDeg quick format output text = runMain e cosDeg quick format output text' := by
  unfold runMain
  cases format <;> simp only [convert, convertSerpent, readText_case h]

end

/-- A case that meets the hypothesis. -/
example : SameUpToCase c!"Title\n1 0 -1 IMP:N=1\n2 0 1 imp:N=0\n\n1 SO 3\n\nM1 1001 1E0\n" c!"TITLE\n1 0 -1 imp:n=1\n2 0 1 Imp:n=0\n\n1 So 3\n\nm1 1001 1e0\n" := by
  unfold SameUpToCase SameLetter
  decide +kernel

end Csg
