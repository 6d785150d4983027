import Verif.Model.OpenMCMaterial
import Verif.Spec.Elements
import Verif.Lemmas.Num

/-!
# Names of nuclides in OpenMC: C50
-/

namespace Csg

open Spec

private theorem natStrGo_fuel : ∀ k l, k ≤ l → ∀ j, j < k → natStrGo k j = natStrGo l j := by
  intro k
  induction k with
  | zero => intro l _ j hj; omega
  | succ k ih =>
    intro l hl j hj
    obtain ⟨l, rfl⟩ : ∃ l', l = l' + 1 := ⟨l - 1, by omega⟩
    unfold natStrGo
    split
    · rfl
    · rw [ih l (by omega) (j / 10) (by omega)]

private theorem natStr_step {n : Nat} (h : 10 ≤ n) : natStr n = natStr (n / 10) ++ [digitChar (n % 10)] := by
  conv_lhs => unfold natStr natStrGo
  rw [if_neg (by omega), ← natStrGo_fuel (n / 10 + 1) n (by omega) (n / 10) (by omega)]
  rfl

private theorem natStr_thousand {z a : Nat} (hz : 0 < z) (ha : a < 1000) :
    natStr (1000 * z + a) = natStr z ++ [digitChar (a / 100), digitChar (a / 10 % 10), digitChar (a % 10)] := by
  rw [natStr_step (by omega), natStr_step (n := (1000 * z + a) / 10) (by omega), natStr_step (n := (1000 * z + a) / 10 / 10) (by omega),
    show (1000 * z + a) / 10 / 10 / 10 = z by omega, show (1000 * z + a) / 10 / 10 % 10 = a / 100 by omega, show (1000 * z + a) / 10 % 10 = a / 10 % 10 by omega,
    show (1000 * z + a) % 10 = a % 10 by omega]
  simp

private theorem pyInt_digits {s : Str} {n : Nat} (hne : s ≠ []) (hd : ∀ c ∈ s, isDigit c = true) (hv : natVal s = n) : pyInt s = .ok (n : Int) := by
  unfold pyInt
  rw [parseInt_of_digits hne hd, hv]

private theorem natVal_three {a : Nat} (ha : a < 1000) : natVal [digitChar (a / 100), digitChar (a / 10 % 10), digitChar (a % 10)] = a := by
  simp only [natVal, List.foldl_cons, List.foldl_nil]
  rw [digitVal_digitChar (by omega), digitVal_digitChar (by omega), digitVal_digitChar (by omega)]
  omega

private theorem natVal_two {a : Nat} (ha : a < 100) : natVal [digitChar (a / 10 % 10), digitChar (a % 10)] = a := by
  simp only [natVal, List.foldl_cons, List.foldl_nil]
  rw [digitVal_digitChar (by omega), digitVal_digitChar (by omega)]
  omega

private theorem symbol_lookup : ∀ z ∈ List.range 119, z ≠ 0 → nameZaid.lookup (z : Int) = some (symbol z) := by decide +kernel

private theorem natStr_length {z : Nat} (hz : z < 1000) : (natStr z).length = if z < 10 then 1 else if z < 100 then 2 else 3 := by
  have : ∀ z ∈ List.range 1000, (natStr z).length = if z < 10 then 1 else if z < 100 then 2 else 3 := by decide +kernel
  exact this z (List.mem_range.2 hz)

/-- C50 for all elements from neon on, and for the lighter ones with a mass number of at most two digits. Missing: see `C50_refuted`. -/
theorem C50_name_partial (z a : Nat) (hz : 0 < z) (hz' : z ≤ 118) (ha : a < 1000) (hlight : z < 10 → a < 100) :
    zaidToName (natStr (1000 * z + a)) = .ok (symbol z ++ natStr a) := by
  have hlen := natStr_length (show z < 1000 by omega)
  have hsym := symbol_lookup z (List.mem_range.2 (by omega)) (by omega)
  have hdz := natStr_digits z
  have hvz := natVal_natStr z
  rw [natStr_thousand hz ha]
  unfold zaidToName
  have fin : ∀ (x : Py (Int × Int)), x = .ok ((z : Int), (a : Int)) → (do
      let (zz, aa) ← x
      match nameZaid.lookup zz with
      | some name => .ok (name ++ intStr aa)
      | none => .error .keyError : Py Str) = .ok (symbol z ++ natStr a) := by
    rintro _ rfl
    simp only [bind, Except.bind]
    rw [hsym]
    rfl
  refine fin _ ?_
  have hlen3 : (natStr z ++ [digitChar (a / 100), digitChar (a / 10 % 10), digitChar (a % 10)]).length = (natStr z).length + 3 := by simp
  have h3 : pyInt [digitChar (a / 100), digitChar (a / 10 % 10), digitChar (a % 10)] = .ok (a : Int) :=
    pyInt_digits (by simp) (by simp [isDigit_digitChar]) (natVal_three ha)
  have hzz : pyInt (natStr z) = .ok (z : Int) := pyInt_digits (natStr_ne_nil z) hdz hvz
  by_cases h10 : z < 10
  · rw [if_pos h10] at hlen
    obtain ⟨c, hc⟩ := List.length_eq_one_iff.1 hlen
    rw [if_pos (by rw [hlen3, hlen])]
    rw [hc] at hzz ⊢
    show (do
      let zz ← pyInt [c]
      let aa ← pyInt [digitChar (a / 10 % 10), digitChar (a % 10)]
      .ok (zz, aa) : Py (Int × Int)) = _
    rw [hzz, pyInt_digits (by simp) (by simp [isDigit_digitChar]) (natVal_two (hlight h10))]
    rfl
  · rw [if_neg h10] at hlen
    by_cases h100 : z < 100
    · rw [if_pos h100] at hlen
      rw [if_neg (by rw [hlen3, hlen]; omega), if_neg (by rw [hlen3, hlen]; omega)]
      rw [List.take_left' hlen, List.drop_left' hlen, hzz, h3]
      rfl
    · rw [if_neg h100] at hlen
      rw [if_neg (by rw [hlen3, hlen]; omega), if_pos (by rw [hlen3, hlen]; omega)]
      rw [List.take_left' hlen, List.drop_left' hlen, hzz, h3]
      rfl

/-- C50 is false: the hundreds of the mass number are lost for the elements up to fluorine. -/
theorem C50_refuted : ∃ z a : Nat, 0 < z ∧ z ≤ 118 ∧ a < 1000 ∧ zaidToName (natStr (1000 * z + a)) = .ok c!"F17" ∧ symbol z ++ natStr a = c!"F117" :=
  ⟨9, 117, by decide, by decide, by decide, by decide +kernel, by decide +kernel⟩

example : zaidToName (natStr (1000 * 92 + 235)) = .ok c!"U235" := by decide +kernel

example : zaidToName (natStr (1000 * 100 + 255)) = .ok c!"Fm255" := by decide +kernel

example : zaidToName (natStr (1000 * 1 + 1)) = .ok c!"H1" := by decide +kernel

end Csg
