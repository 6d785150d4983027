import Mathlib.Tactic.IntervalCases
import Mathlib.Tactic.Linarith
import Mathlib.Tactic.FieldSimp
import Mathlib.Tactic.Positivity
import Verif.Lemmas.FormatF
import Verif.Model.Fluka
import Verif.Spec.Fluka

/-!
# Numbers with an exponent
-/

namespace Csg

open Spec

theorem natStr_digit : ∀ k, k < 10 → natStr k = [Char.ofNat (48 + k)] := by decide +kernel

theorem natStr_two : ∀ k, k < 100 → List.replicate (2 - (natStr k).length) '0' ++ natStr k = [Char.ofNat (48 + k / 10), Char.ofNat (48 + k % 10)] := by decide +kernel

theorem toNat_digit : ∀ k, k < 10 → (Char.ofNat (48 + k)).toNat - '0'.toNat = k := by decide +kernel

theorem putE_value {neg : Bool} {m : Nat} {e : Int} (hm : m < 10000) (he : e.natAbs < 100) :
    sciValue (putE neg m e) = some ((if neg then -1 else 1) * ((m : ℚ) / 1000 * (10 : ℚ) ^ e)) := by
  unfold putE
  rw [natStr_digit (m / 1000) (by omega), natStr_digit (m / 100 % 10) (by omega), natStr_digit (m / 10 % 10) (by omega), natStr_digit (m % 10) (by omega), natStr_two _ he]
  have hs : ((if neg then c!"-" else c!" ") : Str) = [if neg then '-' else ' '] := by cases neg <;> rfl
  have hs2 : ((if e < 0 then c!"-" else c!"+") : Str) = [if e < 0 then '-' else '+'] := by split <;> rfl
  rw [hs, hs2]
  simp only [List.cons_append, List.nil_append, sciValue, digit]
  rw [toNat_digit _ (by omega : m / 1000 < 10), toNat_digit _ (by omega : m / 100 % 10 < 10), toNat_digit _ (by omega : m / 10 % 10 < 10), toNat_digit _ (by omega : m % 10 < 10),
    toNat_digit _ (by omega : e.natAbs / 10 < 10), toNat_digit _ (by omega : e.natAbs % 10 < 10)]
  have hE : e.natAbs / 10 * 10 + e.natAbs % 10 = e.natAbs := by omega
  have hM : ((m / 1000 : Nat) : ℚ) + ((m / 100 % 10 : Nat) : ℚ) / 10 + ((m / 10 % 10 : Nat) : ℚ) / 100 + ((m % 10 : Nat) : ℚ) / 1000 = (m : ℚ) / 1000 := by
    have : m = m / 1000 * 1000 + m / 100 % 10 * 100 + m / 10 % 10 * 10 + m % 10 := by omega
    have h := congrArg (fun n : Nat => (n : ℚ)) this
    simp only [Nat.cast_add, Nat.cast_mul, Nat.cast_ofNat] at h
    linarith
  rw [hE, hM]
  congr 2
  · cases neg <;> simp
  · by_cases h : e < 0
    · have : e = -(e.natAbs : Int) := by omega
      simp only [h, if_true]
      conv_rhs => rw [this, zpow_neg, zpow_natCast]
      rw [div_eq_mul_inv]
    · have : e = (e.natAbs : Int) := by omega
      simp only [h, if_false]
      rw [if_neg (by decide)]
      conv_rhs => rw [this, zpow_natCast]

/-- The text of a number denotes it up to half a unit of its fourth digit. -/
theorem formatE_value {x : ℚ} (h : x = 0 ∨ (10 : ℚ) ^ (-99 : Int) ≤ |x| ∧ |x| < (10 : ℚ) ^ (99 : Int)) :
    ∃ v, sciValue (formatE x) = some v ∧ |v - x| ≤ |x| / 2000 := by
  by_cases hx : x = 0
  · subst hx
    exact ⟨0, by rw [formatE, if_pos rfl, putE_value (by omega) (by decide)]; simp, by simp⟩
  obtain ⟨hlo, hhi⟩ := h.resolve_left hx
  have hpos : 0 < |x| := abs_pos.2 hx
  rw [formatE, if_neg hx]
  simp only []
  obtain ⟨e, he⟩ : ∃ e, e = Int.log 10 |x| := ⟨_, rfl⟩
  rw [← he]
  have h1 : (10 : ℚ) ^ e ≤ |x| := by rw [he]; exact_mod_cast Int.zpow_log_le_self (b := 10) (by omega) hpos
  have h2 : |x| < (10 : ℚ) ^ (e + 1) := by rw [he]; exact_mod_cast Int.lt_zpow_succ_log_self (b := 10) (by omega) |x|
  have he1 : -99 ≤ e := by
    rw [he]
    exact (Int.zpow_le_iff_le_log (b := 10) (by omega) hpos).1 (by exact_mod_cast hlo)
  have he2 : e < 99 := by
    rw [he]
    exact (Int.lt_zpow_iff_log_lt (b := 10) (by omega) hpos).1 (by exact_mod_cast hhi)
  have hp : (0 : ℚ) < (10 : ℚ) ^ e := zpow_pos (by norm_num) _
  obtain ⟨y, hy⟩ : ∃ y, y = |x| / (10 : ℚ) ^ e * 1000 := ⟨_, rfl⟩
  rw [← hy]
  have hxy : |x| = y / 1000 * (10 : ℚ) ^ e := by rw [hy]; field_simp
  have hy1 : 1000 ≤ y := by
    rw [hy]
    have : 1 ≤ |x| / (10 : ℚ) ^ e := (one_le_div hp).2 h1
    linarith
  have hy2 : y < 10000 := by
    rw [hy]
    rw [zpow_add_one₀ (by norm_num)] at h2
    have : |x| / (10 : ℚ) ^ e < 10 := by rw [div_lt_iff₀ hp]; linarith
    linarith
  have hr := abs_le.1 (roundEven_near y)
  obtain ⟨r, hr'⟩ : ∃ r, r = roundEven y := ⟨_, rfl⟩
  rw [← hr'] at hr ⊢
  have hr1 : 1000 ≤ r := by
    have : (999 : ℚ) < r := by linarith [hr.1]
    have : (999 : Int) < r := by exact_mod_cast this
    omega
  have hr2 : r ≤ 10000 := by
    have : (r : ℚ) < 10001 := by linarith [hr.2]
    have : r < 10001 := by exact_mod_cast this
    omega
  obtain ⟨m, rfl⟩ : ∃ m : Nat, r = m := ⟨r.toNat, by omega⟩
  rw [Int.toNat_natCast]
  have key : sciValue (if m = 10000 then putE (decide (x < 0)) 1000 (e + 1) else putE (decide (x < 0)) m e) =
      some ((if x < 0 then -1 else 1) * ((m : ℚ) / 1000 * (10 : ℚ) ^ e)) := by
    split
    · rename_i h
      rw [putE_value (by omega) (by omega), h, zpow_add_one₀ (by norm_num)]
      simp only [decide_eq_true_eq]
      congr 2
      push_cast
      ring
    · rw [putE_value (by omega) (by omega)]
      simp only [decide_eq_true_eq]
  refine ⟨_, key, ?_⟩
  have hxs : x = (if x < 0 then -1 else 1) * |x| := by
    split
    · rename_i h; rw [abs_of_neg h]; ring
    · rename_i h; rw [abs_of_nonneg (not_lt.1 h)]; ring
  have hs1 : |(if x < 0 then (-1 : ℚ) else 1)| = 1 := by split <;> simp
  have : (if x < 0 then (-1 : ℚ) else 1) * ((m : ℚ) / 1000 * (10 : ℚ) ^ e) - x = (if x < 0 then (-1 : ℚ) else 1) * (((m : ℚ) - y) * ((10 : ℚ) ^ e / 1000)) := by
    generalize (if x < 0 then (-1 : ℚ) else 1) = s at hxs
    rw [hxy] at hxs
    rw [hxs]
    ring
  rw [this, abs_mul, hs1, one_mul, abs_mul, abs_of_pos (by positivity : (0 : ℚ) < (10 : ℚ) ^ e / 1000)]
  have h3 : |(m : ℚ) - y| ≤ 1 / 2 := abs_le.2 (by exact_mod_cast hr)
  calc |(m : ℚ) - y| * ((10 : ℚ) ^ e / 1000) ≤ 1 / 2 * ((10 : ℚ) ^ e / 1000) := mul_le_mul_of_nonneg_right h3 (by positivity)
    _ = (10 : ℚ) ^ e / 2000 := by ring
    _ ≤ |x| / 2000 := by linarith

theorem formatE_newline (x : ℚ) : '\n' ∉ formatE x := by
  have hd : ∀ n, '\n' ∉ natStr n := fun n h => absurd (natStr_digits n _ h) (by decide)
  have key : ∀ neg m e, '\n' ∉ putE neg m e := by
    intro neg m e h
    unfold putE at h
    simp only [List.mem_append] at h
    rcases h with ((((((((h | h) | h) | h) | h) | h) | h) | h) | h | h)
    all_goals first
      | exact hd _ h
      | (rw [List.mem_replicate] at h; exact absurd h.2 (by decide))
      | (split at h <;> exact absurd h (by decide))
      | exact absurd h (by decide)
  unfold formatE
  split
  · exact key _ _ _
  · simp only
    split <;> exact key _ _ _

theorem sciValue_length {s : Str} {v : ℚ} (h : sciValue s = some v) : s.length = 10 := by
  unfold sciValue at h
  split at h
  · rfl
  · cases h

end Csg
