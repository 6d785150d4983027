import Verif.Model.SurfaceWriters
import Verif.Lemmas.Real
import Mathlib.Tactic.Linarith
import Mathlib.Tactic.FieldSimp
import Mathlib.Tactic.Ring
import Mathlib.Tactic.Positivity
import Mathlib.Data.Rat.Floor

/-!
# Numbers with six decimals
-/

namespace Csg

open Spec

theorem natStrGo_length : ∀ (k f n : Nat), n < f → n < 10 ^ (k + 1) → (natStrGo f n).length ≤ k + 1
  | _, 0, _, h, _ => by omega
  | k, f + 1, n, h, hn => by
    unfold natStrGo
    split
    · simp
    · rename_i h10
      cases k with
      | zero => omega
      | succ k =>
        have := natStrGo_length k f (n / 10) (by omega) (by rw [pow_succ] at hn; omega)
        simp; omega

theorem natStr_length {k n : Nat} (h : n < 10 ^ (k + 1)) : (natStr n).length ≤ k + 1 := natStrGo_length k _ n (by omega) h

theorem natVal_zeros (k : Nat) (s : Str) : natVal (List.replicate k '0' ++ s) = natVal s := by
  induction k with
  | zero => rfl
  | succ k ih =>
    rw [List.replicate_succ, List.cons_append]
    have : natVal ('0' :: (List.replicate k '0' ++ s)) = natVal (['0'] ++ (List.replicate k '0' ++ s)) := rfl
    rw [this, natVal_append, ih]
    have : natVal ['0'] = 0 := by decide
    rw [this]; simp

/-- Rounding is off by at most one half. -/
theorem roundEven_near (q : ℚ) : |(roundEven q : ℚ) - q| ≤ 1 / 2 := by
  have h1 : (q.floor : ℚ) ≤ q := Rat.floor_le q
  have h2 : q < q.floor + 1 := by exact_mod_cast Rat.lt_floor_add_one q
  unfold roundEven
  simp only
  split
  · rw [abs_le]; constructor <;> linarith
  · split
    · push_cast; rw [abs_le]; constructor <;> linarith
    · split
      · rw [abs_le]; constructor <;> linarith
      · push_cast; rw [abs_le]; constructor <;> linarith

/-- Whole numbers are not changed by rounding. -/
theorem roundEven_int (z : Int) : roundEven (z : ℚ) = z := by
  unfold roundEven
  simp [Rat.floor_intCast]

theorem millionths_cast (q : ℚ) : ((millionths q : Nat) : ℚ) = (roundEven (|q| * 10 ^ 6) : ℚ) := by
  have h := roundEven_near (|q| * 10 ^ 6)
  have hq : (0 : ℚ) ≤ |q| * 10 ^ 6 := by positivity
  have h0 : 0 ≤ roundEven (|q| * 10 ^ 6) := by
    have h' := (abs_le.1 h).1
    generalize |q| * 10 ^ 6 = a at *
    have : (-1 : ℚ) < (roundEven a : ℚ) := by linarith
    have : (-1 : Int) < roundEven a := by exact_mod_cast this
    omega
  unfold millionths
  have := Int.toNat_of_nonneg h0
  exact_mod_cast congrArg (fun z : Int => (z : ℚ)) this

/-- The value of a number with six decimals. -/
theorem formatF_value (q : ℚ) : decimal (formatF q) = some ((if q < 0 then -1 else 1) * ((millionths q : Nat) : ℚ) / 10 ^ 6) := by
  let n := millionths q
  let frac := natStr (n % 10 ^ 6)
  let pad := List.replicate (6 - frac.length) '0' ++ frac
  have hlen : frac.length ≤ 6 := natStr_length (k := 5) (Nat.mod_lt _ (by norm_num))
  have hpl : pad.length = 6 := by simp [pad]; omega
  have hpd : Digits pad := by
    intro c hc
    rcases List.mem_append.1 hc with hc | hc
    · rw [(List.mem_replicate.1 hc).2]; decide
    · exact natStr_digits _ c hc
  have hd : Digits (natStr (n / 10 ^ 6) ++ pad) := by
    intro c hc
    rcases List.mem_append.1 hc with hc | hc
    · exact natStr_digits _ c hc
    · exact hpd c hc
  have hv : digitsValue (natStr (n / 10 ^ 6) ++ pad) = n := by
    rw [← natVal_eq hd, natVal_append, hpl, natVal_natStr]
    simp only [pad]
    rw [natVal_zeros, natVal_natStr]
    exact Nat.div_add_mod' n (10 ^ 6)
  have hsign : SignText (if q < 0 then c!"-" else []) (if q < 0 then -1 else 1) := by
    split
    · exact .minus
    · exact .absent
  have hm := Mantissa.point (K := ℚ) (if q < 0 then c!"-" else []) (natStr (n / 10 ^ 6)) pad _ hsign (by simp [natStr_ne_nil])
    (fun c hc => natStr_digits _ c hc) hpd
  have hl := Literal.mk _ [] _ _ hm Exponent.absent
  have := decimal_literal hl
  rw [hv, hpl] at this
  have ht : (if q < 0 then c!"-" else []) ++ natStr (n / 10 ^ 6) ++ '.' :: pad ++ [] = formatF q := by
    simp [formatF, pad, frac, n]
  rw [ht] at this
  rw [this]
  congr 1
  simp only [zpow_zero, mul_one]
  split <;> push_cast <;> ring

theorem formatF_chars (q : ℚ) : ∀ c ∈ formatF q, isDigit c = true ∨ c = '+' ∨ c = '-' ∨ c = '.' ∨ c = 'e' := by
  intro c hc
  unfold formatF at hc
  simp only [List.mem_append] at hc
  rcases hc with (((h | h) | h) | h) | h
  · split at h
    · exact Or.inr (Or.inr (Or.inl (List.mem_singleton.1 h)))
    · cases h
  · exact Or.inl (natStr_digits _ c h)
  · exact Or.inr (Or.inr (Or.inr (Or.inl (List.mem_singleton.1 h))))
  · rw [(List.mem_replicate.1 h).2]; exact Or.inl (by decide)
  · exact Or.inl (natStr_digits _ c h)

theorem formatF_ne_nil (q : ℚ) : formatF q ≠ [] := by unfold formatF; simp

/-- The six decimals are off by at most half a millionth. -/
theorem formatF_near (q : ℚ) : ∃ v, decimal (formatF q) = some v ∧ |v - q| ≤ 1 / (2 * 10 ^ 6) := by
  refine ⟨_, formatF_value q, ?_⟩
  rw [millionths_cast]
  have h := roundEven_near (|q| * 10 ^ 6)
  rw [abs_le] at h ⊢
  obtain ⟨h1, h2⟩ := h
  split
  · rename_i hq
    rw [abs_of_neg hq] at *
    constructor <;> linarith
  · rename_i hq
    rw [abs_of_nonneg (not_lt.1 hq)] at *
    constructor <;> linarith

/-- Whole numbers of millionths are written exactly. -/
theorem formatF_exact (z : Int) : decimal (formatF ((z : ℚ) / 10 ^ 6)) = some ((z : ℚ) / 10 ^ 6) := by
  rw [formatF_value, millionths_cast]
  have hz : |(z : ℚ) / 10 ^ 6| * 10 ^ 6 = ((|z| : Int) : ℚ) := by
    rw [abs_div, abs_of_pos (by norm_num : (0 : ℚ) < 10 ^ 6)]
    push_cast
    field_simp
  rw [hz, roundEven_int]
  congr 1
  push_cast
  by_cases h : z < 0
  · have h' : (z : ℚ) < 0 := by exact_mod_cast h
    rw [if_pos (div_neg_of_neg_of_pos h' (by norm_num)), abs_of_neg h']
    ring
  · have h' : (0 : ℚ) ≤ z := by exact_mod_cast not_lt.1 h
    rw [if_neg (not_lt.2 (by positivity)), abs_of_nonneg h']
    ring

end Csg
