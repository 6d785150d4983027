import Verif.Lemmas.Py
import Verif.Model.Num
import Mathlib.Tactic.Ring
import Mathlib.Tactic.IntervalCases

/-!
# Decimal digits
-/

namespace Csg

theorem isDigit_digitChar (n : Nat) : isDigit (digitChar n) = true := by
  unfold digitChar
  split <;> decide

theorem digitVal_digitChar {n : Nat} (h : n < 10) : digitVal (digitChar n) = n := by
  interval_cases n <;> decide

theorem natVal_append (a b : Str) : natVal (a ++ b) = natVal a * 10 ^ b.length + natVal b := by
  unfold natVal
  have key : ∀ (b : Str) (m : Nat),
      b.foldl (fun n c => 10 * n + digitVal c) m = m * 10 ^ b.length + b.foldl (fun n c => 10 * n + digitVal c) 0 := by
    intro b
    induction b with
    | nil => intro m; simp
    | cons c b ih =>
      intro m
      simp only [List.foldl_cons, List.length_cons]
      rw [ih (10 * m + digitVal c), ih (10 * 0 + digitVal c)]
      ring
  rw [List.foldl_append, key]

theorem natStrGo_spec : ∀ (f n : Nat), n < f →
    natVal (natStrGo f n) = n ∧ natStrGo f n ≠ [] ∧ ∀ c ∈ natStrGo f n, isDigit c = true := by
  intro f
  induction f with
  | zero => intro n h; omega
  | succ f ih =>
    intro n h
    unfold natStrGo
    split
    · rename_i h10
      refine ⟨?_, by simp, ?_⟩
      · simp [natVal, digitVal_digitChar h10]
      · intro c hc
        rw [List.mem_singleton.1 hc]
        exact isDigit_digitChar _
    · rename_i h10
      obtain ⟨h1, h2, h3⟩ := ih (n / 10) (by omega)
      refine ⟨?_, by simp, ?_⟩
      · rw [natVal_append, h1]
        simp [natVal, digitVal_digitChar (Nat.mod_lt n (by decide : 0 < 10))]
        omega
      · intro c hc
        rcases List.mem_append.1 hc with hc | hc
        · exact h3 c hc
        · rw [List.mem_singleton.1 hc]; exact isDigit_digitChar _

theorem natVal_natStr (n : Nat) : natVal (natStr n) = n := (natStrGo_spec (n + 1) n (by omega)).1

theorem natStr_ne_nil (n : Nat) : natStr n ≠ [] := (natStrGo_spec (n + 1) n (by omega)).2.1

theorem natStr_digits (n : Nat) : ∀ c ∈ natStr n, isDigit c = true := (natStrGo_spec (n + 1) n (by omega)).2.2

theorem natStr_injective {m n : Nat} (h : natStr m = natStr n) : m = n := by
  rw [← natVal_natStr m, h, natVal_natStr]

theorem parseNat_natStr (n : Nat) : parseNat (natStr n) = some n := by
  unfold parseNat
  rw [if_pos ⟨natStr_ne_nil n, by simpa [List.all_eq_true] using natStr_digits n⟩, natVal_natStr]

theorem digit_ne {c d : Char} (hc : isDigit c = true) (hd : isDigit d = false) : c ≠ d := by
  rintro rfl; rw [hc] at hd; cases hd

theorem parseInt_of_digits {s : Str} (hne : s ≠ []) (hd : ∀ c ∈ s, isDigit c = true) :
    parseInt s = some (natVal s : Int) := by
  have hp : parseNat s = some (natVal s) := by
    unfold parseNat
    rw [if_pos ⟨hne, by simpa [List.all_eq_true] using hd⟩]
  unfold parseInt
  split
  · have := hd '-' (by simp); simp [isDigit] at this
  · have := hd '+' (by simp); simp [isDigit] at this
  · rw [hp]; rfl

theorem parseInt_intStr (z : Int) : parseInt (intStr z) = some z := by
  cases z with
  | ofNat n =>
    have h := parseInt_of_digits (natStr_ne_nil n) (natStr_digits n)
    rw [natVal_natStr] at h
    exact h
  | negSucc n =>
    simp only [intStr, parseInt, parseNat_natStr]
    rfl

theorem pyInt_intStr (z : Int) : pyInt (intStr z) = .ok z := by
  unfold pyInt; rw [parseInt_intStr]

theorem intStr_injective {y z : Int} (h : intStr y = intStr z) : y = z := by
  have := parseInt_intStr y
  rw [h, parseInt_intStr] at this
  exact (Option.some.inj this).symm

/-- The characters of `str(z)`: digits and the minus sign. -/
theorem intStr_chars (z : Int) : ∀ c ∈ intStr z, isDigit c = true ∨ c = '-' := by
  intro c hc
  cases z with
  | ofNat n => exact Or.inl (natStr_digits n c hc)
  | negSucc n =>
    rcases List.mem_cons.1 hc with rfl | hc
    · exact Or.inr rfl
    · exact Or.inl (natStr_digits _ c hc)

theorem intStr_ne_nil (z : Int) : intStr z ≠ [] := by
  cases z with
  | ofNat n => exact natStr_ne_nil n
  | negSucc n => simp [intStr]

theorem isSpace_of_isDigit {c : Char} (h : isDigit c = true) : isSpace c = false := by
  simp only [isDigit, Bool.or_eq_true, beq_iff_eq] at h
  rcases h with ((((((((h | h) | h) | h) | h) | h) | h) | h) | h) | h <;> subst h <;> decide

theorem intStr_noSpace (z : Int) : NoSpace (intStr z) := by
  intro c hc
  rcases intStr_chars z c hc with h | rfl
  · exact isSpace_of_isDigit h
  · decide

theorem intStr_not_mem (z : Int) {c : Char} (hd : isDigit c = false) (hm : c ≠ '-') : c ∉ intStr z := by
  intro h
  rcases intStr_chars z c h with h | h
  · rw [h] at hd; cases hd
  · exact hm h

theorem NumIO.Good.noSpace {K : Type} {io : NumIO K} {x : K} (h : io.Good x) : NoSpace (io.render x) := by
  intro c hc
  rcases h.chars c hc with h | h | h | h | h
  · exact isSpace_of_isDigit h
  all_goals subst h; rfl

theorem NumIO.Good.not_mem {K : Type} {io : NumIO K} {x : K} (h : io.Good x) {d : Char} (hd : isDigit d = false)
    (hd' : d ∉ ['+', '-', '.', 'e']) : d ∉ io.render x := by
  intro hm
  rcases h.chars d hm with h | h | h | h | h
  · rw [h] at hd; cases hd
  all_goals subst h; simp at hd'

end Csg
