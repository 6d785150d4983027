import Verif.Model.Process
import Verif.Spec.SerpentFile
import Verif.Lemmas.Exact
import Verif.Lemmas.FormatE

/-!
# Numbers for examples: exact, and printed with decimals if whole
-/

namespace Csg

open Spec

/-! Decks are compared in examples. -/

deriving instance DecidableEq for Deck

/-- Numbers as they are printed in files: whole numbers with one decimal, others as in `fractionIO`. -/
def mixedIO : NumIO ℚ :=
  { parse := fractionIO.parse
    render := fun q => if q.den = 1 then intStr q.num ++ c!".0" else fractionIO.render q }

theorem whole_parse (z : Int) : fractionIO.parse (intStr z ++ c!".0") = some (z : ℚ) ∧ decimal (intStr z ++ c!".0") = some (z : ℚ) := by
  have key : ∀ (sg : Str) (s : Int) (n : Nat), SignText sg s → decimal (sg ++ natStr n ++ c!".0") = some (s * n : ℚ) := by
    intro sg s n hs
    have hd : Digits (natStr n ++ c!"0") := by
      intro c hc
      rcases List.mem_append.1 hc with hc | hc
      · exact natStr_digits _ c hc
      · rw [List.mem_singleton] at hc
        subst hc
        decide
    have hv : digitsValue (natStr n ++ c!"0") = n * 10 := by
      rw [← natVal_eq hd, natVal_append, natVal_natStr]
      rfl
    have := decimal_literal (Literal.mk _ [] _ _ (Mantissa.point (K := ℚ) sg (natStr n) c!"0" s hs (by simp) (natStr_digits n) (by unfold Digits; decide)) .absent)
    rw [hv] at this
    rw [show sg ++ natStr n ++ c!".0" = sg ++ natStr n ++ '.' :: c!"0" ++ [] by simp, this]
    simp
  have hd : decimal (intStr z ++ c!".0") = some (z : ℚ) := by
    cases z with
    | ofNat n =>
      have := key [] 1 n .absent
      simp only [intStr]
      simpa using this
    | negSucc n =>
      have := key c!"-" (-1) (n + 1) .minus
      simp only [intStr]
      rw [show ('-' :: natStr (n + 1) ++ c!".0") = c!"-" ++ natStr (n + 1) ++ c!".0" by simp, this]
      simp [Int.negSucc_eq]
  refine ⟨?_, hd⟩
  have hnoe : 'e' ∉ intStr z ++ c!".0" := by
    intro h
    rcases List.mem_append.1 h with h | h
    · exact intStr_not_mem z (by decide) (by decide) h
    · revert h; decide
  simp only [fractionIO]
  rw [splitOnChar_not_mem _ _ hnoe]
  exact hd

theorem mixed_text (q : ℚ) : FloatText (mixedIO.render q) := by
  simp only [mixedIO]
  split
  · obtain ⟨sg, ds, h1, h2, h3, h4⟩ : ∃ sg ds, intStr q.num = sg ++ ds ∧ (sg = [] ∨ sg = c!"-") ∧ ds ≠ [] ∧ ∀ c ∈ ds, isDigit c = true := by
      cases q.num with
      | ofNat n => exact ⟨[], natStr n, rfl, Or.inl rfl, natStr_ne_nil n, natStr_digits n⟩
      | negSucc n => exact ⟨c!"-", natStr (n + 1), rfl, Or.inr rfl, natStr_ne_nil _, natStr_digits _⟩
    exact ⟨sg, ds, c!".0", [], by simp [h1], h2, h3, h4, Or.inr ⟨c!"0", rfl, by decide⟩, Or.inl rfl⟩
  · exact fractionIO_exact.text q

theorem mixed_exact : Exact mixedIO := by
  have hreads : ∀ q, mixedIO.parse (mixedIO.render q) = some q := by
    intro q
    simp only [mixedIO]
    split
    · rename_i h
      rw [(whole_parse q.num).1, Rat.coe_int_num_of_den_eq_one h]
    · exact fractionIO_exact.reads q
  refine ⟨mixed_text, hreads, ?_, fractionIO_exact.zero, fractionIO_exact.minusOne, fractionIO_exact.words⟩
  intro q
  have hplus : '+' ∉ mixedIO.render q := by
    simp only [mixedIO]
    split
    · intro h
      rcases List.mem_append.1 h with h | h
      · exact intStr_not_mem _ (by decide) (by decide) h
      · revert h; decide
    · intro h
      simp only [fractionIO, List.mem_append] at h
      rcases h with (h | h) | h
      · exact intStr_not_mem _ (by decide) (by decide) h
      · revert h; decide
      · exact digits_not_mem (natStr_digits _) (by decide) h
  rw [List.filter_eq_self.2 fun c hc => by simp only [bne_iff_ne, ne_eq]; rintro rfl; exact hplus hc]
  exact hreads q

/-- The number of an integer is printed as one word of at most 24 characters. -/
theorem mixed_good (z : Int) (h : (intStr z).length ≤ 20) : mixedIO.Good (z : ℚ) ∧ Prints decimal mixedIO.render (z : ℚ) ∧ Prints mixedIO.parse mixedIO.render (z : ℚ) := by
  have e : mixedIO.render (z : ℚ) = intStr z ++ c!".0" := by simp [mixedIO]
  have hc : ∀ c ∈ mixedIO.render (z : ℚ), isDigit c = true ∨ c = '+' ∨ c = '-' ∨ c = '.' ∨ c = 'e' := by
    intro c hc
    rw [e] at hc
    rcases List.mem_append.1 hc with hc | hc
    · rcases intStr_chars z c hc with h | h
      · exact .inl h
      · exact .inr (.inr (.inl h))
    · simp at hc
      rcases hc with rfl | rfl
      · simp
      · exact .inl (by decide)
  have hne : mixedIO.render (z : ℚ) ≠ [] := by rw [e]; simp
  refine ⟨⟨mixed_exact.reads _, hne, ?_, hc⟩, ⟨hne, hc, ?_⟩, ⟨hne, hc, mixed_exact.reads _⟩⟩
  · rw [e, List.length_append]
    simp
    omega
  · rw [e]; exact (whole_parse z).2

/-- What `formatF` prints is read by `mixedIO`. -/
theorem mixed_formatF (x : ℚ) : FloatText (formatF x) ∧ ∃ y, mixedIO.parse (formatF x) = some y := by
  obtain ⟨n, hn⟩ : ∃ n, n = millionths x := ⟨_, rfl⟩
  have hpad : ∀ c ∈ List.replicate (6 - (natStr (n % 10 ^ 6)).length) '0' ++ natStr (n % 10 ^ 6), isDigit c = true := by
    intro c hc
    rcases List.mem_append.1 hc with hc | hc
    · rw [List.mem_replicate] at hc
      rw [hc.2]
      decide
    · exact natStr_digits _ c hc
  have e : formatF x = (if x < 0 then c!"-" else []) ++ natStr (n / 10 ^ 6) ++ '.' :: (List.replicate (6 - (natStr (n % 10 ^ 6)).length) '0' ++ natStr (n % 10 ^ 6)) := by
    rw [hn]
    simp [formatF]
  refine ⟨⟨if x < 0 then c!"-" else [], natStr (n / 10 ^ 6), _, [], by rw [e, List.append_nil], by split <;> simp, natStr_ne_nil _, natStr_digits _, .inr ⟨_, rfl, hpad⟩, .inl rfl⟩, ?_⟩
  have hnoe : 'e' ∉ formatF x := by
    rw [e]
    intro h
    rcases List.mem_append.1 h with h | h
    · rcases List.mem_append.1 h with h | h
      · split at h
        · revert h; decide
        · cases h
      · exact absurd (natStr_digits _ _ h) (by decide)
    · rcases List.mem_cons.1 h with h | h
      · revert h; decide
      · exact absurd (hpad _ h) (by decide)
  refine ⟨_, Eq.trans ?_ (formatF_value x)⟩
  simp only [mixedIO, fractionIO]
  rw [splitOnChar_not_mem _ _ hnoe]

end Csg
