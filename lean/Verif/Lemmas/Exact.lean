import Verif.Spec.Exact
import Verif.Lemmas.Num
import Mathlib.Algebra.Order.Field.Rat
import Mathlib.Data.Rat.Defs

/-!
# Exact printing: consequences, and a number format that has it
-/

namespace Csg

open Spec

theorem Spec.FloatText.chars {s : Str} (h : FloatText s) : ∀ c ∈ s, isDigit c = true ∨ c = '+' ∨ c = '-' ∨ c = '.' ∨ c = 'e' := by
  obtain ⟨sg, ds, fr, ex, rfl, h1, -, h2, h3, h4⟩ := h
  intro c hc
  simp only [List.mem_append] at hc
  rcases hc with ((hc | hc) | hc) | hc
  · rcases h1 with rfl | rfl
    · simp at hc
    · simp at hc; simp [hc]
  · exact Or.inl (h2 c hc)
  · rcases h3 with rfl | ⟨d, rfl, hd⟩
    · simp at hc
    · rcases List.mem_cons.1 hc with rfl | hc
      · simp
      · exact Or.inl (hd c hc)
  · rcases h4 with rfl | ⟨sg', d, rfl, hs, hd⟩
    · simp at hc
    · rcases List.mem_cons.1 hc with rfl | hc
      · simp
      · rcases List.mem_append.1 hc with hc | hc
        · rcases hs with rfl | rfl | rfl <;> simp at hc <;> simp [hc]
        · exact Or.inl (hd c hc)

theorem Spec.FloatText.ne_nil {s : Str} (h : FloatText s) : s ≠ [] := by
  obtain ⟨sg, ds, fr, ex, rfl, -, h1, -⟩ := h
  simp [h1]

theorem Spec.FloatText.noSpace {s : Str} (h : FloatText s) : NoSpace s := by
  intro c hc
  rcases h.chars c hc with h | rfl | rfl | rfl | rfl
  · exact isSpace_of_isDigit h
  all_goals decide

theorem Spec.FloatText.not_mem {s : Str} (h : FloatText s) {d : Char} (hd : isDigit d = false) (hd' : d ∉ ['+', '-', '.', 'e']) : d ∉ s := by
  intro hm
  rcases h.chars d hm with h | h
  · rw [hd] at h; cases h
  · exact hd' (by simpa using h)

theorem digits_not_mem {ds : Str} (h : ∀ c ∈ ds, isDigit c = true) {d : Char} (hd : isDigit d = false) : d ∉ ds :=
  fun hm => by rw [h d hm] at hd; cases hd

theorem replaceChar_not_mem (c : Char) (r s : Str) (h : c ∉ s) : replaceChar c r s = s := by
  induction s with
  | nil => rfl
  | cons d t ih =>
    simp only [List.mem_cons, not_or] at h
    have := ih h.2
    simp only [replaceChar] at this ⊢
    simp [Ne.symm h.1, this]

theorem replaceChar_nil_eq_filter (c : Char) (s : Str) : replaceChar c [] s = s.filter (· != c) := by
  induction s with
  | nil => rfl
  | cons d t ih =>
    simp only [replaceChar] at ih ⊢
    by_cases h : d = c
    · subst h; simp [ih]
    · simp [h, ih]

/-- Without plus signs a float text still has the shape of a float text. -/
theorem Spec.FloatText.filter_plus {s : Str} (h : FloatText s) : FloatText (s.filter (· != '+')) := by
  obtain ⟨sg, ds, fr, ex, rfl, h1, h0, h2, h3, h4⟩ := h
  have key : ∀ {l : Str}, '+' ∉ l → l.filter (· != '+') = l := by
    intro l hl
    rw [List.filter_eq_self]
    intro c hc
    simp only [bne_iff_ne, ne_eq]
    rintro rfl; exact hl hc
  refine ⟨sg, ds, fr, ex.filter (· != '+'), ?_, h1, h0, h2, h3, ?_⟩
  · simp only [List.filter_append]
    rw [key (l := sg) (by rcases h1 with rfl | rfl <;> decide), key (l := ds) (digits_not_mem h2 (by decide)), key (l := fr)]
    rcases h3 with rfl | ⟨d, rfl, hd⟩
    · simp
    · simp; exact digits_not_mem hd (by decide)
  · rcases h4 with rfl | ⟨sg', d, rfl, hs, hd⟩
    · left; rfl
    · right
      refine ⟨sg'.filter (· != '+'), d, ?_, ?_, hd⟩
      · rw [List.filter_cons_of_pos (by decide), List.filter_append, key (l := d) (digits_not_mem hd (by decide))]
      · rcases hs with rfl | rfl | rfl <;> decide

/-- A float text that can be read is read by `get_fortran_formatted_number`. -/
theorem fortranNumber_floatText {K : Type} (io : NumIO K) {s : Str} (h : FloatText s) {x : K} (hx : io.parse s = some x) :
    fortranNumber io s = .ok x := by
  have hf : io.float s = .ok x := by unfold NumIO.float; rw [hx]
  obtain ⟨sg, ds, fr, ex, rfl, h1, -, h2, h3, h4⟩ := h
  have hex : '.' ∉ ex := by
    rcases h4 with rfl | ⟨sg', d, rfl, hs, hd⟩
    · simp
    · simp only [List.mem_cons, List.mem_append, not_or]
      exact ⟨by decide, by rcases hs with rfl | rfl | rfl <;> decide, digits_not_mem hd (by decide)⟩
  have hpre : '.' ∉ sg ++ ds := by
    simp only [List.mem_append, not_or]
    exact ⟨by rcases h1 with rfl | rfl <;> decide, digits_not_mem h2 (by decide)⟩
  unfold fortranNumber
  rcases h3 with rfl | ⟨d, rfl, hd⟩
  · rw [splitOnChar_not_mem]
    · exact hf
    · simp only [List.append_nil, List.mem_append, not_or] at hpre ⊢
      exact ⟨hpre, hex⟩
  · have hd' : '.' ∉ d ++ ex := by
      simp only [List.mem_append, not_or]
      exact ⟨digits_not_mem hd (by decide), hex⟩
    have he : sg ++ ds ++ '.' :: d ++ ex = (sg ++ ds) ++ '.' :: (d ++ ex) := by simp
    rw [he] at hf ⊢
    rw [splitOnChar_append _ _ _ hpre, splitOnChar_not_mem _ _ hd']
    dsimp only
    split
    · exact hf
    · rename_i hne
      have hexn : ex = [] := by
        rcases h4 with rfl | ⟨sg', d', rfl, hs, hd'⟩
        · rfl
        · exact absurd (by simp) hne
      subst hexn
      rw [List.append_nil] at hf ⊢
      rw [replaceChar_not_mem '-' _ d (digits_not_mem hd (by decide)), replaceChar_not_mem '+' _ d (digits_not_mem hd (by decide))]
      simpa using hf

/-- The density printed by `update` and read again. -/
theorem Spec.Exact.fortran {K : Type} [Zero K] [One K] [Neg K] {io : NumIO K} (h : Exact io) (x : K) :
    fortranNumber io (replaceChar '+' [] (io.render x)) = .ok x := by
  rw [replaceChar_nil_eq_filter]
  exact fortranNumber_floatText io (h.text x).filter_plus (h.plus x)

/-- A format in which every rational number can be printed exactly: numerator, the letter e, denominator. Texts without the letter are decimal
numbers. (In this format 1e2 is a half; its purpose is to show that `Exact` can be met.) -/
def fractionIO : NumIO ℚ :=
  { parse := fun s =>
      match splitOnChar 'e' s with
      | [a, b] =>
        match parseInt a, parseNat b with
        | some n, some d => some (n / d)
        | _, _ => none
      | _ => decimal s
    render := fun q => intStr q.num ++ c!"e" ++ natStr q.den }

theorem fractionIO_exact : Exact fractionIO := by
  have hnoe : ∀ z : Int, 'e' ∉ intStr z := fun z => intStr_not_mem z (by decide) (by decide)
  have hnoe' : ∀ n : Nat, 'e' ∉ natStr n := fun n => digits_not_mem (natStr_digits n) (by decide)
  have hreads : ∀ q, fractionIO.parse (fractionIO.render q) = some q := by
    intro q
    simp only [fractionIO]
    rw [show intStr q.num ++ c!"e" ++ natStr q.den = intStr q.num ++ 'e' :: natStr q.den by simp,
      splitOnChar_append _ _ _ (hnoe _), splitOnChar_not_mem _ _ (hnoe' _)]
    simp only [parseInt_intStr, parseNat_natStr]
    rw [Rat.num_div_den]
  have htext : ∀ q, FloatText (fractionIO.render q) := by
    intro q
    simp only [fractionIO]
    obtain ⟨sg, ds, h1, h2, h3, h4⟩ : ∃ sg ds, intStr q.num = sg ++ ds ∧ (sg = [] ∨ sg = c!"-") ∧ ds ≠ [] ∧
        ∀ c ∈ ds, isDigit c = true := by
      cases q.num with
      | ofNat n => exact ⟨[], natStr n, rfl, Or.inl rfl, natStr_ne_nil n, natStr_digits n⟩
      | negSucc n => exact ⟨c!"-", natStr (n + 1), rfl, Or.inr rfl, natStr_ne_nil _, natStr_digits _⟩
    exact ⟨sg, ds, [], 'e' :: ([] ++ natStr q.den), by simp [h1], h2, h3, h4, Or.inl rfl,
      Or.inr ⟨[], natStr q.den, rfl, Or.inl rfl, natStr_digits _⟩⟩
  refine ⟨htext, hreads, ?_, by decide +kernel, by decide +kernel, by decide +kernel⟩
  intro q
  have : (fractionIO.render q).filter (· != '+') = fractionIO.render q := by
    rw [List.filter_eq_self]
    intro c hc
    simp only [bne_iff_ne, ne_eq]
    rintro rfl
    simp only [fractionIO, List.mem_append] at hc
    rcases hc with (hc | hc) | hc
    · exact intStr_not_mem _ (by decide) (by decide) hc
    · revert hc; decide
    · exact digits_not_mem (natStr_digits _) (by decide) hc
  rw [this]
  exact hreads q

end Csg
