import Verif.Spec.Real
import Verif.Lemmas.Num
import Verif.Lemmas.Exact
import Verif.Spec.Sample
import Mathlib.Data.List.Induction

/-!
# Decimal literals
-/

namespace Csg

open Spec

theorem digitVal_eq {c : Char} (h : isDigit c = true) : digitVal c = c.toNat - '0'.toNat := by
  unfold isDigit at h
  simp only [Bool.or_eq_true, beq_iff_eq] at h
  rcases h with ((((((((rfl | rfl) | rfl) | rfl) | rfl) | rfl) | rfl) | rfl) | rfl) | rfl <;> rfl

theorem natVal_eq {ds : Str} (h : Digits ds) : natVal ds = digitsValue ds := by
  induction ds using List.reverseRecOn with
  | nil => rfl
  | append_singleton ds c ih =>
    have h1 : Digits ds := fun x hx => h x (by simp [hx])
    have h2 : isDigit c = true := h c (by simp)
    rw [natVal_append, ih h1]
    unfold digitsValue
    rw [List.reverse_append, List.reverse_singleton, List.singleton_append, List.map_cons, Nat.ofDigits_cons, ← digitVal_eq h2]
    simp [natVal]
    ring

theorem digits_all {ds : Str} (h : Digits ds) : ds.all isDigit = true := List.all_eq_true.2 h

theorem Spec.Digits.not_mem {ds : Str} (h : Digits ds) {c : Char} (hc : isDigit c = false) : c ∉ ds := by
  intro hm; rw [h c hm] at hc; cases hc

theorem parseNat_of_digits {ds : Str} (hne : ds ≠ []) (h : Digits ds) : parseNat ds = some (digitsValue ds) := by
  unfold parseNat
  rw [if_pos ⟨hne, digits_all h⟩, natVal_eq h]

theorem parseInt_signed {sg ds : Str} {s : Int} (hs : SignText sg s) (hne : ds ≠ []) (h : Digits ds) :
    parseInt (sg ++ ds) = some (s * digitsValue ds) := by
  cases hs with
  | absent => rw [List.nil_append, parseInt_of_digits hne h, natVal_eq h]; simp
  | plus => simp [parseInt, parseNat_of_digits hne h]
  | minus => simp [parseInt, parseNat_of_digits hne h]

section
variable {K : Type} [Field K]

theorem signedVal_signed (f : Str → Option K) {sg t : Str} {s : Int} {x : K} (hs : SignText sg s) (hp : ∀ t', t ≠ '+' :: t') (hm : ∀ t', t ≠ '-' :: t')
    (hf : f t = some x) : signedVal f (sg ++ t) = some (s * x) := by
  cases hs with
  | absent =>
    simp only [List.nil_append, Int.cast_one, one_mul]
    unfold signedVal
    split
    · exact absurd rfl (hm _)
    · exact absurd rfl (hp _)
    · exact hf
  | plus => simpa [signedVal] using hf
  | minus => simp [signedVal, hf]

theorem unsignedDecimal_exponent {m x : Str} {v : K} {n : Int} (hm : mantissaVal m = some v) (he : 'e' ∉ m) (hx : Exponent x n) :
    unsignedDecimal (m ++ x) = some (v * 10 ^ n) := by
  cases hx with
  | absent =>
    unfold unsignedDecimal
    rw [List.append_nil, splitOnChar_not_mem _ _ he]
    simpa using hm
  | letter sg ds s hs hne hd =>
    unfold unsignedDecimal
    have : 'e' ∉ sg ++ ds := by
      rw [List.mem_append, not_or]
      exact ⟨by cases hs <;> decide, hd.not_mem (by decide)⟩
    rw [splitOnChar_append _ _ _ he, splitOnChar_not_mem _ _ this]
    simp only [hm, parseInt_signed hs hne hd]

/-- The decimal reader reads literals. -/
theorem decimal_literal {s : Str} {x : K} (h : Literal s x) : decimal s = some x := by
  obtain ⟨m, e, v, n, hm, he⟩ := h
  unfold decimal
  cases hm with
  | whole sg ds s hs hne hd =>
    rw [List.append_assoc, mul_assoc]
    have hh : ∀ c, isDigit c = false → ∀ t', ds ++ e ≠ c :: t' := by
      rintro c hc t' ht
      cases ds with
      | nil => exact hne rfl
      | cons d ds =>
        cases ht
        rw [hd c (by simp)] at hc; cases hc
    refine signedVal_signed _ hs (hh '+' (by decide)) (hh '-' (by decide)) (unsignedDecimal_exponent ?_ (hd.not_mem (by decide)) he)
    unfold mantissaVal
    rw [splitOnChar_not_mem _ _ (hd.not_mem (by decide))]
    simp only
    rw [if_pos ⟨hne, digits_all hd⟩, natVal_eq hd]
  | point sg a b s hs hne ha hb =>
    rw [show sg ++ a ++ '.' :: b ++ e = sg ++ ((a ++ '.' :: b) ++ e) by simp, mul_assoc]
    have hh : ∀ c, isDigit c = false → c ≠ '.' → ∀ t', (a ++ '.' :: b) ++ e ≠ c :: t' := by
      rintro c hc hp t' ht
      cases a with
      | nil => cases ht; exact hp rfl
      | cons d ds =>
        cases ht
        rw [ha c (by simp)] at hc; cases hc
    have hab : Digits (a ++ b) := fun c hc => (List.mem_append.1 hc).elim (ha c) (hb c)
    refine signedVal_signed _ hs (hh '+' (by decide) (by decide)) (hh '-' (by decide) (by decide)) (unsignedDecimal_exponent ?_ ?_ he)
    · unfold mantissaVal
      rw [splitOnChar_append _ _ _ (ha.not_mem (by decide)), splitOnChar_not_mem _ _ (hb.not_mem (by decide))]
      simp only
      rw [if_pos ⟨by simpa [or_iff_not_imp_left] using hne, digits_all ha, digits_all hb⟩, natVal_eq hab]
    · simp only [List.mem_append, List.mem_cons, not_or]
      exact ⟨ha.not_mem (by decide), by decide, hb.not_mem (by decide)⟩

theorem readsLiterals_decimal (render : K → Str) : ReadsLiterals (⟨decimal, render⟩ : NumIO K) := fun _ _ h => decimal_literal h

/-- A literal is read by `get_fortran_formatted_number`. -/
theorem fortranNumber_literal (io : NumIO K) {s : Str} {x : K} (hs : Literal s x) (hx : io.parse s = some x) : fortranNumber io s = .ok x := by
  have hf : io.float s = .ok x := by unfold NumIO.float; rw [hx]
  obtain ⟨m, e, v, n, hm, he⟩ := hs
  have hex : '.' ∉ e := by
    cases he with
    | absent => simp
    | letter sg ds s hs hne hd =>
      simp only [List.mem_cons, List.mem_append, not_or]
      exact ⟨by decide, by cases hs <;> decide, hd.not_mem (by decide)⟩
  unfold fortranNumber
  cases hm with
  | whole sg ds s hs hne hd =>
    rw [splitOnChar_not_mem]
    · exact hf
    · simp only [List.mem_append, not_or]
      exact ⟨⟨by cases hs <;> decide, hd.not_mem (by decide)⟩, hex⟩
  | point sg a b s hs hne ha hb =>
    have hpre : '.' ∉ sg ++ a := by
      simp only [List.mem_append, not_or]
      exact ⟨by cases hs <;> decide, ha.not_mem (by decide)⟩
    have hb' : '.' ∉ b ++ e := by
      simp only [List.mem_append, not_or]
      exact ⟨hb.not_mem (by decide), hex⟩
    rw [show sg ++ a ++ '.' :: b ++ e = (sg ++ a) ++ '.' :: (b ++ e) by simp] at hf ⊢
    rw [splitOnChar_append _ _ _ hpre, splitOnChar_not_mem _ _ hb']
    dsimp only
    split
    · exact hf
    · rename_i hne
      have hexn : e = [] := by
        cases he with
        | absent => rfl
        | letter => exact absurd (by simp) hne
      subst hexn
      rw [List.append_nil] at hf ⊢
      rw [replaceChar_not_mem '-' _ b (hb.not_mem (by decide)), replaceChar_not_mem '+' _ b (hb.not_mem (by decide))]
      simpa using hf

/-- A real with a point and a bare exponent is read by `get_fortran_formatted_number`. -/
theorem fortranNumber_bare (io : NumIO K) (hio : ReadsLiterals io) {s : Str} {x : K} (hs : BareReal s x) (hp : '.' ∈ s) : fortranNumber io s = .ok x := by
  obtain ⟨m, e, v, n, hm, he⟩ := hs
  cases hm with
  | whole sg ds s hs hne hd =>
    exfalso
    simp only [List.mem_append] at hp
    rcases hp with (hp | hp) | hp
    · cases hs <;> simp at hp
    · exact hd.not_mem (by decide) hp
    · cases he with
      | plus ds _ hd => exact hd.not_mem (c := '.') (by decide) (by simpa using hp)
      | minus ds _ hd => exact hd.not_mem (c := '.') (by decide) (by simpa using hp)
  | point sg a b s hs hne ha hb =>
    have hpre : '.' ∉ sg ++ a := by
      simp only [List.mem_append, not_or]
      exact ⟨by cases hs <;> decide, ha.not_mem (by decide)⟩
    have key : ∀ (sgn : Char) (k : Int) (ds : Str), (sgn = '+' ∧ SignText [sgn] k ∨ sgn = '-' ∧ SignText [sgn] k) → ds ≠ [] → Digits ds →
        fortranNumber io (sg ++ a ++ '.' :: b ++ sgn :: ds) = .ok (s * (digitsValue (a ++ b) / 10 ^ b.length) * 10 ^ (k * digitsValue ds)) := by
      intro sgn k ds hk hne' hd
      have hlit : Literal (sg ++ a ++ '.' :: b ++ 'e' :: ([sgn] ++ ds)) ((s * (digitsValue (a ++ b) / 10 ^ b.length) : K) * 10 ^ (k * digitsValue ds)) :=
        .mk _ _ _ _ (.point sg a b s hs hne ha hb) (.letter [sgn] ds k (by rcases hk with h | h <;> exact h.2) hne' hd)
      have hf := hio _ _ hlit
      unfold fortranNumber
      have hb' : '.' ∉ b ++ sgn :: ds := by
        simp only [List.mem_append, List.mem_cons, not_or]
        exact ⟨hb.not_mem (by decide), by rcases hk with ⟨rfl, _⟩ | ⟨rfl, _⟩ <;> decide, hd.not_mem (by decide)⟩
      have he' : 'e' ∉ b ++ sgn :: ds := by
        simp only [List.mem_append, List.mem_cons, not_or]
        exact ⟨hb.not_mem (by decide), by rcases hk with ⟨rfl, _⟩ | ⟨rfl, _⟩ <;> decide, hd.not_mem (by decide)⟩
      rw [show sg ++ a ++ '.' :: b ++ sgn :: ds = (sg ++ a) ++ '.' :: (b ++ sgn :: ds) by simp,
        splitOnChar_append _ _ _ hpre, splitOnChar_not_mem _ _ hb']
      dsimp only
      rw [if_neg (by simpa using he')]
      have hrep : replaceChar '+' c!"e+" (replaceChar '-' c!"e-" (b ++ sgn :: ds)) = b ++ 'e' :: ([sgn] ++ ds) := by
        have happ : ∀ c w (s t : Str), replaceChar c w (s ++ t) = replaceChar c w s ++ replaceChar c w t := by
          intro c w s t; simp [replaceChar]
        have hcons : ∀ c w x (t : Str), replaceChar c w (x :: t) = (if x = c then w else [x]) ++ replaceChar c w t := by
          intro c w x t; simp [replaceChar]
        rcases hk with ⟨rfl, _⟩ | ⟨rfl, _⟩
        · rw [happ, hcons, replaceChar_not_mem '-' _ b (hb.not_mem (by decide)), replaceChar_not_mem '-' _ ds (hd.not_mem (by decide)),
            if_neg (by decide), happ, replaceChar_not_mem '+' _ b (hb.not_mem (by decide)), happ, replaceChar_not_mem '+' _ ds (hd.not_mem (by decide))]
          rfl
        · rw [happ, hcons, replaceChar_not_mem '-' _ b (hb.not_mem (by decide)), replaceChar_not_mem '-' _ ds (hd.not_mem (by decide)),
            if_pos rfl, happ, replaceChar_not_mem '+' _ b (hb.not_mem (by decide)), happ, replaceChar_not_mem '+' _ ds (hd.not_mem (by decide))]
          rfl
      rw [hrep]
      unfold NumIO.float
      rw [show sg ++ a ++ c!"." ++ (b ++ 'e' :: ([sgn] ++ ds)) = sg ++ a ++ '.' :: b ++ 'e' :: ([sgn] ++ ds) by simp, hf]
    cases he with
    | plus ds hne' hd =>
      have := key '+' 1 ds (Or.inl ⟨rfl, .plus⟩) hne' hd
      simpa using this
    | minus ds hne' hd =>
      have := key '-' (-1) ds (Or.inr ⟨rfl, .minus⟩) hne' hd
      simpa using this

end

end Csg
