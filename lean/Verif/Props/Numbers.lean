import Verif.Lemmas.Real
import Verif.Lemmas.CellText

/-!
# Numbers on cards: C35, C36
-/

namespace Csg

open Spec

section
variable {K : Type} [Field K]

/-! ## C35 -/

/-- C35 for literals with or without point and with an exponent in the notation of Python. -/
theorem C35_literal (io : NumIO K) (hio : ReadsLiterals io) (s : Str) (x : K) (h : Literal s x) : fortranNumber io s = .ok x :=
  fortranNumber_literal io h (hio s x h)

/-- C35 for numbers with a point and a bare exponent. -/
theorem C35_bare (io : NumIO K) (hio : ReadsLiterals io) (s : Str) (x : K) (h : BareReal s x) (hp : '.' ∈ s) : fortranNumber io s = .ok x :=
  fortranNumber_bare io hio h hp

/-- A bare exponent after a number without a point is not read (`ValueError`), though Fortran reads it. -/
theorem C35_no_point (render : K → Str) (s : Str) (x : K) (h : BareReal s x) (hp : '.' ∉ s) :
    fortranNumber (⟨decimal, render⟩ : NumIO K) s = .error .valueError := by
  obtain ⟨m, e, v, n, hm, he⟩ := h
  cases hm with
  | point sg a b s hs hne ha hb => exact absurd (by simp) hp
  | whole sg ds s hs hne hd =>
    have hs0 : ∀ c, isDigit c = false → c ∉ ds := fun c hc => hd.not_mem hc
    obtain ⟨sgn, ds', rfl, hsgn, hd'⟩ : ∃ sgn ds', e = sgn :: ds' ∧ (sgn = '+' ∨ sgn = '-') ∧ Digits ds' := by
      cases he with
      | plus ds _ h => exact ⟨_, _, rfl, Or.inl rfl, h⟩
      | minus ds _ h => exact ⟨_, _, rfl, Or.inr rfl, h⟩
    have hnone : unsignedDecimal (K := K) (ds ++ sgn :: ds') = none := by
      unfold unsignedDecimal
      have : 'e' ∉ ds ++ sgn :: ds' := by
        simp only [List.mem_append, List.mem_cons, not_or]
        exact ⟨hd.not_mem (by decide), by rcases hsgn with rfl | rfl <;> decide, hd'.not_mem (by decide)⟩
      rw [splitOnChar_not_mem _ _ this]
      simp only
      unfold mantissaVal
      have : '.' ∉ ds ++ sgn :: ds' := by
        simp only [List.mem_append, List.mem_cons, not_or]
        exact ⟨hd.not_mem (by decide), by rcases hsgn with rfl | rfl <;> decide, hd'.not_mem (by decide)⟩
      rw [splitOnChar_not_mem _ _ this]
      simp only
      rw [if_neg]
      rintro ⟨-, h⟩
      rw [List.all_eq_true] at h
      have := h sgn (by simp)
      rcases hsgn with rfl | rfl <;> cases this
    unfold fortranNumber
    rw [splitOnChar_not_mem _ _ hp]
    simp only [NumIO.float]
    have : decimal (K := K) (sg ++ ds ++ sgn :: ds') = none := by
      unfold decimal
      rw [List.append_assoc]
      cases hs with
      | absent =>
        rw [List.nil_append]
        unfold signedVal
        split
        · rename_i t ht
          cases ds with
          | nil => exact absurd rfl hne
          | cons d ds => rw [List.cons_append] at ht; injection ht with h1; exact absurd (by simp [h1]) (hs0 '-' (by decide))
        · rename_i t ht
          cases ds with
          | nil => exact absurd rfl hne
          | cons d ds => rw [List.cons_append] at ht; injection ht with h1; exact absurd (by simp [h1]) (hs0 '+' (by decide))
        · exact hnone
      | plus => exact hnone
      | minus => show Option.map _ (unsignedDecimal (ds ++ sgn :: ds')) = none; rw [hnone]; rfl
    rw [this]

/-! ## C36 -/

private theorem filter_digits {ds : Str} (h : Digits ds) : ds.filter (· != '+') = ds := by
  rw [List.filter_eq_self]
  intro c hc
  simp only [bne_iff_ne, ne_eq]
  rintro rfl
  exact h.not_mem (by decide) hc

private theorem filter_sign {sg : Str} {s : Int} (h : SignText sg s) : SignText (sg.filter (· != '+')) s := by
  cases h
  · exact .absent
  · exact .absent
  · exact .minus

private theorem filter_mantissa {m : Str} {v : K} (h : Mantissa K m v) : Mantissa K (m.filter (· != '+')) v := by
  cases h with
  | whole sg ds s hs hne hd =>
    rw [List.filter_append, filter_digits hd]
    exact .whole _ _ _ (filter_sign hs) hne hd
  | point sg a b s hs hne ha hb =>
    rw [List.filter_append, List.filter_append, List.filter_cons_of_pos (by decide), filter_digits ha, filter_digits hb]
    exact .point _ _ _ _ (filter_sign hs) hne ha hb

private theorem filter_literal {s : Str} {x : K} (h : Literal s x) : Literal (s.filter (· != '+')) x := by
  obtain ⟨m, e, v, n, hm, he⟩ := h
  rw [List.filter_append]
  refine .mk _ _ _ _ (filter_mantissa hm) ?_
  cases he with
  | absent => exact .absent
  | letter sg ds s hs hne hd =>
    rw [List.filter_cons_of_pos (by decide), List.filter_append, filter_digits hd]
    exact .letter _ _ _ (filter_sign hs) hne hd

private theorem filter_bare {s : Str} {x : K} (h : BareReal s x) (hp : ∀ a b, s = a ++ '+' :: b → a = []) : BareReal (s.filter (· != '+')) x := by
  obtain ⟨m, e, v, n, hm, he⟩ := h
  rw [List.filter_append]
  refine .mk _ _ _ _ (filter_mantissa hm) ?_
  cases he with
  | plus ds hne hd =>
    exfalso
    have := hp m ds rfl
    subst this
    generalize he : ([] : Str) = m at hm
    cases hm with
    | whole sg ds s hs hne hd => exact hne (List.append_eq_nil_iff.1 he.symm).2
    | point sg a b => simp at he
  | minus ds hne hd =>
    rw [List.filter_cons_of_pos (by decide), filter_digits hd]
    exact .minus ds hne hd

private theorem splitGo_filter (acc s : Str) :
    splitGo (acc.filter (· != '+')) (s.filter (· != '+')) = ((splitGo acc s).map (·.filter (· != '+'))).filter (· ≠ []) := by
  have hflush : ∀ acc : Str, flush (acc.filter (· != '+')) = ((flush acc).map (·.filter (· != '+'))).filter (· ≠ []) := by
    intro acc
    unfold flush
    by_cases h : acc = []
    · subst h; rfl
    · rw [if_neg h]
      simp only [List.map_cons, List.map_nil]
      by_cases h2 : acc.filter (· != '+') = []
      · rw [if_pos h2]; simp [h2]
      · rw [if_neg h2]; simp [h2]
  induction s generalizing acc with
  | nil => exact hflush acc
  | cons c s ih =>
    by_cases hc : c = '+'
    · subst hc
      rw [List.filter_cons_of_neg (by decide)]
      have : splitGo acc ('+' :: s) = splitGo (acc ++ c!"+") s := by
        conv_lhs => unfold splitGo
        rw [if_neg (by decide)]
      rw [this, ← ih]
      congr 1
      simp
    · rw [List.filter_cons_of_pos (by simpa using hc)]
      unfold splitGo
      by_cases hs : isSpace c = true
      · rw [if_pos hs, if_pos hs, List.map_append, List.filter_append, ← hflush, ← ih]
        rfl
      · rw [if_neg hs, if_neg hs, ← ih]
        congr 1
        rw [List.filter_append, List.filter_cons_of_pos (by simpa using hc)]
        rfl

private theorem expandText_plus {s : Str} (h : ∀ c ∈ s, c ∉ ['(', ')', ':']) : expandText s = s.filter (· != '+') := by
  unfold expandText
  have hm : ∀ c, c ∈ ['(', ')', ':'] → c ∉ s := fun c hc hs => h c hs hc
  rw [replaceChar_not_mem '(' _ s (hm _ (by simp)), replaceChar_not_mem ')' _ s (hm _ (by simp)), replaceChar_not_mem ':' _ s (hm _ (by simp)),
    replaceChar_nil_eq_filter]

/-- C36 for densities that are Python literals, or have a point and a bare exponent that is negative. The card is number, material, density, geometry and
parameters. Missing: bare exponents with a plus sign (`C36_refuted`). -/
theorem C36_density_partial (io : NumIO K) (hio : ReadsLiterals io) (cosDeg : K → K) (header geometry params density : Str) (number material : Nat) (x : K)
    (hheader : split header = [natStr number, natStr material, density]) (hmat : 0 < material)
    (hdensity : Literal density x ∨ BareReal density x ∧ '.' ∈ density ∧ ∀ a b, density = a ++ '+' :: b → a = [])
    (hchars : ∀ c ∈ header, c ∉ ['(', ')', ':'])
    (hletters : ∀ c ∈ header ++ geometry, c ∉ ['u', 'f', 'i', 'v', 't', '*', '$'])
    (hparams : params = [] ∨ ∃ w ∈ parameterWords, ∃ rest, params = w ++ rest) (hd : '$' ∉ params)
    (hfill : ∀ a b, params = a ++ c!"fill" ++ b → ∀ a' b', params = a' ++ c!"*fill" ++ b' → a = a' ++ c!"*")
    (c : Cell K) (h : readCell io cosDeg (header ++ ' ' :: (geometry ++ params)) = .ok c) :
    c.id = number ∧ c.material = .int material ∧ c.density = x := by
  have hx : fortranNumber io (density.filter (· != '+')) = .ok x ∧ density.filter (· != '+') ≠ [] := by
    rcases hdensity with h | ⟨h, hp, hq⟩
    · have := filter_literal h
      refine ⟨fortranNumber_literal io this (hio _ _ this), ?_⟩
      obtain ⟨m, e, v, n, hm, he⟩ := h
      rw [List.filter_append]
      intro h0
      have h0 := (List.append_eq_nil_iff.1 h0).1
      cases hm with
      | whole sg ds s hs hne hd => rw [List.filter_append, filter_digits hd] at h0; exact hne (List.append_eq_nil_iff.1 h0).2
      | point sg a b s hs hne ha hb => rw [List.filter_append, List.filter_cons_of_pos (by decide)] at h0; simp at h0
    · refine ⟨fortranNumber_bare io hio (filter_bare h hq) (by simpa using hp), ?_⟩
      intro h0
      have : '.' ∈ density.filter (· != '+') := by simpa using hp
      rw [h0] at this; simp at this
  have hnat : ∀ n, (natStr n).filter (· != '+') = natStr n := fun n => filter_digits (natStr_digits n)
  have hsplit : split (expandText header) = natStr number :: natStr material :: (some (density.filter (· != '+'))).toList := by
    rw [expandText_plus hchars]
    have := splitGo_filter [] header
    rw [show splitGo [] header = split header from rfl, hheader] at this
    simp only [List.map_cons, List.map_nil, hnat] at this
    rw [show split (header.filter (· != '+')) = splitGo (([] : Str).filter (· != '+')) (header.filter (· != '+')) from rfl, this]
    rw [List.filter_cons_of_pos (by simpa using natStr_ne_nil _), List.filter_cons_of_pos (by simpa using natStr_ne_nil _), List.filter_cons_of_pos (by simpa using hx.2)]
    rfl
  have hint : ∀ n : Nat, parseInt (natStr n) = some (n : Int) := fun n => parseInt_intStr (n : Int)
  obtain ⟨ns, m, -, -, -, h1, h2, -, h3, -⟩ := interpret_parts io cosDeg .blank c header geometry params (natStr number) (natStr material) _ hsplit
    (Or.inr ⟨_, rfl, fun m hm => by rw [hint] at hm; cases hm; exact_mod_cast hmat⟩) hletters hparams hd hfill h
  obtain ⟨h4, h5⟩ := h3 _ rfl
  rw [hint] at h1 h2
  rw [hx.1] at h5
  refine ⟨(Option.some.inj h1).symm, ?_, (Except.ok.inj h5).symm⟩
  rw [h4, ← Option.some.inj h2]

end

/-- C36 is false: the density `1.0+2` is 100, the cell gets 1.02. -/
theorem C36_refuted : ReadsLiterals sampleIO ∧ BareReal c!"1.0+2" (100 : ℚ) ∧
    ∃ c : Cell ℚ, readCell sampleIO id c!"1 1 1.0+2 -1" = .ok c ∧ c.density = 102 / 100 := by
  refine ⟨readsLiterals_decimal _, ?_, ?_⟩
  · have := BareReal.mk c!"1.0" c!"+2" (1 : ℚ) 2 (by
      have := Mantissa.point (K := ℚ) [] c!"1" c!"0" 1 .absent (by decide) (by unfold Digits; decide) (by unfold Digits; decide)
      have e : ((1 : Int) : ℚ) * (digitsValue (c!"1" ++ c!"0") / 10 ^ (c!"0" : Str).length) = 1 := by decide +kernel
      rw [e] at this
      exact this) (.plus c!"2" (by decide) (by unfold Digits; decide))
    have e : (1 : ℚ) * 10 ^ (2 : Int) = 100 := by decide +kernel
    rw [e] at this
    exact this
  · exact ⟨{ (Cell.blank : Cell ℚ) with id := 1, material := .int 1, density := 102 / 100, text := [c!"-1"], interpreted := [.op .and, .str c!"-1"], surfaces := [1] },
      by decide +kernel, rfl⟩

/-! ## Cases that meet the hypotheses -/

example : fortranNumber sampleIO c!"-2.50-3" = .ok (-25 / 10000) := by decide +kernel
example : fortranNumber sampleIO c!"+.5+3" = .ok 500 := by decide +kernel
example : fortranNumber sampleIO c!"1.5e-3" = .ok (15 / 10000) := by decide +kernel
example : fortranNumber sampleIO c!"7" = .ok 7 := by decide +kernel

example : BareReal c!"-2.50-3" (-25 / 10000 : ℚ) := by
  have := BareReal.mk c!"-2.50" c!"-3" (-25 / 10 : ℚ) (-3) (by
    have := Mantissa.point (K := ℚ) c!"-" c!"2" c!"50" (-1) .minus (by decide) (by unfold Digits; decide) (by unfold Digits; decide)
    have e : ((-1 : Int) : ℚ) * (digitsValue (c!"2" ++ c!"50") / 10 ^ (c!"50" : Str).length) = -25 / 10 := by decide +kernel
    rw [e] at this
    exact this) (.minus c!"3" (by decide) (by unfold Digits; decide))
  have e : (-25 / 10 : ℚ) * 10 ^ (-3 : Int) = -25 / 10000 := by decide +kernel
  rw [e] at this
  exact this

example : (readCell sampleIO id c!"12  3 -2.50-3 (1 -2) imp:n=1").map (fun c => (c.id, c.material, c.density)) = .ok (12, .int 3, -25 / 10000) := by decide +kernel

example : split c!"12  3 -2.50-3" = [natStr 12, natStr 3, c!"-2.50-3"] := by decide +kernel

end Csg
