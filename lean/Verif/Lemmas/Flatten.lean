import Verif.Lemmas.Sense
import Verif.Lemmas.Nots

/-!
# References to macrobodies in the words of a cell
-/

set_option linter.unusedSectionVars false

namespace Csg

open Spec

/-! ## Numbers and facet words -/

theorem dropMinus_natStr (n : Nat) (t : Str) : dropMinus (natStr n ++ t) = natStr n ++ t := by
  unfold dropMinus
  split
  · rename_i u h
    cases hn : natStr n with
    | nil => exact absurd hn (natStr_ne_nil n)
    | cons c cs =>
      rw [hn] at h
      simp only [List.cons_append, List.cons.injEq] at h
      have := natStr_digits n c (by rw [hn]; simp)
      rw [h.1] at this
      exact absurd this (by decide)
  · rfl

theorem intStr_abs (z : Int) : intStr z = natStr z.natAbs ∨ intStr z = '-' :: natStr z.natAbs := by
  cases z with
  | ofNat n => left; rfl
  | negSucc n => right; rfl

theorem dropMinus_intStr (z : Int) : dropMinus (intStr z) = natStr z.natAbs := by
  rcases intStr_abs z with h | h <;> rw [h]
  · simpa using dropMinus_natStr z.natAbs []
  · rfl

theorem intStr_of_pos {n : Int} (h : 0 < n) : intStr n = natStr n.natAbs := by
  obtain ⟨m, rfl⟩ := Int.eq_ofNat_of_zero_le h.le
  rfl

theorem facetWord_eq (neg : Bool) {n : Int} (h : 0 < n) (k : Nat) :
    facetWord neg n k = (if neg then c!"-" else []) ++ (natStr n.natAbs ++ '.' :: natStr k) := by
  unfold facetWord
  rw [intStr_of_pos h]
  simp

theorem dropMinus_facetWord (neg : Bool) {n : Int} (h : 0 < n) (k : Nat) : dropMinus (facetWord neg n k) = natStr n.natAbs ++ '.' :: natStr k := by
  rw [facetWord_eq neg h]
  cases neg
  · simpa using dropMinus_natStr n.natAbs ('.' :: natStr k)
  · rfl

theorem natStr_not_mem (n : Nat) {c : Char} (hc : isDigit c = false) : c ∉ natStr n := by
  intro h
  rw [natStr_digits n c h] at hc
  cases hc

theorem split_facetWord (neg : Bool) (n : Int) (k : Nat) :
    splitOnChar '.' (facetWord neg n k) = [(if neg then c!"-" else []) ++ intStr n, natStr k] := by
  unfold facetWord
  rw [show (if neg then c!"-" else []) ++ intStr n ++ c!"." ++ natStr k = ((if neg then c!"-" else []) ++ intStr n) ++ '.' :: natStr k by simp]
  rw [splitOnChar_append, splitOnChar_not_mem _ _ (natStr_not_mem k (by decide))]
  rw [List.mem_append]
  rintro (h | h)
  · cases neg <;> simp at h
  · exact dot_not_mem_intStr n h

theorem facetWord_injective {neg neg' : Bool} {n n' : Int} {k k' : Nat} (hn : 0 < n) (hn' : 0 < n') (h : facetWord neg n k = facetWord neg' n' k') :
    neg = neg' ∧ n = n' ∧ k = k' := by
  have hd := congrArg dropMinus h
  have hs := congrArg (splitOnChar '.') h
  rw [split_facetWord, split_facetWord] at hs
  simp only [List.cons.injEq, and_true] at hs
  have hk := natStr_injective hs.2
  have h1 := hs.1
  rw [intStr_of_pos hn, intStr_of_pos hn'] at h1
  have hm : ∀ m : Nat, ∀ l : Str, natStr m ≠ '-' :: l := by
    intro m l e
    exact natStr_not_mem m (c := '-') (by decide) (by rw [e]; simp)
  cases neg <;> cases neg' <;> simp at h1
  · have := natStr_injective h1; exact ⟨rfl, by omega, hk⟩
  · exact absurd h1 (hm _ _)
  · exact absurd h1.symm (hm _ _)
  · have := natStr_injective h1; exact ⟨rfl, by omega, hk⟩

/-! ## Which words refer to a body -/

theorem isPrefixOf_digits {a b t : Str} {c : Char} (hc : isDigit c = false) (ha : ∀ x ∈ a, isDigit x = true)
    (h : a.isPrefixOf (b ++ c :: t) = true) : ∃ u, b = a ++ u := by
  rw [List.isPrefixOf_iff_prefix] at h
  obtain ⟨u, hu⟩ := h
  rcases List.append_eq_append_iff.1 hu with ⟨x, h1, h2⟩ | ⟨x, h1, h2⟩
  · exact ⟨x, h1⟩
  · cases x with
    | nil => exact ⟨[], by simpa using h1.symm⟩
    | cons y x =>
      simp only [List.cons_append, List.cons.injEq] at h2
      have : isDigit c = true := ha c (by rw [h1, h2.1]; simp)
      rw [hc] at this; cases this

theorem refersTo_intStr {id : Int} (hid : 0 < id) (z : Int) : refersTo id (intStr z) = true ↔ (z.natAbs : Int) = id := by
  unfold refersTo
  simp only [dropMinus_intStr, intStr_of_pos hid]
  constructor
  · intro h
    split at h
    · rename_i hp
      rw [List.isPrefixOf_iff_prefix] at hp
      obtain ⟨u, hu⟩ := hp
      have hd : (natStr z.natAbs).drop (natStr id.natAbs).length = u := by rw [← hu]; simp
      rw [hd] at h
      have hu' : u = [] := by
        cases u with
        | nil => rfl
        | cons c u =>
          have hc : isDigit c = true := natStr_digits z.natAbs c (by rw [← hu]; simp)
          have : c ≠ '.' := by rintro rfl; revert hc; decide
          simp [this] at h
      subst hu'
      rw [List.append_nil] at hu
      have := natStr_injective hu
      omega
    · cases h
  · intro h
    have : id.natAbs = z.natAbs := by omega
    rw [this]
    simp

theorem refersTo_facetWord {id : Int} (hid : 0 < id) (neg : Bool) {n : Int} (hn : 0 < n) (k : Nat) (hk : 1 ≤ k ∧ k ≤ 9) :
    refersTo id (facetWord neg n k) = true ↔ n = id := by
  have hkd : ∃ d, natStr k = [d] ∧ isDigit d = true ∧ d ≠ '0' ∧ d ≠ '.' := by
    obtain ⟨h1, h2⟩ := hk
    interval_cases k <;> exact ⟨_, rfl, by decide, by decide, by decide⟩
  obtain ⟨d, hd, hd1, hd2, hd3⟩ := hkd
  unfold refersTo
  simp only [dropMinus_facetWord neg hn, intStr_of_pos hid]
  constructor
  · intro h
    split at h
    · rename_i hp
      obtain ⟨u, hu⟩ := isPrefixOf_digits (by decide) (natStr_digits _) hp
      have hdr : (natStr n.natAbs ++ '.' :: natStr k).drop (natStr id.natAbs).length = u ++ '.' :: natStr k := by rw [hu]; simp
      rw [hdr] at h
      cases u with
      | nil =>
        rw [List.append_nil] at hu
        have := natStr_injective hu
        omega
      | cons c u =>
        have hc : isDigit c = true := natStr_digits n.natAbs c (by rw [hu]; simp)
        have : c ≠ '.' := by rintro rfl; revert hc; decide
        simp [this] at h
    · cases h
  · rintro rfl
    rw [if_pos (by rw [List.isPrefixOf_iff_prefix]; exact ⟨_, rfl⟩)]
    simp [hd, hd1, hd2, hd3]

theorem refersTo_head {id : Int} {c : Char} {w : Str} (h1 : isDigit c = false) (h2 : c ≠ '-') : refersTo id (c :: w) = false := by
  unfold refersTo
  have hd : dropMinus (c :: w) = c :: w := by
    unfold dropMinus
    split
    · rename_i h; simp at h; exact absurd h.1 h2
    · rfl
  simp only [hd]
  rw [if_neg]
  intro h
  rw [List.isPrefixOf_iff_prefix] at h
  obtain ⟨u, hu⟩ := h
  cases hi : intStr id with
  | nil => exact intStr_ne_nil id hi
  | cons y ys =>
    rw [hi] at hu
    simp at hu
    rcases intStr_chars id y (by rw [hi]; simp) with h | h
    · rw [hu.1] at h; rw [h] at h1; cases h1
    · exact h2 (by rw [← hu.1, h])

/-- The number and a dot occur in a facet word only if the number ends the number of the facet's body. -/
theorem infix_facetWord {id : Int} (hid : 0 < id) (neg : Bool) {n : Int} (hn : 0 < n) (k : Nat) :
    hasInfix (intStr id ++ c!".") (facetWord neg n k) = true ↔ intStr id <:+ intStr n := by
  rw [hasInfix_iff]
  constructor
  · rintro ⟨a, b, h⟩
    have hs := congrArg (splitOnChar '.') h
    rw [split_facetWord, show a ++ (intStr id ++ c!".") ++ b = (a ++ intStr id) ++ '.' :: b by simp] at hs
    have ha : '.' ∉ a ++ intStr id := by
      intro hmem
      have hmem : '.' ∈ a := by
        rcases List.mem_append.1 hmem with h | h
        · exact h
        · exact absurd h (dot_not_mem_intStr id)
      obtain ⟨a1, a2, rfl⟩ := List.append_of_mem hmem
      have hcount := congrArg (List.count '.') h
      have c1 : List.count '.' (facetWord neg n k) = 1 := by
        unfold facetWord
        simp only [List.count_append]
        rw [List.count_eq_zero_of_not_mem (dot_not_mem_intStr n), List.count_eq_zero_of_not_mem (natStr_not_mem k (by decide))]
        cases neg <;> simp
      rw [c1] at hcount
      simp [List.count_append] at hcount
      omega
    rw [splitOnChar_append _ _ _ ha] at hs
    simp only [List.cons.injEq] at hs
    have h1 := hs.1
    rw [intStr_of_pos hn, intStr_of_pos hid] at h1 ⊢
    cases neg
    · simp at h1; exact ⟨a, h1.symm⟩
    · simp at h1
      cases a with
      | nil =>
        simp at h1
        exact absurd (show '-' ∈ natStr id.natAbs by rw [← h1]; simp) (natStr_not_mem _ (by decide))
      | cons x a => simp at h1; exact ⟨a, h1.2.symm⟩
  · rintro ⟨a, h⟩
    refine ⟨(if neg then c!"-" else []) ++ a, natStr k, ?_⟩
    unfold facetWord
    rw [← h]; simp

theorem infix_no_dot {id : Int} {w : Str} (h : '.' ∉ w) : hasInfix (intStr id ++ c!".") w = false := by
  rw [Bool.eq_false_iff]
  intro e
  obtain ⟨a, b, rfl⟩ := (hasInfix_iff _ _).1 e
  exact h (by simp)

/-! ## The replacement of one word -/

section
variable {K : Type}

theorem flattenWord_no_dot (id : Int) (inside outside : Str) (news : List (Surface K)) {w : Str} (h : '.' ∉ w) :
    flattenWord id inside outside news w = .ok (if intStr id = w then outside else if '-' :: intStr id = w then inside else w) := by
  unfold flattenWord
  rw [infix_no_dot h]
  rfl

theorem minus_elem_facetWord (neg : Bool) {n : Int} (hn : 0 < n) (k : Nat) : (facetWord neg n k).elem '-' = neg := by
  rw [facetWord_eq neg hn]
  have h1 := natStr_not_mem n.natAbs (c := '-') (by decide)
  have h2 := natStr_not_mem k (c := '-') (by decide)
  cases neg
  · simp [h1, h2]
  · simp

theorem flattenWord_facet {id : Int} (hid : 0 < id) (inside outside : Str) (news : List (Surface K)) (neg : Bool) (k : Nat) (hk : 1 ≤ k)
    {s : Surface K} (hs : news[k - 1]? = some s) :
    flattenWord id inside outside news (facetWord neg id k) = .ok (if neg then '-' :: intStr s.id else intStr s.id) := by
  unfold flattenWord
  rw [(infix_facetWord hid neg hid k).2 (List.suffix_refl _), split_facetWord]
  have h1 : pyInt (natStr k) = .ok (k : Int) := pyInt_intStr k
  have h2 : pyGetI news ((k : Int) - 1) = .ok s := by
    have e : ((k : Int) - 1) = Int.ofNat (k - 1) := by simp; omega
    rw [e]
    simp only [pyGetI, pyGet, hs]
  simp only [if_true, pyGet, List.getElem?_cons_succ, List.getElem?_cons_zero, bind, Except.bind, h1, h2, minus_elem_facetWord neg hid]
  cases neg <;> rfl

theorem flattenWord_other_facet {id : Int} (hid : 0 < id) (inside outside : Str) (news : List (Surface K)) (neg : Bool) {n : Int} (hn : 0 < n) (k : Nat)
    (h : ¬ intStr id <:+ intStr n) : flattenWord id inside outside news (facetWord neg n k) = .ok (facetWord neg n k) := by
  unfold flattenWord
  rw [Bool.eq_false_iff.2 fun e => h ((infix_facetWord hid neg hn k).1 e)]
  have h1 : intStr id ≠ facetWord neg n k := fun e => dot_not_mem_intStr id (e ▸ dot_mem_facetWord neg n k)
  have h2 : '-' :: intStr id ≠ facetWord neg n k := by
    intro e
    have : '.' ∈ '-' :: intStr id := e ▸ dot_mem_facetWord neg n k
    rcases List.mem_cons.1 this with h | h
    · revert h; decide
    · exact dot_not_mem_intStr id h
  simp [h1, h2]

end

end Csg
