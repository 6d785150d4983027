import Verif.Model.Dedupe
import Verif.Lemmas.Surface
import Verif.Lemmas.Py
import Mathlib.Data.List.Induction
import Mathlib.Data.List.Nodup

/-!
# Lemmas on the duplicate search
-/

set_option linter.unusedSectionVars false

namespace Csg

open Spec

section
variable {κ ν : Type} [DecidableEq κ]

theorem dictSet_keys (d : List (κ × ν)) (k : κ) (v : ν) :
    (dictSet d k v).map Prod.fst = if k ∈ d.map Prod.fst then d.map Prod.fst else d.map Prod.fst ++ [k] := by
  induction d with
  | nil => simp [dictSet]
  | cons e d ih =>
    obtain ⟨k', v'⟩ := e
    unfold dictSet
    by_cases h : k' = k
    · simp [h]
    · rw [if_neg h, List.map_cons, ih]
      by_cases h2 : k ∈ d.map Prod.fst
      · rw [if_pos h2, if_pos (by simp [h2])]; rfl
      · rw [if_neg h2, if_neg (by simp only [List.map_cons, List.mem_cons]; rintro (e | e); exacts [h e.symm, h2 e])]; rfl

theorem dictSet_nodup {d : List (κ × ν)} (h : (d.map Prod.fst).Nodup) (k : κ) (v : ν) : ((dictSet d k v).map Prod.fst).Nodup := by
  rw [dictSet_keys]
  split
  · exact h
  · rename_i hk
    rw [List.nodup_append]
    refine ⟨h, by simp, ?_⟩
    intro a ha b hb
    rw [List.mem_singleton] at hb
    rintro rfl
    exact hk (hb ▸ ha)

theorem mem_dictSet {d : List (κ × ν)} (h : (d.map Prod.fst).Nodup) {k : κ} {v : ν} {e : κ × ν} :
    e ∈ dictSet d k v ↔ e = (k, v) ∨ (e ∈ d ∧ e.1 ≠ k) := by
  induction d with
  | nil => simp [dictSet]
  | cons e' d ih =>
    obtain ⟨k', v'⟩ := e'
    rw [List.map_cons, List.nodup_cons] at h
    unfold dictSet
    by_cases hk : k' = k
    · subst hk
      rw [if_pos rfl]
      simp only [List.mem_cons]
      constructor
      · rintro (rfl | hm)
        · exact Or.inl rfl
        · exact Or.inr ⟨Or.inr hm, fun he => h.1 (List.mem_map.2 ⟨_, hm, he⟩)⟩
      · rintro (rfl | ⟨rfl | hm, hne⟩)
        · exact Or.inl rfl
        · exact absurd rfl hne
        · exact Or.inr hm
    · rw [if_neg hk]
      simp only [List.mem_cons, ih h.2]
      constructor
      · rintro (rfl | rfl | hm)
        · exact Or.inr ⟨Or.inl rfl, hk⟩
        · exact Or.inl rfl
        · exact Or.inr ⟨Or.inr hm.1, hm.2⟩
      · rintro (rfl | ⟨rfl | hm, hne⟩)
        · exact Or.inr (Or.inl rfl)
        · exact Or.inl rfl
        · exact Or.inr (Or.inr ⟨hm, hne⟩)

end

/-- A dictionary filled from a list of assignments in which later ones for the same key have larger values. -/
structure LastOf (E d : List (Nat × Nat × Bool)) : Prop where
  nodup : (d.map Prod.fst).Nodup
  last : ∀ e ∈ d, e ∈ E ∧ ∀ e' ∈ E, e'.1 = e.1 → e'.2.1 ≤ e.2.1
  keys : ∀ e ∈ E, e.1 ∈ d.map Prod.fst

theorem lastOf_fold (E : List (Nat × Nat × Bool)) (h : E.Pairwise fun a b => a.1 = b.1 → a.2.1 < b.2.1) :
    LastOf E (E.foldl (fun d e => dictSet d e.1 e.2) []) := by
  induction E using List.reverseRecOn with
  | nil => exact ⟨by simp, by simp, by simp⟩
  | append_singleton E e ih =>
    rw [List.pairwise_append] at h
    obtain ⟨h1, -, h2⟩ := h
    obtain ⟨g1, g2, g3⟩ := ih h1
    rw [List.foldl_append]
    refine ⟨dictSet_nodup g1 _ _, ?_, ?_⟩
    · intro x hx
      rcases (mem_dictSet g1).1 hx with rfl | ⟨hx, hne⟩
      · refine ⟨by simp, ?_⟩
        intro e' he' hk
        rcases List.mem_append.1 he' with he' | he'
        · exact (h2 e' he' e (by simp) hk).le
        · rw [List.mem_singleton] at he'; subst he'; exact le_refl _
      · refine ⟨List.mem_append_left _ (g2 x hx).1, ?_⟩
        intro e' he' hk
        rcases List.mem_append.1 he' with he' | he'
        · exact (g2 x hx).2 e' he' hk
        · rw [List.mem_singleton] at he'; subst he'; exact absurd hk.symm hne
    · intro x hx
      simp only [List.foldl_cons, List.foldl_nil]
      rw [dictSet_keys]
      rcases List.mem_append.1 hx with hx | hx
      · split
        · exact g3 x hx
        · exact List.mem_append_left _ (g3 x hx)
      · rw [List.mem_singleton] at hx; subst hx
        split
        · assumption
        · simp

theorem nodup_eraseDups {α : Type} [DecidableEq α] (l : List α) : l.eraseDups.Nodup := by
  induction hn : l.length using Nat.strong_induction_on generalizing l with
  | _ n ih =>
    cases l with
    | nil => simp
    | cons a l =>
      rw [List.eraseDups_cons, List.nodup_cons]
      have hlen : (l.filter fun b => !b == a).length < n := by
        have := List.length_filter_le (fun b => !b == a) l
        simp only [List.length_cons] at hn
        omega
      refine ⟨?_, ih _ hlen _ rfl⟩
      rw [List.mem_eraseDups]
      simp

theorem mem_takeWhile_ne {l : List Nat} (h : l.Pairwise (· < ·)) {j : Nat} (hj : j ∈ l) (x : Nat) :
    x ∈ l.takeWhile (· ≠ j) ↔ x ∈ l ∧ x < j := by
  induction l with
  | nil => cases hj
  | cons a l ih =>
    rw [List.pairwise_cons] at h
    by_cases ha : a = j
    · subst ha
      simp only [List.takeWhile_cons, ne_eq, not_true_eq_false, decide_false, Bool.false_eq_true, if_false, List.not_mem_nil, false_iff,
        List.mem_cons]
      rintro ⟨rfl | hx, hlt⟩
      · exact absurd hlt (lt_irrefl _)
      · have := h.1 x hx; omega
    · have hj' : j ∈ l := by
        rcases List.mem_cons.1 hj with e | e
        · exact absurd e.symm ha
        · exact e
      rw [List.takeWhile_cons, if_pos (by simpa using ha), List.mem_cons, List.mem_cons, ih h.2 hj']
      constructor
      · rintro (rfl | ⟨h1, h2⟩)
        · exact ⟨Or.inl rfl, h.1 j hj'⟩
        · exact ⟨Or.inr h1, h2⟩
      · rintro ⟨rfl | h1, h2⟩
        · exact Or.inl rfl
        · exact Or.inr ⟨h1, h2⟩

section
variable {K : Type} [Field K] [DecidableEq K]

theorem mem_placesOf {gs : List (Surface K)} {t : SType} {i : Nat} : i ∈ placesOf gs t ↔ ∃ s, gs[i]? = some s ∧ s.type = t := by
  unfold placesOf
  simp only [List.mem_map, List.mem_filter, decide_eq_true_eq, Prod.exists]
  constructor
  · rintro ⟨s, k, ⟨h1, h2⟩, rfl⟩
    exact ⟨s, by rwa [List.mk_mem_zipIdx_iff_getElem?] at h1, h2⟩
  · rintro ⟨s, h1, h2⟩
    exact ⟨s, i, ⟨by rwa [List.mk_mem_zipIdx_iff_getElem?], h2⟩, rfl⟩

theorem placesOf_increasing (gs : List (Surface K)) (t : SType) : (placesOf gs t).Pairwise (· < ·) := by
  unfold placesOf
  refine List.Pairwise.sublist (List.Sublist.map _ List.filter_sublist) ?_
  rw [List.zipIdx_map_snd]
  exact List.pairwise_lt_range'

theorem comparePlaces_some {gs : List (Surface K)} {i j : Nat} {e : Nat × Nat × Bool} (h : comparePlaces gs j i = some e) :
    ∃ a b, gs[j]? = some a ∧ gs[i]? = some b ∧ (a.diff b true).1.1 = true ∧ e = (i, j, (a.diff b true).1.2) := by
  unfold comparePlaces at h
  cases ha : gs[j]? with
  | none => rw [ha] at h; cases h
  | some a =>
    cases hb : gs[i]? with
    | none => rw [ha, hb] at h; cases h
    | some b =>
      rw [ha, hb] at h
      simp only at h
      split at h
      · rename_i hd
        exact ⟨a, b, rfl, rfl, hd, (Option.some.inj h).symm⟩
      · cases h

theorem diff_type {a b : Surface K} (h : (a.diff b true).1.1 = true) : a.type = b.type := by
  by_contra hne
  unfold Surface.diff at h
  rw [if_pos (fun e => hne e.symm)] at h
  cases h

theorem mem_duplicateEntries {gs : List (Surface K)} {e : Nat × Nat × Bool} :
    e ∈ duplicateEntries gs ↔ e.1 < e.2.1 ∧ ∃ a b, gs[e.2.1]? = some a ∧ gs[e.1]? = some b ∧ (a.diff b true).1 = (true, e.2.2) := by
  unfold duplicateEntries
  simp only [List.mem_flatMap, List.mem_filterMap]
  constructor
  · rintro ⟨t, -, j, hj, i, hi, hc⟩
    rw [mem_takeWhile_ne (placesOf_increasing gs t) hj] at hi
    obtain ⟨a, b, ha, hb, hd, rfl⟩ := comparePlaces_some hc
    exact ⟨hi.2, a, b, ha, hb, Prod.ext hd rfl⟩
  · rintro ⟨hlt, a, b, ha, hb, hd⟩
    obtain ⟨i, j, r⟩ := e
    simp only at hlt ha hb hd
    have hd1 : (a.diff b true).1.1 = true := by rw [hd]
    have hj : j ∈ placesOf gs a.type := mem_placesOf.2 ⟨a, ha, rfl⟩
    refine ⟨a.type, ?_, j, hj, i, (mem_takeWhile_ne (placesOf_increasing gs _) hj _).2
      ⟨mem_placesOf.2 ⟨b, hb, (diff_type hd1).symm⟩, hlt⟩, ?_⟩
    · unfold typesOf
      rw [List.mem_eraseDups]
      exact List.mem_map_of_mem (List.mem_of_getElem? ha)
    · unfold comparePlaces
      rw [ha, hb]
      simp only [hd, if_true]

theorem duplicateEntries_pairwise (gs : List (Surface K)) : (duplicateEntries gs).Pairwise fun a b => a.1 = b.1 → a.2.1 < b.2.1 := by
  unfold duplicateEntries
  rw [List.pairwise_flatMap]
  refine ⟨?_, ?_⟩
  · intro t _
    rw [List.pairwise_flatMap]
    refine ⟨?_, ?_⟩
    · intro j hj
      rw [List.pairwise_filterMap]
      refine List.Pairwise.imp ?_ (List.Pairwise.sublist (List.takeWhile_sublist _) (placesOf_increasing gs t))
      intro x y hxy a ha b hb e
      obtain ⟨_, _, -, -, -, rfl⟩ := comparePlaces_some ha
      obtain ⟨_, _, -, -, -, rfl⟩ := comparePlaces_some hb
      simp only at e
      omega
    · refine List.Pairwise.imp ?_ (placesOf_increasing gs t)
      intro x y hxy a ha b hb _
      obtain ⟨_, _, ha⟩ := List.mem_filterMap.1 ha
      obtain ⟨_, _, hb⟩ := List.mem_filterMap.1 hb
      obtain ⟨_, _, -, -, -, rfl⟩ := comparePlaces_some ha
      obtain ⟨_, _, -, -, -, rfl⟩ := comparePlaces_some hb
      exact hxy
  · have hn : (typesOf gs).Nodup := nodup_eraseDups _
    refine List.Pairwise.imp ?_ hn
    intro t u htu a ha b hb e
    exfalso
    have key : ∀ t (a : Nat × Nat × Bool), a ∈ ((placesOf gs t).flatMap fun j => ((placesOf gs t).takeWhile (· ≠ j)).filterMap (comparePlaces gs j)) →
        ∃ s, gs[a.1]? = some s ∧ s.type = t := by
      intro t a ha
      simp only [List.mem_flatMap, List.mem_filterMap] at ha
      obtain ⟨j, hj, i, hi, hc⟩ := ha
      rw [mem_takeWhile_ne (placesOf_increasing gs t) hj] at hi
      obtain ⟨_, _, -, -, -, rfl⟩ := comparePlaces_some hc
      exact mem_placesOf.1 hi.1
    obtain ⟨s, h1, h2⟩ := key t a ha
    obtain ⟨s', h3, h4⟩ := key u b hb
    rw [e, h3] at h1
    cases h1
    exact htu (h2.symm.trans h4)

/-- What the dictionary of duplicates contains. -/
theorem duplicates_spec (gs : List (Surface K)) : LastOf (duplicateEntries gs) (duplicates gs) :=
  lastOf_fold _ (duplicateEntries_pairwise gs)

/-- The generalised surfaces at two places are duplicates. -/
def Alike (a b : Surface K) : Prop := a.type = b.type ∧ (a.coeffs = b.coeffs ∨ a.coeffs = b.coeffs.map fun x => -x)

theorem Alike.symm {a b : Surface K} (h : Alike a b) : Alike b a := by
  refine ⟨h.1.symm, ?_⟩
  rcases h.2 with h | h
  · exact Or.inl h.symm
  · right; rw [h]; simp

theorem Alike.trans {a b c : Surface K} (h : Alike a b) (h' : Alike b c) : Alike a c := by
  refine ⟨h.1.trans h'.1, ?_⟩
  rcases h.2 with h | h <;> rcases h'.2 with h' | h'
  · exact Or.inl (h.trans h')
  · exact Or.inr (h.trans h')
  · right; rw [h, h']
  · left; rw [h, h']; simp

theorem diff_iff (a b : Surface K) : (a.diff b true).1.1 = true ↔ Alike a b := by
  unfold Surface.diff Alike
  by_cases h1 : b.type = a.type
  · rw [if_neg (by simpa using h1)]
    by_cases h2 : b.coeffs = a.coeffs
    · rw [if_pos h2]; simp [h1, h2]
    · rw [if_neg h2, if_pos rfl]
      by_cases h3 : b.reverse.coeffs = a.coeffs
      · rw [if_pos h3]
        simp only [Surface.reverse] at h3
        simp [h1, h3]
      · rw [if_neg h3]
        simp only [Surface.reverse] at h3
        simp [h1, Ne.symm h2, Ne.symm h3]
  · rw [if_pos h1]
    simp [Ne.symm h1]

theorem diff_reverse {a b : Surface K} (h : (a.diff b true).1 = (true, false)) : a.coeffs = b.coeffs := by
  unfold Surface.diff at h
  split at h
  · cases h
  · split at h
    · rename_i h2; exact h2.symm
    · rw [if_pos rfl] at h
      dsimp only at h
      split at h <;> cases h

theorem diff_reverse' {a b : Surface K} (h : (a.diff b true).1 = (true, true)) : a.coeffs = b.coeffs.map fun x => -x := by
  unfold Surface.diff at h
  split at h
  · cases h
  · split at h
    · cases h
    · rw [if_pos rfl] at h
      dsimp only at h
      split at h
      · rename_i h2; exact h2.symm
      · cases h

end

end Csg
