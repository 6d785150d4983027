import Verif.Spec.Material
import Verif.Lemmas.Dedupe
import Verif.Lemmas.Num
import Mathlib.Data.List.Nodup
import Mathlib.Data.List.Forall2
import Mathlib.Algebra.BigOperators.Group.List.Basic

/-!
# Lemmas on materials
-/

set_option linter.unusedSectionVars false
set_option maxRecDepth 100000

namespace Csg

open Spec

/-! ## The table -/

theorem table_shape : ∀ d ∈ materialData, 0 < d.abundance ∧ d.nucid % 10000 = 0 ∧ d.nucid / 10000000 ≤ 92 ∧ 0 < d.nucid % 10000000 ∧
    d.nucid % 10000000 < d.nucid / 10000000 * 100000 := by decide +kernel

theorem table_total : ∀ z ∈ List.range 93, natural z ≠ [] → ((natural z).map NuclideData.abundance).sum = 100 := by decide +kernel

theorem table_find : ∀ d ∈ materialData, materialData.find? (fun e => (e.nucid : Int) = (d.nucid : Int) / 10000 * 10000) = some d := by decide +kernel

theorem table_nodup : (materialData.map NuclideData.nucid).Nodup := by decide +kernel

theorem getNucs_window (z : Nat) : (materialData.filter fun d => 0 < (d.nucid : Int) - (1000 * z : Nat) * 10000 ∧ (d.nucid : Int) - (1000 * z : Nat) * 10000 < (1000 * z : Nat) * 100) =
    natural z := by
  unfold natural
  apply List.filter_congr
  intro d hd
  obtain ⟨-, h1, h2, h3, h4⟩ := table_shape d hd
  rw [decide_eq_decide]
  push_cast
  omega

theorem getNucs_eq (z : Nat) : getNucs ((1000 * z : Nat) : Int) = (natural z).map fun d => ((d.nucid / 10000 : Nat) : Int) := by
  unfold getNucs
  rw [getNucs_window]
  rfl

theorem natural_mem {z : Nat} {d : NuclideData} (h : d ∈ natural z) : d ∈ materialData ∧ d.nucid / 10000000 = z := by
  unfold natural at h
  rw [List.mem_filter] at h
  exact ⟨h.1, by simpa using h.2⟩

theorem natural_total (z : Nat) (h : natural z ≠ []) : ((natural z).map NuclideData.abundance).sum = 100 := by
  refine table_total z ?_ h
  obtain ⟨d, hd⟩ := List.exists_mem_of_ne_nil _ h
  obtain ⟨hd', rfl⟩ := natural_mem hd
  have := (table_shape d hd').2.2.1
  simp only [List.mem_range]
  omega

theorem abundance_natural {d : NuclideData} (h : d ∈ materialData) : abundance ((d.nucid / 10000 : Nat) : Int) = .ok d.abundance := by
  unfold abundance
  have := table_find d h
  push_cast
  rw [this]

theorem natural_nucids_nodup (z : Nat) : ((natural z).map fun d => natStr (d.nucid / 10000)).Nodup := by
  have h0 : ((natural z).map NuclideData.nucid).Nodup := by
    have : ((natural z).map NuclideData.nucid).Sublist (materialData.map NuclideData.nucid) := (List.filter_sublist).map _
    exact this.nodup table_nodup
  rw [List.nodup_iff_pairwise_ne, List.pairwise_map] at h0 ⊢
  refine h0.imp_of_mem ?_
  intro a b ha hb hne he
  have := natStr_injective he
  have h1 := (table_shape a (natural_mem ha).1).2.1
  have h2 := (table_shape b (natural_mem hb).1).2.1
  omega

theorem natural_isElement {z : Nat} {d : NuclideData} (h : d ∈ natural z) : IsElement z (natStr (d.nucid / 10000)) := by
  obtain ⟨h', rfl⟩ := natural_mem h
  have := (table_shape d h')
  exact ⟨d.nucid / 10000 % 1000, by omega, by congr 1; omega⟩

theorem isElement_natStr {z n : Nat} : IsElement z (natStr n) ↔ n / 1000 = z := by
  constructor
  · rintro ⟨a, ha, h⟩
    have := natStr_injective h
    omega
  · rintro rfl
    exact ⟨n % 1000, Nat.mod_lt _ (by decide), by congr 1; omega⟩

/-! ## Dictionaries -/

section
variable {κ ν : Type} [DecidableEq κ]

theorem dictSet_fresh {d : List (κ × ν)} {k : κ} {v : ν} (h : k ∉ d.map Prod.fst) : dictSet d k v = d ++ [(k, v)] := by
  induction d with
  | nil => rfl
  | cons e d ih =>
    obtain ⟨k', v'⟩ := e
    simp only [List.map_cons, List.mem_cons, not_or] at h
    unfold dictSet
    rw [if_neg (fun e => h.1 e.symm), ih h.2]
    rfl

theorem dictSet_fold_fresh (new : List (κ × ν)) : ∀ d : List (κ × ν), (new.map Prod.fst).Nodup → (∀ k ∈ new.map Prod.fst, k ∉ d.map Prod.fst) →
    new.foldl (fun d e => dictSet d e.1 e.2) d = d ++ new := by
  induction new with
  | nil => intro d _ _; simp
  | cons e new ih =>
    intro d hn hd
    rw [List.map_cons, List.nodup_cons] at hn
    rw [List.foldl_cons, dictSet_fresh (hd _ (by simp)), ih _ hn.2]
    · simp
    · intro k hk
      simp only [List.map_append, List.map_cons, List.map_nil, List.mem_append, List.mem_singleton, not_or]
      refine ⟨hd k (by simp [hk]), ?_⟩
      rintro rfl
      exact hn.1 hk

theorem lookup_iff_mem [BEq κ] [LawfulBEq κ] {d : List (κ × ν)} (h : (d.map Prod.fst).Nodup) {k : κ} {v : ν} : d.lookup k = some v ↔ (k, v) ∈ d := by
  induction d with
  | nil => simp
  | cons e d ih =>
    obtain ⟨k', v'⟩ := e
    rw [List.map_cons, List.nodup_cons] at h
    rw [List.lookup_cons]
    by_cases hk : k = k'
    · subst hk
      rw [beq_self_eq_true]
      simp only [Option.some.injEq, List.mem_cons, Prod.mk.injEq, true_and]
      constructor
      · intro e; exact Or.inl e.symm
      · rintro (e | hm)
        · exact e.symm
        · exact absurd (List.mem_map.2 ⟨_, hm, rfl⟩) h.1
    · rw [beq_false_of_ne hk]
      simp only [ih h.2, List.mem_cons, Prod.mk.injEq]
      constructor
      · exact Or.inr
      · rintro (⟨e, -⟩ | hm)
        · exact absurd e hk
        · exact hm

theorem lookup_dictSet [BEq κ] [LawfulBEq κ] (d : List (κ × ν)) (k k' : κ) (v : ν) : (dictSet d k v).lookup k' = if k' = k then some v else d.lookup k' := by
  induction d with
  | nil =>
    by_cases h : k' = k
    · subst h; simp [dictSet]
    · simp only [dictSet, List.lookup_cons, beq_false_of_ne h, if_neg h, List.lookup_nil]
  | cons e d ih =>
    obtain ⟨k0, v0⟩ := e
    unfold dictSet
    by_cases h : k0 = k
    · subst h
      rw [if_pos rfl, List.lookup_cons, List.lookup_cons]
      by_cases h' : k' = k0
      · subst h'; simp
      · simp only [beq_false_of_ne h', if_neg h']
    · rw [if_neg h, List.lookup_cons, List.lookup_cons, ih]
      by_cases h' : k' = k0
      · subst h'; simp only [beq_self_eq_true, if_neg h]
      · simp only [beq_false_of_ne h']

theorem lookup_none_iff [BEq κ] [LawfulBEq κ] {d : List (κ × ν)} {k : κ} : d.lookup k = none ↔ k ∉ d.map Prod.fst := by
  induction d with
  | nil => simp
  | cons e d ih =>
    obtain ⟨k', v'⟩ := e
    rw [List.lookup_cons]
    by_cases h : k = k'
    · subst h; simp
    · simp only [beq_false_of_ne h, ih, List.map_cons, List.mem_cons, h, false_or]

theorem dictSet_mem_keys {d : List (κ × ν)} {k k' : κ} {v : ν} : k' ∈ (dictSet d k v).map Prod.fst ↔ k' = k ∨ k' ∈ d.map Prod.fst := by
  rw [dictSet_keys]
  split
  · rename_i h
    exact ⟨Or.inr, fun hh => hh.elim (fun e => e ▸ h) id⟩
  · simp [or_comm]

end

end Csg
