import Mathlib.Algebra.BigOperators.Group.List.Basic
import Mathlib.Data.List.Perm.Basic
import Mathlib.Tactic.Ring
import Verif.Lemmas.CellText
import Verif.Lemmas.Dedupe
import Verif.Lemmas.Fluka

/-!
# Names of FLUKA materials
-/

namespace Csg

open Spec

private theorem isotopes_ok : ∀ p ∈ flukaIsotopes, flukaName (natStr p.1) = .ok (some p.2) := by decide +kernel
private theorem elements_ok : ∀ p ∈ flukaElements, ((1000 * p.1 : Nat) : Int) ∉ zzToRemove ∧ zzToFluka.lookup ((1000 * p.1 : Nat) : Int) = some p.2 := by decide +kernel
private theorem table_ok : ∀ p ∈ zzToFluka, properName p.1.toNat = some p.2 ∨ properName p.1.toNat = none := by decide +kernel

theorem mem_of_lookup {κ ν : Type} [BEq κ] [LawfulBEq κ] {d : List (κ × ν)} {k : κ} {v : ν} (h : d.lookup k = some v) : (k, v) ∈ d := by
  induction d with
  | nil => cases h
  | cons p d ih =>
    obtain ⟨a, b⟩ := p
    rw [List.lookup_cons] at h
    by_cases e : k = a
    · subst e
      simp at h
      subst h
      simp
    · rw [beq_false_of_ne e] at h
      exact List.mem_cons_of_mem _ (ih h)

theorem flukaName_natStr {n : Nat} {name : Str} (h : properName n = some name) : flukaName (natStr n) = .ok (some name) := by
  unfold properName at h
  split at h
  · rename_i s hs
    cases h
    exact isotopes_ok _ (mem_of_lookup hs)
  · rename_i hs
    unfold flukaName
    have : pyInt (natStr n) = .ok (n : Int) := pyInt_intStr (n : Int)
    rw [this]
    show (match zzToFluka.lookup (n : Int) with
      | some name => Except.ok (some name)
      | none => _) = _
    cases hz : zzToFluka.lookup (n : Int) with
    | some t =>
      have := table_ok _ (mem_of_lookup hz)
      rw [Int.toNat_natCast] at this
      unfold properName at this
      rw [hs] at this
      simp only [] at this
      rw [h] at this
      rcases this with this | this
      · cases this; rfl
      · cases this
    | none =>
      have := elements_ok _ (mem_of_lookup h)
      have e : (n : Int).tdiv 1000 * 1000 = ((1000 * (n / 1000) : Nat) : Int) := by
        rw [Int.tdiv_eq_ediv_of_nonneg (by omega)]; push_cast; omega
      simp only []
      rw [e, if_neg this.1, this.2]

/-- The dictionary of names when every nuclide has one. -/
theorem collapsedMap_proper {f : Str → Str} : ∀ nucs : List Str, (∀ nuc ∈ nucs, flukaName nuc = .ok (some (f nuc))) → collapsedMap nucs = .ok (nucs.map fun nuc => (nuc, f nuc)) := by
  intro nucs
  induction nucs with
  | nil => intro _; rfl
  | cons a nucs ih =>
    intro h
    rw [collapsedMap, h a (by simp), ih fun x hx => h x (by simp [hx])]
    rfl

/-! ## Sums -/

section
variable {K : Type} [AddCommMonoid K]

/-- The sum of the fractions under a name. -/
def sumOf (name : Str) (l : List (Str × K)) : K := ((l.filter (·.1 = name)).map Prod.snd).sum

theorem sumOf_cons (name : Str) (p : Str × K) (l : List (Str × K)) : sumOf name (p :: l) = (if p.1 = name then p.2 else 0) + sumOf name l := by
  unfold sumOf
  by_cases h : p.1 = name
  · simp [h]
  · simp [h]

theorem nameDict_spec (comp : List (Str × K)) : ∀ (map : List (Str × Str)) (names : List (Str × K)), (names.map Prod.fst).Nodup →
    let es := map.filterMap fun p => (comp.lookup p.1).map fun x => (p.2, x)
    ((nameDict comp names map).map Prod.fst).Nodup ∧
    (∀ name, ((nameDict comp names map).lookup name).getD 0 = (names.lookup name).getD 0 + sumOf name es) ∧
    (∀ name, name ∈ (nameDict comp names map).map Prod.fst ↔ name ∈ names.map Prod.fst ∨ name ∈ es.map Prod.fst) := by
  intro map
  induction map with
  | nil => intro names hn; exact ⟨hn, fun name => by simp [nameDict, sumOf], fun name => by simp [nameDict]⟩
  | cons p map ih =>
    obtain ⟨nuc, name⟩ := p
    intro names hn
    rw [nameDict]
    cases hc : comp.lookup nuc with
    | none =>
      simp only [List.filterMap_cons, hc, Option.map_none]
      exact ih names hn
    | some x =>
      simp only [List.filterMap_cons, hc, Option.map_some]
      have step : ∀ y : K, (names.lookup name).getD 0 + x = y →
          ((nameDict comp (dictSet names name y) map).map Prod.fst).Nodup ∧
          (∀ k, ((nameDict comp (dictSet names name y) map).lookup k).getD 0 =
            (names.lookup k).getD 0 + sumOf k ((name, x) :: map.filterMap fun p => (comp.lookup p.1).map fun x => (p.2, x))) ∧
          (∀ k, k ∈ (nameDict comp (dictSet names name y) map).map Prod.fst ↔
            k ∈ names.map Prod.fst ∨ k ∈ ((name, x) :: map.filterMap fun p => (comp.lookup p.1).map fun x => (p.2, x)).map Prod.fst) := by
        intro y hy
        obtain ⟨h1, h2, h3⟩ := ih (dictSet names name y) (dictSet_nodup hn _ _)
        refine ⟨h1, fun k => ?_, fun k => ?_⟩
        · rw [h2 k, sumOf_cons, lookup_dictSet]
          by_cases hk : k = name
          · subst hk
            simp only [if_true, Option.getD_some]
            rw [← hy, add_assoc]
          · rw [if_neg hk, if_neg (fun h => hk h.symm), zero_add]
        · rw [h3 k, dictSet_mem_keys, List.map_cons, List.mem_cons]
          tauto
      cases hl : names.lookup name with
      | some y => exact step (y + x) (by rw [hl]; rfl)
      | none => exact step x (by rw [hl]; simp)

omit [AddCommMonoid K] in
/-- The fractions of a composition are met in another order. -/
theorem entries_perm {comp : List (Str × K)} {nucs : List Str} {f : Str → Str} (hc : (comp.map Prod.fst).Nodup) (hn : nucs.Nodup) (hsub : ∀ e ∈ comp, e.1 ∈ nucs) :
    List.Perm ((nucs.map fun nuc => (nuc, f nuc)).filterMap fun p => (comp.lookup p.1).map fun x => (p.2, x)) (comp.map fun e => (f e.1, e.2)) := by
  have h1 : ((nucs.map fun nuc => (nuc, f nuc)).filterMap fun p => (comp.lookup p.1).map fun x => (p.2, x)) =
      (nucs.filterMap fun nuc => (comp.lookup nuc).map fun x => (nuc, x)).map fun e => (f e.1, e.2) := by
    rw [List.filterMap_map, List.map_filterMap]
    congr 1
    funext nuc
    simp only [Function.comp, Option.map_map]
    rfl
  rw [h1]
  refine List.Perm.map _ ?_
  classical
  refine (List.perm_ext_iff_of_nodup ?_ hc.of_map).2 ?_
  · have : ((nucs.filterMap fun nuc => (comp.lookup nuc).map fun x => (nuc, x)).map Prod.fst).Sublist nucs := by
      clear hn hsub h1
      induction nucs with
      | nil => simp
      | cons a l ih =>
        rw [List.filterMap_cons]
        cases comp.lookup a with
        | none => exact List.Sublist.cons _ ih
        | some x => exact List.Sublist.cons_cons _ ih
    exact List.Nodup.of_map _ (hn.sublist this)
  · rintro ⟨a, x⟩
    rw [List.mem_filterMap]
    constructor
    · rintro ⟨nuc, hnuc, e⟩
      cases hl : comp.lookup nuc with
      | none => rw [hl] at e; cases e
      | some y =>
        rw [hl] at e
        cases e
        exact (lookup_iff_mem hc).1 hl
    · intro h
      exact ⟨a, hsub _ h, by rw [(lookup_iff_mem hc).2 h]; rfl⟩

theorem sumOf_perm {name : Str} {l l' : List (Str × K)} (h : l.Perm l') : sumOf name l = sumOf name l' := ((h.filter _).map _).sum_eq

/-- The sums under all the names of a dictionary make up the whole sum. -/
theorem total_eq : ∀ {d l : List (Str × K)}, (d.map Prod.fst).Nodup → (∀ name, (d.lookup name).getD 0 = sumOf name l) → (∀ name, name ∈ d.map Prod.fst ↔ name ∈ l.map Prod.fst) →
    (d.map Prod.snd).sum = (l.map Prod.snd).sum := by
  intro d
  induction d with
  | nil =>
    intro l _ _ hk
    cases l with
    | nil => rfl
    | cons p l => exact absurd ((hk p.1).2 (by simp)) (by simp)
  | cons p d ih =>
    intro l hn hv hk
    obtain ⟨a, x⟩ := p
    have hnd := List.nodup_cons.1 hn
    have hx : x = sumOf a l := by rw [← hv a]; simp
    have hd : ∀ name, name ≠ a → sumOf name (l.filter (·.1 ≠ a)) = sumOf name l := by
      intro name hne
      unfold sumOf
      rw [List.filter_filter]
      congr 2
      refine List.filter_congr fun e _ => ?_
      by_cases h : e.1 = name
      · simp [h, hne]
      · simp [h]
    have := ih (l := l.filter (·.1 ≠ a)) hnd.2 (fun name => by
      by_cases hne : name = a
      · subst hne
        rw [lookup_none_iff.2 hnd.1]
        have : (l.filter (·.1 ≠ name)).filter (·.1 = name) = [] := by
          rw [List.filter_filter, List.filter_eq_nil_iff]
          intro e _
          by_cases h : e.1 = name <;> simp [h]
        unfold sumOf
        rw [this]
        rfl
      · rw [hd name hne, ← hv name, List.lookup_cons, beq_false_of_ne hne]) (fun name => by
      by_cases hne : name = a
      · subst hne
        constructor
        · intro h; exact absurd h hnd.1
        · intro h
          obtain ⟨e, he, h⟩ := List.mem_map.1 h
          have := (List.mem_filter.1 he).2
          simp [h] at this
      · have := hk name
        rw [List.map_cons, List.mem_cons] at this
        constructor
        · intro h
          obtain ⟨e, he, h'⟩ := List.mem_map.1 (this.1 (Or.inr h))
          exact List.mem_map.2 ⟨e, List.mem_filter.2 ⟨he, by simpa [h'] using hne⟩, h'⟩
        · intro h
          obtain ⟨e, he, h'⟩ := List.mem_map.1 h
          exact (this.2 (List.mem_map.2 ⟨e, (List.mem_filter.1 he).1, h'⟩)).resolve_left hne)
    rw [List.map_cons, List.sum_cons, this, hx]
    unfold sumOf
    clear this hv hk ih hx hd
    induction l with
    | nil => simp
    | cons e l ih =>
      by_cases h : e.1 = a
      · simp only [List.filter_cons, h, decide_true, if_true, ne_eq, not_true, decide_false, List.map_cons, List.sum_cons, Bool.false_eq_true, if_false]
        rw [add_assoc, ih]
      · simp only [List.filter_cons, h, decide_false, ne_eq, not_false_iff, decide_true, if_true, List.map_cons, List.sum_cons, Bool.false_eq_true, if_false]
        rw [← ih]
        rw [← add_assoc, ← add_assoc, add_comm e.2]

end

/-! ## Element cards -/

theorem special_iff (name : Str) (h : name ≠ c!"BLCKHOLE" ∧ name ≠ c!"VACUUM") : name ∈ flukaSpecial ↔ name ∈ flukaPredefined := by
  have : flukaPredefined = c!"BLCKHOLE" :: c!"VACUUM" :: flukaSpecial := by decide +kernel
  rw [this]
  simp [h.1, h.2]

/-- The line of an element. -/
def elementText (n : Nat) (name : Str) : Str :=
  ljust 10 c!"MATERIAL" ++ rjust 10 (intStr ((n : Int).tdiv 1000) ++ c!".0") ++ rjust 10 [] ++ rjust 10 c!"1.0" ++ rjust 10 [] ++ rjust 10 [] ++ rjust 10 [] ++ rjust 10 name ++ c!"\n"

/-- The lines for elements: one for each name that needs one. -/
theorem elementLines_spec (f : Nat → Str) : ∀ (ns : List Nat) (written : List Str), ∃ ks : List Nat,
    elementLines written (ns.map fun n => (natStr n, f n)) = .ok (ks.map fun n => elementText n (f n)) ∧
      (∀ k ∈ ks, k ∈ ns) ∧ (ks.map f).Nodup ∧ (∀ k ∈ ks, f k ∉ written ∧ f k ∉ flukaSpecial) ∧
      (∀ n ∈ ns, f n ∉ flukaSpecial → f n ∉ written → f n ∈ ks.map f) := by
  intro ns
  induction ns with
  | nil => intro written; exact ⟨[], rfl, by simp, by simp, by simp, by simp⟩
  | cons n ns ih =>
    intro written
    rw [List.map_cons, elementLines]
    by_cases h : f n ∉ flukaSpecial ∧ f n ∉ written
    · rw [if_pos h]
      obtain ⟨ks, h1, h2, h3, h4, h5⟩ := ih (written ++ [f n])
      refine ⟨n :: ks, ?_, ?_, ?_, ?_, ?_⟩
      · have : elementLine (natStr n) (f n) = .ok (elementText n (f n)) := by
          unfold elementLine
          rw [show pyInt (natStr n) = .ok (n : Int) from pyInt_intStr (n : Int)]
          rfl
        rw [this, h1]
        rfl
      · intro k hk
        rcases List.mem_cons.1 hk with rfl | hk
        · simp
        · simp [h2 k hk]
      · rw [List.map_cons, List.nodup_cons]
        refine ⟨fun hm => ?_, h3⟩
        obtain ⟨k, hk, e⟩ := List.mem_map.1 hm
        exact (h4 k hk).1 (by simp [e])
      · intro k hk
        rcases List.mem_cons.1 hk with rfl | hk
        · exact ⟨h.2, h.1⟩
        · exact ⟨fun hm => (h4 k hk).1 (by simp [hm]), (h4 k hk).2⟩
      · intro k hk hs hw
        rw [List.map_cons, List.mem_cons]
        by_cases e : f k = f n
        · exact Or.inl e
        · rcases List.mem_cons.1 hk with rfl | hk
          · exact absurd rfl e
          · exact Or.inr (h5 k hk hs (by simp [hw, e]))
    · rw [if_neg h]
      obtain ⟨ks, h1, h2, h3, h4, h5⟩ := ih written
      refine ⟨ks, h1, fun k hk => by simp [h2 k hk], h3, h4, fun k hk hs hw => ?_⟩
      rcases List.mem_cons.1 hk with rfl | hk
      · exact absurd ⟨hs, hw⟩ h
      · exact h5 k hk hs hw

end Csg
