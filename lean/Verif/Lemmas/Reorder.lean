import Verif.Lemmas.FlukaNames
import Verif.Lemmas.Outputs
import Verif.Props.FlukaMaterials

/-!
# FLUKA materials in another order
-/

namespace Csg

open Spec

theorem collapsedMap_perm {l l' : List Str} (h : l.Perm l') : ∀ m, collapsedMap l = .ok m → ∃ m', collapsedMap l' = .ok m' ∧ m.Perm m' := by
  have step : ∀ (a : Str) (l : List Str) m, collapsedMap (a :: l) = .ok m ↔ ∃ n r, flukaName a = .ok n ∧ collapsedMap l = .ok r ∧ m = (n.map fun n => (a, n)).toList ++ r := by
    intro a l m
    rw [collapsedMap]
    cases flukaName a with
    | error e => simp [bind, Except.bind]
    | ok n =>
      cases collapsedMap l with
      | error e => simp [bind, Except.bind]
      | ok r => cases n <;> simp [bind, Except.bind, eq_comm]
  induction h with
  | nil => intro m hm; exact ⟨m, hm, .refl _⟩
  | cons a _ ih =>
    intro m hm
    obtain ⟨n, r, h1, h2, rfl⟩ := (step _ _ _).1 hm
    obtain ⟨r', h3, h4⟩ := ih r h2
    exact ⟨_, (step _ _ _).2 ⟨n, r', h1, h3, rfl⟩, h4.append_left _⟩
  | swap a b l =>
    intro m hm
    obtain ⟨n, r, h1, h2, rfl⟩ := (step _ _ _).1 hm
    obtain ⟨n', r', h3, h4, rfl⟩ := (step _ _ _).1 h2
    refine ⟨_, (step _ _ _).2 ⟨n', _, h3, (step _ _ _).2 ⟨n, r', h1, h4, rfl⟩, rfl⟩, ?_⟩
    rw [← List.append_assoc, ← List.append_assoc]
    exact List.Perm.append_right _ List.perm_append_comm
  | trans _ _ ih1 ih2 =>
    intro m hm
    obtain ⟨m', h1, h2⟩ := ih1 m hm
    obtain ⟨m'', h3, h4⟩ := ih2 m' h1
    exact ⟨m'', h3, h2.trans h4⟩

/-- Names belong to one atomic number, and have at most eight characters without blanks. -/
theorem zz_names : (∀ p ∈ zzToFluka, ∀ q ∈ zzToFluka, p.2 = q.2 → p.1 = q.1) ∧ ∀ p ∈ zzToFluka, p.2.length ≤ 10 ∧ p.2 ≠ [] ∧ ' ' ∉ p.2 ∧ '\n' ∉ p.2 := by decide +kernel

theorem flukaName_spec {nuc name : Str} (h : flukaName nuc = .ok (some name)) : ∃ z k, pyInt nuc = .ok z ∧ (k, name) ∈ zzToFluka ∧ z.tdiv 1000 = k.tdiv 1000 := by
  unfold flukaName at h
  cases hz : pyInt nuc with
  | error e => rw [hz] at h; cases h
  | ok z =>
    rw [hz] at h
    change (match zzToFluka.lookup z with | some name => _ | none => _) = _ at h
    cases hl : zzToFluka.lookup z with
    | some n =>
      rw [hl] at h
      cases h
      exact ⟨z, z, rfl, mem_of_lookup hl, rfl⟩
    | none =>
      rw [hl] at h
      simp only [] at h
      split at h
      · cases h
      · cases hl' : zzToFluka.lookup (z.tdiv 1000 * 1000) with
        | none => rw [hl'] at h; cases h
        | some n =>
          rw [hl'] at h
          cases h
          refine ⟨z, _, rfl, mem_of_lookup hl', ?_⟩
          rw [Int.mul_tdiv_cancel _ (by decide)]

/-- The card of a name. -/
def cardOf (name : Str) : Str :=
  match zzToFluka.find? (·.2 = name) with
  | some p => ljust 10 c!"MATERIAL" ++ rjust 10 (intStr (p.1.tdiv 1000) ++ c!".0") ++ rjust 10 [] ++ rjust 10 c!"1.0" ++ rjust 10 [] ++ rjust 10 [] ++ rjust 10 [] ++ rjust 10 name ++ c!"\n"
  | none => []

theorem elementLine_name {nuc name : Str} (h : flukaName nuc = .ok (some name)) : elementLine nuc name = .ok (cardOf name) := by
  obtain ⟨z, k, h1, h2, h3⟩ := flukaName_spec h
  unfold elementLine cardOf
  rw [h1]
  cases hf : zzToFluka.find? (·.2 = name) with
  | none => exact absurd (List.find?_eq_none.1 hf _ h2) (by simp)
  | some p =>
    have hp := List.mem_of_find?_eq_some hf
    have hn : p.2 = name := by simpa using List.find?_some hf
    have : p.1 = k := zz_names.1 p hp _ h2 hn
    simp only [this, ← h3]
    rfl

/-- The names that get a card. -/
theorem elementLines_names : ∀ (map : List (Str × Str)) (written : List Str), (∀ p ∈ map, flukaName p.1 = .ok (some p.2)) → ∃ names : List Str,
    elementLines written map = .ok (names.map cardOf) ∧ names.Nodup ∧ ∀ n, n ∈ names ↔ n ∈ map.map Prod.snd ∧ n ∉ flukaSpecial ∧ n ∉ written := by
  intro map
  induction map with
  | nil => intro written _; exact ⟨[], rfl, .nil, by simp⟩
  | cons p map ih =>
    obtain ⟨nuc, name⟩ := p
    intro written hm
    rw [elementLines]
    split
    · rename_i hc
      obtain ⟨names, h1, h2, h3⟩ := ih (written ++ [name]) fun p hp => hm p (by simp [hp])
      refine ⟨name :: names, ?_, List.nodup_cons.2 ⟨fun hn => ((h3 _).1 hn).2.2 (by simp), h2⟩, fun n => ?_⟩
      · rw [elementLine_name (hm (nuc, name) (by simp)), h1]; rfl
      · rw [List.mem_cons, h3]
        by_cases e : n = name
        · subst e; simpa using hc
        · simp [e]
    · rename_i hc
      obtain ⟨names, h1, h2, h3⟩ := ih written fun p hp => hm p (by simp [hp])
      refine ⟨names, h1, h2, fun n => ?_⟩
      rw [h3]
      by_cases e : n = name
      · subst e
        constructor
        · exact fun h => absurd ⟨h.2.1, h.2.2⟩ hc
        · exact fun h => absurd ⟨h.2.1, h.2.2⟩ hc
      · simp [e]

theorem elementLines_perm {map map' : List (Str × Str)} (h : map.Perm map') (hm : ∀ p ∈ map, flukaName p.1 = .ok (some p.2)) :
    ∃ ls ls', elementLines [] map = .ok ls ∧ elementLines [] map' = .ok ls' ∧ ls.Perm ls' := by
  obtain ⟨n, h1, h2, h3⟩ := elementLines_names map [] hm
  obtain ⟨n', h1', h2', h3'⟩ := elementLines_names map' [] fun p hp => hm p (h.mem_iff.2 hp)
  refine ⟨_, _, h1, h1', List.Perm.map _ ((List.perm_ext_iff_of_nodup h2 h2').2 fun x => ?_)⟩
  rw [h3, h3', (h.map Prod.snd).mem_iff]

section
variable {K : Type}

theorem perm_of_lookup [DecidableEq K] {l l' : List (Str × K)} (h : (l.map Prod.fst).Nodup) (h' : (l'.map Prod.fst).Nodup) (hl : ∀ k, l.lookup k = l'.lookup k) : l.Perm l' := by
  have key : ∀ {l : List (Str × K)}, (l.map Prod.fst).Nodup → ∀ k v, (k, v) ∈ l ↔ l.lookup k = some v := by
    intro l
    induction l with
    | nil => simp
    | cons a l ih =>
      obtain ⟨a, b⟩ := a
      intro hn k v
      rw [List.map_cons, List.nodup_cons] at hn
      rw [List.lookup_cons, List.mem_cons]
      by_cases e : k = a
      · subst e
        simp only [beq_self_eq_true, Prod.mk.injEq, true_and]
        constructor
        · rintro (rfl | h)
          · rfl
          · exact absurd (List.mem_map.2 ⟨_, h, rfl⟩) hn.1
        · intro h; exact Or.inl (Option.some.inj h).symm
      · simp [beq_false_of_ne e, e, ih hn.2 k v]
  refine (List.perm_ext_iff_of_nodup (List.Nodup.of_map _ h) (List.Nodup.of_map _ h')).2 fun p => ?_
  rw [key h p.1 p.2, key h' p.1 p.2, hl]

theorem nameDict_perm [AddCommMonoid K] [DecidableEq K] (comp : List (Str × K)) {map map' : List (Str × Str)} (h : map.Perm map') : (nameDict comp [] map).Perm (nameDict comp [] map') := by
  obtain ⟨a1, a2, a3⟩ := nameDict_spec comp map [] (by simp)
  obtain ⟨b1, b2, b3⟩ := nameDict_spec comp map' [] (by simp)
  have hp := h.filterMap fun p => (comp.lookup p.1).map fun x => (p.2, x)
  have hs : ∀ name, ((nameDict comp [] map).lookup name).getD 0 = ((nameDict comp [] map').lookup name).getD 0 := by
    intro name
    rw [a2, b2]
    congr 1
    exact (((hp.filter _).map Prod.snd).sum_eq)
  have hk : ∀ name, name ∈ (nameDict comp [] map).map Prod.fst ↔ name ∈ (nameDict comp [] map').map Prod.fst := by
    intro name
    rw [a3, b3, (hp.map Prod.fst).mem_iff]
  have look : ∀ (l : List (Str × K)) k, (l.lookup k).isSome ↔ k ∈ l.map Prod.fst := by
    intro l k
    induction l with
    | nil => simp
    | cons a l ih =>
      obtain ⟨a, b⟩ := a
      rw [List.lookup_cons, List.map_cons, List.mem_cons]
      by_cases e : k = a
      · subst e; simp
      · simp only [beq_false_of_ne e, ih]
        simp [e]
  refine perm_of_lookup a1 b1 fun k => ?_
  have h1 := hs k
  have h2 : ((nameDict comp [] map).lookup k).isSome ↔ ((nameDict comp [] map').lookup k).isSome := by rw [look, look]; exact hk k
  cases ha : (nameDict comp [] map).lookup k <;> cases hb : (nameDict comp [] map').lookup k <;> simp_all

theorem nameDict_names [Add K] (comp : List (Str × K)) {map : List (Str × Str)} {P : Str → Prop} (hm : ∀ p ∈ map, P p.2) : ∀ names : List (Str × K), (∀ e ∈ names, P e.1) → ∀ e ∈ nameDict comp names map, P e.1 := by
  have keys : ∀ (d : List (Str × K)) k v, (∀ e ∈ d, P e.1) → P k → ∀ e ∈ dictSet d k v, P e.1 := by
    intro d k v hd hk e he
    have : e.1 ∈ (dictSet d k v).map Prod.fst := List.mem_map.2 ⟨e, he, rfl⟩
    rcases dictSet_mem_keys.1 this with h | h
    · rw [h]; exact hk
    · obtain ⟨e', he', h⟩ := List.mem_map.1 h
      rw [← h]; exact hd e' he'
  induction map with
  | nil => intro names h; exact h
  | cons p map ih =>
    obtain ⟨nuc, name⟩ := p
    intro names h
    rw [nameDict]
    have ih := ih fun p hp => hm p (by simp [hp])
    have hk : P name := hm (nuc, name) (by simp)
    split
    · exact ih names h
    · split
      · exact ih _ (keys _ _ _ h hk)
      · exact ih _ (keys _ _ _ h hk)

end

/-- Whether the loop ends depends on the length of the text only. -/
theorem compoundGo_length (name : Str) : ∀ (fuel : Nat) (s s' : Str), s.length = s'.length → (compoundGo name fuel s).isSome = (compoundGo name fuel s').isSome := by
  intro fuel
  induction fuel with
  | zero =>
    intro s s' h
    cases s <;> cases s' <;> simp_all [compoundGo]
  | succ n ih =>
    intro s s' h
    cases s with
    | nil => rw [List.length_eq_zero_iff.1 h.symm]
    | cons c cs =>
      cases s' with
      | nil => cases h
      | cons c' cs' =>
        simp only [compoundGo, Option.isSome_map]
        apply ih
        rw [← h]
        split
        · simp [dropLastN, h]
        · split
          · simp [dropLastN]
            simp at h; omega
          · split
            · simp [dropLastN]
              simp at h; omega
            · exact h

end Csg
