import Verif.Lemmas.Material
import Mathlib.Tactic.FieldSimp
import Mathlib.Algebra.BigOperators.Ring.List
import Mathlib.Algebra.Order.Field.Basic
import Mathlib.Data.Rat.Cast.CharZero

/-!
# What `explode_elements` does
-/

set_option linter.unusedSectionVars false

namespace Csg

open Spec

section
variable {K : Type} [Field K] [LinearOrder K]

/-- The entry for a natural nuclide of an element with a fraction. -/
def nuclideEntry (z : Int) (frac : K) (d : NuclideData) : Str × K :=
  (natStr (d.nucid / 10000),
    if frac < 0 then frac * (d.abundance : K) / 100 * (atomicMass z : K) / (getAA ((d.nucid / 10000 : Nat) : Int) : K) else frac * (d.abundance : K) / 100)

/-- The number of an element identifier. -/
def elementOf (nuc : Str) : Option Nat :=
  match parseInt nuc with
  | some z => if z % 1000 = 0 then some (z.toNat / 1000) else none
  | none => none

/-- The new entries for an entry of a composition. -/
def newEntries (e : Str × K) : List (Str × K) :=
  match elementOf e.1 with
  | some z => (natural z).map (nuclideEntry (1000 * z : Nat) e.2)
  | none => []

theorem elementOf_natStr (n : Nat) : elementOf (natStr n) = if n % 1000 = 0 then some (n / 1000) else none := by
  unfold elementOf
  rw [show parseInt (natStr n) = some (n : Int) from parseInt_intStr n]
  simp only
  by_cases h : n % 1000 = 0
  · rw [if_pos h, if_pos (by omega)]; simp
  · rw [if_neg h, if_neg (by omega)]

theorem newEntries_natStr (n : Nat) (x : K) : newEntries (natStr n, x) = if n % 1000 = 0 then (natural (n / 1000)).map (nuclideEntry (n : Nat) x) else [] := by
  unfold newEntries
  simp only [elementOf_natStr]
  by_cases h : n % 1000 = 0
  · rw [if_pos h, if_pos h]
    simp only
    rw [show 1000 * (n / 1000) = n by omega]
  · rw [if_neg h, if_neg h]

theorem explodeGo_eq (element : Int) (frac : K) (L : List NuclideData) (hL : ∀ d ∈ L, d ∈ materialData) : ∀ new : List (Str × K),
    explodeGo element frac new (L.map fun d => ((d.nucid / 10000 : Nat) : Int)) =
      .ok ((L.map (nuclideEntry element frac)).foldl (fun d e => dictSet d e.1 e.2) new) := by
  induction L with
  | nil => intro new; rfl
  | cons d L ih =>
    intro new
    rw [List.map_cons]
    unfold explodeGo
    rw [abundance_natural (hL d (by simp))]
    exact ih (fun d hd => hL d (by simp [hd])) _

theorem explodeAll_eq (comp : List (Str × K)) (hc : ∀ e ∈ comp, ∃ n : Nat, e.1 = natStr n) : ∀ (keys : List Str) (new : List (Str × K)),
    explodeAll keys new comp = .ok (keys ++ (comp.filter fun e => (elementOf e.1).isSome).map Prod.fst,
      (comp.flatMap newEntries).foldl (fun d e => dictSet d e.1 e.2) new) := by
  induction comp with
  | nil => intro keys new; simp [explodeAll]
  | cons e comp ih =>
    intro keys new
    obtain ⟨nuc, frac⟩ := e
    obtain ⟨n, hn⟩ := hc (nuc, frac) (by simp)
    simp only at hn
    subst hn
    have hc' : ∀ e ∈ comp, ∃ n : Nat, e.1 = natStr n := fun e he => hc e (by simp [he])
    unfold explodeAll
    have hp : pyInt (natStr n) = .ok (n : Int) := pyInt_intStr (n : Int)
    simp only [hp, bind, Except.bind]
    by_cases h : n % 1000 = 0
    · rw [if_pos (by omega)]
      have hg := getNucs_eq (n / 1000)
      rw [show 1000 * (n / 1000) = n by omega] at hg
      rw [hg, explodeGo_eq _ _ _ (fun d hd => (natural_mem hd).1)]
      simp only
      rw [ih hc', List.flatMap_cons, List.foldl_append, newEntries_natStr, if_pos h, List.filter_cons_of_pos (by rw [elementOf_natStr, if_pos h]; rfl)]
      simp
    · rw [if_neg (by omega), ih hc', List.flatMap_cons, newEntries_natStr, if_neg h,
        List.filter_cons_of_neg (by rw [elementOf_natStr, if_neg h]; simp)]
      simp

/-- The composition after `explode_elements`. -/
theorem explode_eq (m : Material K) (hc : ∀ e ∈ m.composition, ∃ n : Nat, e.1 = natStr n) :
    ∃ m', m.explode = .ok m' ∧ m'.name = m.name ∧ m'.number = m.number ∧ m'.density = m.density ∧
      m'.composition = ((m.composition.flatMap newEntries).foldl (fun d e => dictSet d e.1 e.2) []).foldl (fun d e => dictSet d e.1 e.2)
        (m.composition.filter fun e => (elementOf e.1).isNone) := by
  unfold Material.explode
  rw [explodeAll_eq _ hc]
  refine ⟨_, rfl, rfl, rfl, rfl, ?_⟩
  simp only [List.nil_append]
  congr 1
  apply List.filter_congr
  intro e he
  by_cases h : (elementOf e.1).isSome
  · have : e.1 ∈ (m.composition.filter fun e => (elementOf e.1).isSome).map Prod.fst := List.mem_map.2 ⟨e, List.mem_filter.2 ⟨he, h⟩, rfl⟩
    rw [Option.isSome_iff_ne_none] at h
    simp only [this, not_true, decide_false]
    cases hh : elementOf e.1 with
    | none => exact absurd hh h
    | some x => rfl
  · have : e.1 ∉ (m.composition.filter fun e => (elementOf e.1).isSome).map Prod.fst := by
      rintro hm
      obtain ⟨e', he', heq⟩ := List.mem_map.1 hm
      rw [← heq] at h
      exact h (List.mem_filter.1 he').2
    simp only [this, not_false_eq_true, decide_true]
    cases hh : elementOf e.1 with
    | none => rfl
    | some x => rw [hh] at h; simp at h

theorem newEntries_key {e : Str × K} {k : Str} (h : k ∈ (newEntries e).map Prod.fst) :
    ∃ z, elementOf e.1 = some z ∧ ∃ d ∈ natural z, k = natStr (d.nucid / 10000) := by
  unfold newEntries at h
  split at h
  · rename_i z hz
    refine ⟨z, hz, ?_⟩
    simp only [List.map_map, List.mem_map] at h
    obtain ⟨d, hd, rfl⟩ := h
    exact ⟨d, hd, rfl⟩
  · simp at h

theorem newEntries_keys_nodup (comp : List (Str × K)) (hc : Canonical comp) : ((comp.flatMap newEntries).map Prod.fst).Nodup := by
  obtain ⟨hn, hk⟩ := hc
  induction comp with
  | nil => simp
  | cons e comp ih =>
    rw [List.map_cons, List.nodup_cons] at hn
    rw [List.flatMap_cons, List.map_append, List.nodup_append]
    refine ⟨?_, ih hn.2 fun e he => hk e (by simp [he]), ?_⟩
    · unfold newEntries
      split
      · simp only [List.map_map]
        exact natural_nucids_nodup _
      · simp
    · intro a ha b hb heq
      subst heq
      obtain ⟨z, hz, d, hd, rfl⟩ := newEntries_key ha
      obtain ⟨b, hb, hb2⟩ := List.mem_map.1 hb
      obtain ⟨e', he', hb⟩ := List.mem_flatMap.1 hb
      obtain ⟨z', hz', d', hd', hk'⟩ := newEntries_key (List.mem_map_of_mem hb)
      rw [hb2] at hk'
      have h1 := natural_isElement hd
      rw [hk', isElement_natStr] at h1
      have h2 := natural_isElement hd'
      rw [isElement_natStr] at h2
      have hzz : z = z' := by omega
      subst hzz
      obtain ⟨n, hn1⟩ := hk e (by simp)
      obtain ⟨n', hn2⟩ := hk e' (by simp [he'])
      rw [hn1, elementOf_natStr] at hz
      rw [hn2, elementOf_natStr] at hz'
      split at hz
      · split at hz'
        · have hnn : n = n' := by
            have a1 := Option.some.inj hz
            have a2 := Option.some.inj hz'
            omega
          subst hnn
          exact hn.1 (List.mem_map.2 ⟨e', he', hn2.trans hn1.symm⟩)
        · cases hz'
      · cases hz

/-- Without overlap the new entries are put behind what is left. -/
theorem explode_append (m : Material K) (hc : Canonical m.composition) (ho : NoOverlap m.composition) :
    ∃ m', m.explode = .ok m' ∧ m'.name = m.name ∧ m'.number = m.number ∧ m'.density = m.density ∧
      m'.composition = (m.composition.filter fun e => (elementOf e.1).isNone) ++ m.composition.flatMap newEntries := by
  obtain ⟨m', h1, h2, h3, h4, h5⟩ := explode_eq m hc.2
  refine ⟨m', h1, h2, h3, h4, ?_⟩
  have hnd := newEntries_keys_nodup m.composition hc
  rw [dictSet_fold_fresh _ [] hnd (by simp), List.nil_append, dictSet_fold_fresh _ _ hnd] at h5
  · exact h5
  · intro k hk hm
    obtain ⟨b, hb, hb2⟩ := List.mem_map.1 hk
    obtain ⟨e, he, hb⟩ := List.mem_flatMap.1 hb
    obtain ⟨z, hz, d, hd, hk'⟩ := newEntries_key (List.mem_map_of_mem hb)
    rw [hb2] at hk'
    subst hk'
    obtain ⟨n, hn⟩ := hc.2 e he
    rw [hn, elementOf_natStr] at hz
    split at hz
    · have a1 := Option.some.inj hz
      refine ho z ?_ d hd ?_
      · rw [show 1000 * z = n by omega, ← hn]
        exact List.mem_map_of_mem he
      · obtain ⟨e', he', heq⟩ := List.mem_map.1 hm
        rw [← heq]
        exact List.mem_map_of_mem (List.mem_filter.1 he').1
    · cases hz

theorem elementTotal_append (z : Nat) (a b : List (Str × K)) : elementTotal z (a ++ b) = elementTotal z a + elementTotal z b := by
  unfold elementTotal total
  rw [List.filter_append, List.map_append, List.sum_append]

theorem elementTotal_cons (z : Nat) (e : Str × K) (b : List (Str × K)) :
    elementTotal z (e :: b) = (if IsElement z e.1 then e.2 else 0) + elementTotal z b := by
  rw [← List.singleton_append, elementTotal_append]
  refine congrArg (· + elementTotal z b) ?_
  unfold elementTotal total
  by_cases h : IsElement z e.1
  · rw [if_pos h, List.filter_cons_of_pos (by exact decide_eq_true h)]; simp
  · rw [if_neg h, List.filter_cons_of_neg (by rw [decide_eq_false h]; decide)]; simp

theorem elementTotal_all (z : Nat) (l : List (Str × K)) (h : ∀ e ∈ l, IsElement z e.1) : elementTotal z l = (l.map Prod.snd).sum := by
  unfold elementTotal total
  rw [List.filter_eq_self.2 fun e he => decide_eq_true (h e he)]

theorem elementTotal_none (z : Nat) (l : List (Str × K)) (h : ∀ e ∈ l, ¬ IsElement z e.1) : elementTotal z l = 0 := by
  unfold elementTotal total
  rw [List.filter_eq_nil_iff.2 fun e he hd => h e he (of_decide_eq_true hd)]
  rfl

/-- The total of the new entries for one element entry: `r` times the fraction if every entry contributes that. -/
theorem elementTotal_newEntries (z : Nat) (n : Nat) (x : K) :
    elementTotal z (newEntries (natStr n, x)) =
      if n = 1000 * z then ((natural z).map fun d => (nuclideEntry (n : Int) x d).2).sum else 0 := by
  rw [newEntries_natStr]
  by_cases h : n % 1000 = 0
  · rw [if_pos h]
    by_cases hz : n = 1000 * z
    · rw [if_pos hz]
      have : n / 1000 = z := by omega
      rw [this, elementTotal_all]
      · rw [List.map_map]; rfl
      · intro e he
        obtain ⟨d, hd, rfl⟩ := List.mem_map.1 he
        exact natural_isElement hd
    · rw [if_neg hz, elementTotal_none]
      intro e he
      obtain ⟨d, hd, rfl⟩ := List.mem_map.1 he
      have := natural_isElement hd
      simp only [nuclideEntry, isElement_natStr] at this ⊢
      omega
  · rw [if_neg h, if_neg (by omega)]
    rfl

theorem elementTotal_split (z : Nat) (comp : List (Str × K)) :
    elementTotal z comp = elementTotal z (comp.filter fun e => (elementOf e.1).isNone) + elementTotal z (comp.filter fun e => (elementOf e.1).isSome) := by
  induction comp with
  | nil => simp [elementTotal, total]
  | cons e comp ih =>
    by_cases h : (elementOf e.1).isSome
    · rw [List.filter_cons_of_pos (p := fun e : Str × K => (elementOf e.1).isSome) h, List.filter_cons_of_neg (by cases hh : elementOf e.1 <;> simp_all), elementTotal_cons, elementTotal_cons, ih]
      ring
    · rw [List.filter_cons_of_neg (p := fun e : Str × K => (elementOf e.1).isSome) h, List.filter_cons_of_pos (p := fun e : Str × K => (elementOf e.1).isNone) (by cases hh : elementOf e.1 <;> simp_all), elementTotal_cons, elementTotal_cons, ih]
      ring

/-- The total of an element in the exploded composition. -/
theorem elementTotal_flatMap (z : Nat) (comp : List (Str × K)) (hc : ∀ e ∈ comp, ∃ n : Nat, e.1 = natStr n) (r : K)
    (hr : ∀ e ∈ comp, e.1 = natStr (1000 * z) → ((natural z).map fun d => (nuclideEntry ((1000 * z : Nat) : Int) e.2 d).2).sum = r * e.2) :
    elementTotal z (comp.flatMap newEntries) = r * elementTotal z (comp.filter fun e => (elementOf e.1).isSome) := by
  induction comp with
  | nil => simp [elementTotal, total]
  | cons e comp ih =>
    obtain ⟨nuc, x⟩ := e
    obtain ⟨n, hn⟩ := hc (nuc, x) (by simp)
    simp only at hn
    subst hn
    have ih' := ih (fun e he => hc e (by simp [he])) (fun e he => hr e (by simp [he]))
    rw [List.flatMap_cons, elementTotal_append, elementTotal_newEntries, ih']
    by_cases h : n % 1000 = 0
    · rw [List.filter_cons_of_pos (by simp only [elementOf_natStr, if_pos h]; rfl), elementTotal_cons]
      simp only [isElement_natStr]
      by_cases hz : n = 1000 * z
      · subst hz
        rw [if_pos rfl, if_pos (by omega), hr (natStr (1000 * z), x) (by simp) rfl]
        ring
      · rw [if_neg hz, if_neg (by omega)]
        ring
    · rw [List.filter_cons_of_neg (by simp only [elementOf_natStr, if_neg h]; simp), if_neg (by omega)]
      ring

end

end Csg
