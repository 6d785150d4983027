import Verif.Lemmas.Explode
import Verif.Lemmas.Processing
import Verif.Lemmas.Reorganise
import Verif.Props.Reorganise
import Verif.Spec.Substance

/-!
# Prepared materials
-/

set_option linter.unusedSectionVars false

namespace Csg

open Spec

section
variable {K : Type} [Field K] [LinearOrder K] [IsStrictOrderedRing K]

private theorem canonical_scale {comp : List (Str × K)} {s : K} (h : Canonical comp) : Canonical (comp.map fun e => (e.1, e.2 / s)) := by
  obtain ⟨h1, h2⟩ := h
  refine ⟨by simpa [List.map_map, Function.comp_def] using h1, ?_⟩
  intro e he
  obtain ⟨a, ha, rfl⟩ := List.mem_map.1 he
  exact h2 a ha

private theorem total_perm {l l' : List (Str × K)} (h : l.Perm l') : total l = total l' := (h.map _).sum_eq

private theorem nuclidesOf_total {comp : List (Str × K)} {parts : List (List (Str × K))} (h : List.Forall₂ NuclidesOf comp parts)
    (hk : ∀ z, natStr (1000 * z) ∈ comp.map Prod.fst → natural z ≠ []) : total parts.flatten = total comp := by
  induction h with
  | nil => rfl
  | @cons e p comp parts he _ ih =>
    have ih := ih fun z hz => hk z (by simp [hz])
    unfold total at *
    rw [List.flatten_cons, List.map_append, List.sum_append, ih, List.map_cons, List.sum_cons]
    congr 1
    rcases he with ⟨z, hz, rfl⟩ | ⟨-, rfl⟩
    · have hn := natural_total z (hk z (by simp [hz]))
      have hsum : ∀ l : List NuclideData, ((l.map fun d => (natStr (d.nucid / 10000), e.2 * ((d.abundance : K) / 100))).map Prod.snd).sum = e.2 * ((((l.map NuclideData.abundance).sum : ℚ) : K) / 100) := by
        intro l
        induction l with
        | nil => simp
        | cons d l ih =>
          rw [List.map_cons, List.map_cons, List.sum_cons, ih, List.map_cons, List.sum_cons]
          push_cast
          ring
      rw [hsum, hn]
      push_cast
      rw [div_self (by norm_num), mul_one]
    · simp

private theorem perm_parts (comp : List (Str × K)) (s : K) (hs : 0 < s) (hc : ∀ e ∈ comp, ∃ n : Nat, e.1 = natStr n) (hp : ∀ e ∈ comp, 0 ≤ e.2) :
    ∃ parts, List.Forall₂ NuclidesOf comp parts ∧
      (((comp.map fun e => (e.1, e.2 / s)).filter fun e => (elementOf e.1).isNone) ++ (comp.map fun e => (e.1, e.2 / s)).flatMap newEntries).Perm (parts.flatten.map fun e => (e.1, e.2 / s)) := by
  induction comp with
  | nil => exact ⟨[], .nil, by simp⟩
  | cons e comp ih =>
    obtain ⟨parts, h1, h2⟩ := ih (fun e he => hc e (by simp [he])) fun e he => hp e (by simp [he])
    obtain ⟨n, hn⟩ := hc e (by simp)
    have he0 := hp e (by simp)
    obtain ⟨k, x⟩ := e
    simp only at hn he0
    subst hn
    by_cases hz : n % 1000 = 0
    · refine ⟨((natural (n / 1000)).map fun d => (natStr (d.nucid / 10000), x * ((d.abundance : K) / 100))) :: parts, .cons (Or.inl ⟨n / 1000, ?_, rfl⟩) h1, ?_⟩
      · simp only
        congr 1
        omega
      · rw [List.map_cons, List.filter_cons_of_neg (by simp [elementOf_natStr, hz]), List.flatMap_cons, newEntries_natStr, if_pos hz, List.flatten_cons, List.map_append]
        refine List.Perm.trans ?_ (List.Perm.append_left _ h2)
        rw [← List.append_assoc, ← List.append_assoc]
        refine List.Perm.append_right _ (List.perm_append_comm.trans ?_)
        refine List.Perm.append_right _ (List.Perm.of_eq ?_)
        rw [List.map_map]
        refine List.map_congr_left fun d _ => ?_
        simp only [nuclideEntry, Function.comp_apply]
        rw [if_neg (not_lt.2 (div_nonneg he0 hs.le))]
        congr 1
        ring
    · refine ⟨[(natStr n, x)] :: parts, .cons (Or.inr ⟨?_, rfl⟩) h1, ?_⟩
      · intro z hz'
        have := natStr_injective hz'
        omega
      · rw [List.map_cons, List.filter_cons_of_pos (by simp [elementOf_natStr, hz]), List.flatMap_cons, newEntries_natStr, if_neg hz, List.nil_append, List.flatten_cons]
        exact List.Perm.cons _ h2

/-- A card with fractions of atoms is prepared, and the prepared material is the same substance. -/
theorem prepared_substance {m : Material K} (h : AtomFractions m.composition) : (∃ m', Prepared m m') ∧ ∀ m', Prepared m m' → SameSubstance m.composition m'.composition := by
  have habs : |((m.composition.map Prod.snd).foldl (· + ·) 0)| = total m.composition := by
    rw [← List.sum_eq_foldl]
    exact abs_of_pos h.total
  have hn : m.normalise = .ok { m with composition := m.composition.map fun e => (e.1, e.2 / total m.composition) } := by
    unfold Material.normalise
    rw [habs]
    simp only
    rw [if_neg (fun hh => h.total.ne' hh.2)]
  have ho : NoOverlap (m.composition.map fun e => (e.1, e.2 / total m.composition)) := by
    have e : (m.composition.map fun e => (e.1, e.2 / total m.composition)).map Prod.fst = m.composition.map Prod.fst := by simp [List.map_map, Function.comp_def]
    unfold NoOverlap
    rw [e]
    exact h.apart
  obtain ⟨m1, h1, -, -, -, h5⟩ := explode_append { m with composition := m.composition.map fun e => (e.1, e.2 / total m.composition) } (canonical_scale h.canonical) ho
  refine ⟨⟨m1, _, m1, hn, h1, rfl⟩, ?_⟩
  rintro m' ⟨n, e, hn', he, hc⟩
  rw [hn] at hn'
  cases hn'
  rw [h1] at he
  cases he
  rw [hc, h5]
  obtain ⟨parts, k1, k2⟩ := perm_parts m.composition (total m.composition) h.total h.canonical.2 h.positive
  refine ⟨⟨parts, k1, k2⟩, ?_⟩
  rw [total_perm k2]
  have : total (parts.flatten.map fun e => (e.1, e.2 / total m.composition)) = total parts.flatten / total m.composition := by
    unfold total
    generalize (m.composition.map Prod.snd).sum = s
    induction parts.flatten with
    | nil => simp
    | cons a l ih => rw [List.map_cons, List.map_cons, List.sum_cons, ih, List.map_cons, List.sum_cons, add_div]
  rw [this, nuclidesOf_total k1 h.known, div_self h.total.ne']

/-! ## Names of materials -/

/-- Materials are listed under their numbers, which are different from each other. -/
def Listed (mats : List (Str × Material K)) : Prop := (mats.map Prod.fst).Nodup ∧ ∀ e ∈ mats, e.2.number = e.1

theorem Listed.set {mats : List (Str × Material K)} (h : Listed mats) {k : Str} {m : Material K} (hm : m.number = k) : Listed (dictSet mats k m) := by
  obtain ⟨h1, h2⟩ := h
  induction mats with
  | nil => exact ⟨by simp [dictSet], by simp [dictSet, hm]⟩
  | cons e mats ih =>
    obtain ⟨k', m'⟩ := e
    rw [List.map_cons, List.nodup_cons] at h1
    unfold dictSet
    split
    · rename_i e
      refine ⟨by rw [List.map_cons, List.nodup_cons]; exact ⟨by simpa [e] using h1.1, h1.2⟩, ?_⟩
      intro x hx
      rcases List.mem_cons.1 hx with rfl | hx
      · simp [hm]
      · exact h2 x (by simp [hx])
    · rename_i e
      obtain ⟨i1, i2⟩ := ih h1.2 fun x hx => h2 x (by simp [hx])
      refine ⟨?_, ?_⟩
      · rw [List.map_cons, List.nodup_cons]
        refine ⟨?_, i1⟩
        rw [dictSet_mem_keys]
        rintro (hh | hh)
        · exact e hh
        · exact h1.1 hh
      · intro x hx
        rcases List.mem_cons.1 hx with rfl | hx
        · exact h2 _ (by simp)
        · exact i2 x hx

private theorem copyMaterials_listed {io : NumIO K} {z : Int} : ∀ {ds : List K} {mats mats' : List (Str × Material K)} {cells cells' : List (Cell K)},
    copyMaterials io z ds mats cells = .ok (mats', cells') → Listed mats → Listed mats' := by
  intro ds
  induction ds with
  | nil => intro mats mats' cells cells' h hl; cases h; exact hl
  | cons x ds ih =>
    intro mats mats' cells cells' h hl
    unfold copyMaterials at h
    split at h
    · cases h
    · exact ih h (hl.set rfl)

private theorem assignDensities_listed {io : NumIO K} : ∀ {md : List (Int × List K)} {mats mats' : List (Str × Material K)} {cells cells' : List (Cell K)},
    assignDensities io md mats cells = .ok (mats', cells') → Listed mats → Listed mats' := by
  intro md
  induction md with
  | nil => intro mats mats' cells cells' h hl; cases h; exact hl
  | cons e md ih =>
    obtain ⟨z, ds⟩ := e
    intro mats mats' cells cells' h hl
    unfold assignDensities at h
    split at h
    · cases h
    · rename_i m hm
      obtain ⟨d0, -, h⟩ := bind_ok h
      obtain ⟨⟨mats1, cells1⟩, hc, h⟩ := bind_ok h
      exact ih h (copyMaterials_listed hc (hl.set (hl.2 _ ((lookup_iff_mem hl.1).1 hm))))

theorem reorganise_listed {io : NumIO K} {mats mats' : List (Str × Material K)} {cells cells' : List (Cell K)} (h : reorganiseMaterials io mats cells = .ok (mats', cells'))
    (hl : Listed mats) : Listed mats' := by
  unfold reorganiseMaterials at h
  obtain ⟨md, -, h⟩ := bind_ok h
  simp only at h
  split at h
  · cases h
    exact hl
  · obtain ⟨⟨mats1, cells1⟩, h1, h⟩ := bind_ok h
    obtain ⟨mats2, h2, h⟩ := bind_ok h
    cases h
    have hl1 := assignDensities_listed h1 hl
    have hf : List.Forall₂ (fun e e' : Str × Material K => e'.1 = e.1 ∧ e'.2.number = e.2.number) mats1 mats' := by
      refine forall₂_imp ?_ (mapM_ok_forall₂ h2)
      intro e e' he
      obtain ⟨m1, k1, he⟩ := bind_ok he
      obtain ⟨m2, k2, he⟩ := bind_ok he
      cases he
      refine ⟨rfl, ?_⟩
      have e1 : m1.number = e.2.number := by
        unfold Material.normalise at k1
        simp only at k1
        split at k1
        · cases k1
        · cases k1; rfl
      have e2 : m2.number = m1.number := by
        unfold Material.explode at k2
        obtain ⟨x, -, k2⟩ := bind_ok k2
        cases k2
        rfl
      rw [e2, e1]
    refine ⟨by rw [forall₂_map_eq (fun _ _ k => k.1) hf]; exact hl1.1, ?_⟩
    intro e' he'
    obtain ⟨e, he, k⟩ := forall₂_right hf e' he'
    rw [k.2, k.1]
    exact hl1.2 e he

end

end Csg
