import Verif.Lemmas.Explode
import Verif.Spec.Sample
import Verif.Lemmas.Real
import Mathlib.Data.List.TakeWhile
import Mathlib.Algebra.Order.Ring.Abs
import Mathlib.Algebra.Order.Field.Basic
import Mathlib.Tactic.Linarith
import Mathlib.Tactic.Ring
import Mathlib.Algebra.BigOperators.Group.List.Lemmas

/-!
# Compositions: C42, C43, C44, C45, C46, C47, C53
-/

set_option linter.unusedSectionVars false
set_option maxRecDepth 100000

namespace Csg

open Spec

section
variable {K : Type} [Field K]

/-! ## C42: reading a composition -/

private theorem splitOnChar_head (w : Str) : (splitOnChar '.' w)[0]? = some (nuclideOf w) := by
  unfold nuclideOf
  by_cases h : '.' ∈ w
  · obtain ⟨a, b, hab, ha⟩ : ∃ a b, w = a ++ '.' :: b ∧ '.' ∉ a := by
      refine ⟨w.takeWhile (· ≠ '.'), (w.dropWhile (· ≠ '.')).tail, ?_, ?_⟩
      · induction w with
        | nil => simp at h
        | cons c w ih =>
          by_cases hc : c = '.'
          · subst hc; simp
          · have hm : '.' ∈ w := by
              rcases List.mem_cons.1 h with e | e
              · exact absurd e.symm hc
              · exact e
            have := ih hm
            rw [List.takeWhile_cons_of_pos (by simpa using hc), List.dropWhile_cons_of_pos (by simpa using hc), List.cons_append, ← this]
      · intro hm
        have := (List.all_eq_true.1 List.all_takeWhile) _ hm
        simp at this
    subst hab
    rw [splitOnChar_append _ _ _ ha]
    rw [List.takeWhile_append_of_pos (by
      intro c hc
      simp only [ne_eq, decide_not, Bool.not_eq_true', decide_eq_false_iff_not]
      rintro rfl
      exact ha hc)]
    simp
  · rw [splitOnChar_not_mem _ _ h]
    rw [List.takeWhile_eq_self_iff.2 (by
      intro c hc
      simp only [ne_eq, decide_not, Bool.not_eq_true', decide_eq_false_iff_not]
      rintro rfl
      exact h hc)]
    rfl

/-- Adding one entry to a composition. -/
private def addEntry (comp : List (Str × K)) (nuc : Str) (x : K) : List (Str × K) :=
  match comp.lookup nuc with
  | some y => dictSet comp nuc (y + x)
  | none => dictSet comp nuc x

private theorem addEntry_lookup (comp : List (Str × K)) (nuc nuc' : Str) (x : K) :
    ((addEntry comp nuc x).lookup nuc').getD 0 = (comp.lookup nuc').getD 0 + if nuc = nuc' then x else 0 := by
  unfold addEntry
  split
  · rename_i y hy
    rw [lookup_dictSet]
    by_cases h : nuc' = nuc
    · subst h; rw [if_pos rfl, if_pos rfl, hy]; rfl
    · rw [if_neg h, if_neg (fun e => h e.symm), add_zero]
  · rename_i hy
    rw [lookup_dictSet]
    by_cases h : nuc' = nuc
    · subst h; rw [if_pos rfl, if_pos rfl, hy]; simp
    · rw [if_neg h, if_neg (fun e => h e.symm), add_zero]

private theorem addEntry_keys (comp : List (Str × K)) (nuc nuc' : Str) (x : K) :
    nuc' ∈ (addEntry comp nuc x).map Prod.fst ↔ nuc' = nuc ∨ nuc' ∈ comp.map Prod.fst := by
  unfold addEntry
  split <;> exact dictSet_mem_keys

private theorem addEntry_nodup {comp : List (Str × K)} (h : (comp.map Prod.fst).Nodup) (nuc : Str) (x : K) : ((addEntry comp nuc x).map Prod.fst).Nodup := by
  unfold addEntry
  split <;> exact dictSet_nodup h _ _

private theorem compositionGo_spec (io : NumIO K) (entries : List (Str × Str)) (fracs : List K)
    (hf : List.Forall₂ (fun e x => fortranNumber io e.2 = .ok x) entries fracs) : ∀ (comp : List (Str × K)) (xs : List (Str × Str)), (comp.map Prod.fst).Nodup →
    ∃ comp' xs', compositionGo io comp xs (entryWords entries) = .ok (comp', xs') ∧ (comp'.map Prod.fst).Nodup ∧
      (∀ nuc, nuc ∈ comp'.map Prod.fst ↔ nuc ∈ comp.map Prod.fst ∨ ∃ e ∈ entries, nuclideOf e.1 = nuc) ∧
      ∀ nuc, (comp'.lookup nuc).getD 0 = (comp.lookup nuc).getD 0 + given nuc entries fracs := by
  induction hf with
  | nil =>
    intro comp xs h
    refine ⟨comp, xs, rfl, h, by simp, by simp [given]⟩
  | @cons e x entries fracs hx _ ih =>
    intro comp xs h
    obtain ⟨a, b⟩ := e
    have hgo : compositionGo io comp xs (entryWords ((a, b) :: entries)) =
        compositionGo io (addEntry comp (nuclideOf a) x) (dictSet xs (nuclideOf a) (((splitOnChar '.' a)[1]?).getD [])) (entryWords entries) := by
      rw [show entryWords ((a, b) :: entries) = a :: b :: entryWords entries from rfl]
      conv_lhs => unfold compositionGo
      unfold pyGet
      rw [splitOnChar_head]
      simp only [bind, Except.bind]
      simp only at hx
      rw [hx]
      rfl
    rw [hgo]
    obtain ⟨comp', xs', h1, h2, h3, h4⟩ := ih (addEntry comp (nuclideOf a) x) _ (addEntry_nodup h _ _)
    refine ⟨comp', xs', h1, h2, ?_, ?_⟩
    · intro nuc
      rw [h3, addEntry_keys]
      simp only [List.mem_cons, exists_eq_or_imp]
      constructor
      · rintro ((e | e) | e)
        · exact Or.inr (Or.inl e.symm)
        · exact Or.inl e
        · exact Or.inr (Or.inr e)
      · rintro (e | e | e)
        · exact Or.inl (Or.inr e)
        · exact Or.inl (Or.inl e.symm)
        · exact Or.inr e
    · intro nuc
      rw [h4, addEntry_lookup, add_assoc]
      congr 1
      unfold given
      rw [List.zip_cons_cons]
      by_cases hn : nuclideOf a = nuc
      · rw [if_pos hn, List.filter_cons_of_pos (by simpa using hn)]
        simp
      · rw [if_neg hn, List.filter_cons_of_neg (by simpa using hn), zero_add]

/-- C42. If the words of the text that are no keywords are pairs of nuclide and fraction, the composition has every nuclide on the card once, no other, and for each the sum of its
fractions. -/
theorem C42_composition (io : NumIO K) (number text : Str) (entries : List (Str × Str)) (fracs : List K)
    (ht : (split (text.filter (· ≠ '\n'))).filter (fun w => '=' ∉ w) = entryWords entries)
    (hf : List.Forall₂ (fun e x => fortranNumber io e.2 = .ok x) entries fracs) :
    ∃ m, readMaterial io number text = .ok m ∧ m.number = number ∧ (m.composition.map Prod.fst).Nodup ∧
      (∀ nuc, nuc ∈ m.composition.map Prod.fst ↔ ∃ e ∈ entries, nuclideOf e.1 = nuc) ∧
      ∀ nuc x, (nuc, x) ∈ m.composition → x = given nuc entries fracs := by
  have htok : materialTokens text = entryWords entries := by
    unfold materialTokens
    rw [replaceChar_nil_eq_filter, ← ht]
    have : (text.filter fun x => x != '\n') = text.filter (· ≠ '\n') := by
      apply List.filter_congr; intro c _; by_cases h : c = '\n' <;> simp [h]
    rw [this]
    apply List.filter_congr
    intro w _
    simp
  obtain ⟨comp, xs, h1, h2, h3, h4⟩ := compositionGo_spec io entries fracs hf [] [] (by simp)
  unfold readMaterial
  simp only
  rw [htok, if_neg (by
    have : (entryWords entries).length = 2 * entries.length := by
      unfold entryWords
      induction entries with
      | nil => rfl
      | cons e es ih => simp; omega
    omega), h1]
  refine ⟨_, rfl, rfl, h2, ?_, ?_⟩
  · intro nuc
    have := h3 nuc
    simpa using this
  · intro nuc x hx
    have := h4 nuc
    rw [(lookup_iff_mem h2).2 hx] at this
    simpa using this

/-- A card with an odd number of words ends the program. -/
theorem C42_odd (io : NumIO K) (number text : Str) (h : ((split (text.filter (· ≠ '\n'))).filter (fun w => '=' ∉ w)).length % 2 = 1) :
    readMaterial io number text = .error .sysExit := by
  unfold readMaterial
  have htok : materialTokens text = (split (text.filter (· ≠ '\n'))).filter (fun w => '=' ∉ w) := by
    unfold materialTokens
    rw [replaceChar_nil_eq_filter]
    have : (text.filter fun x => x != '\n') = text.filter (· ≠ '\n') := by
      apply List.filter_congr; intro c _; by_cases h : c = '\n' <;> simp [h]
    rw [this]
    apply List.filter_congr
    intro w _
    simp
  simp only
  rw [htok, if_pos (by omega)]

end

/-! ## C43: normalising -/

section
variable {K : Type} [Field K] [LinearOrder K] [IsStrictOrderedRing K]

private theorem foldl_sum (l : List K) : ∀ a : K, l.foldl (· + ·) a = a + l.sum := by
  induction l with
  | nil => intro a; simp
  | cons x l ih => intro a; rw [List.foldl_cons, ih, List.sum_cons, add_assoc]

private theorem normalise_eq (m : Material K) : m.normalise =
    if m.composition ≠ [] ∧ total m.composition = 0 then .error .zeroDivision
    else .ok { m with composition := m.composition.map fun e => (e.1, e.2 / |total m.composition|) } := by
  unfold Material.normalise
  simp only
  rw [foldl_sum, zero_add]
  unfold total
  simp only [abs_eq_zero]

private theorem total_map (l : List (Str × K)) (s : K) : total (l.map fun e => (e.1, e.2 / s)) = total l / s := by
  unfold total
  induction l with
  | nil => simp
  | cons e l ih => simp only [List.map_cons, List.sum_cons, ih]; ring

/-- C43. -/
theorem C43_normalise (m : Material K) (h : total m.composition ≠ 0) :
    ∃ m', m.normalise = .ok m' ∧ m'.composition.map Prod.fst = m.composition.map Prod.fst ∧
      (0 < total m.composition → total m'.composition = 1) ∧ (total m.composition < 0 → total m'.composition = -1) ∧
      (∃ s : K, 0 < s ∧ List.Forall₂ (fun e e' => e'.1 = e.1 ∧ e'.2 * s = e.2) m.composition m'.composition) ∧
      m'.density = m.density ∧ m'.number = m.number ∧ m'.name = m.name ∧ m'.xsid = m.xsid ∧ m'.normalise = .ok m' := by
  have hpos : 0 < |total m.composition| := abs_pos.2 h
  rw [normalise_eq, if_neg (fun hh => h hh.2)]
  have ht : total (m.composition.map fun e => (e.1, e.2 / |total m.composition|)) = total m.composition / |total m.composition| := total_map _ _
  have habs : |(total m.composition / |total m.composition|)| = 1 := by rw [abs_div, abs_abs, div_self hpos.ne']
  refine ⟨_, rfl, by simp [List.map_map, Function.comp_def], ?_, ?_, ⟨_, hpos, ?_⟩, rfl, rfl, rfl, rfl, ?_⟩
  · intro hp
    simp only
    rw [ht, abs_of_pos hp, div_self h]
  · intro hp
    simp only
    rw [ht, abs_of_neg hp, div_neg, div_self h]
  · simp only
    rw [List.forall₂_map_right_iff]
    exact List.forall₂_same.2 fun e _ => ⟨rfl, div_mul_cancel₀ _ hpos.ne'⟩
  · rw [normalise_eq]
    simp only
    rw [ht, habs, if_neg (by
      rintro ⟨-, h0⟩
      rw [div_eq_zero_iff] at h0
      exact h0.elim h hpos.ne')]
    simp

/-- A composition with total zero makes the program fail. -/
theorem C43_zero (m : Material K) : m.normalise = .error .zeroDivision ↔ m.composition ≠ [] ∧ total m.composition = 0 := by
  rw [normalise_eq]
  split
  · simpa
  · rename_i h
    simp only [reduceCtorEq, false_iff]
    exact h

/-! ## C46: the nuclides of an element -/

/-- C46. -/
theorem C46_nuclides (z : Nat) :
    (∀ n : Int, n ∈ getNucs ((1000 * z : Nat) : Int) ↔ ∃ d ∈ materialData, (d.nucid : Int) = n * 10000 ∧ n / 1000 = z) ∧
      (getNucs ((1000 * z : Nat) : Int)).Nodup ∧
      (getNucs ((1000 * z : Nat) : Int) ≠ [] → ((natural z).map NuclideData.abundance).sum = 100) ∧
      ∀ d ∈ natural z, abundance ((d.nucid : Int) / 10000) = .ok d.abundance := by
  rw [getNucs_eq]
  refine ⟨?_, ?_, ?_, ?_⟩
  · intro n
    rw [List.mem_map]
    constructor
    · rintro ⟨d, hd, rfl⟩
      have h1 := natural_mem hd
      have h2 := table_shape d h1.1
      exact ⟨d, h1.1, by omega, by omega⟩
    · rintro ⟨d, hd, h1, h2⟩
      exact ⟨d, List.mem_filter.2 ⟨hd, by simp only [decide_eq_true_eq]; omega⟩, by omega⟩
  · have := natural_nucids_nodup z
    rw [List.nodup_iff_pairwise_ne, List.pairwise_map] at this ⊢
    refine this.imp ?_
    intro a b h e
    exact h (congrArg natStr (by exact_mod_cast e))
  · intro h
    exact natural_total z (by simpa using h)
  · intro d hd
    have := abundance_natural (natural_mem hd).1
    exact_mod_cast this

/-! ## C44: atom fractions -/

private theorem atom_sum (z : Nat) (hz : natural z ≠ []) (x : K) (hx : 0 ≤ x) :
    ((natural z).map fun d => (nuclideEntry ((1000 * z : Nat) : Int) x d).2).sum = 1 * x := by
  have hsum : ∀ l : List NuclideData, (l.map fun d => (nuclideEntry ((1000 * z : Nat) : Int) x d).2).sum = x * (((l.map NuclideData.abundance).sum : ℚ) : K) / 100 := by
    intro l
    induction l with
    | nil => simp
    | cons d l ih =>
      rw [List.map_cons, List.sum_cons, ih, List.map_cons, List.sum_cons]
      simp only [nuclideEntry, if_neg (not_lt.2 hx)]
      push_cast
      ring
  rw [hsum, natural_total z hz]
  push_cast
  rw [mul_div_assoc, div_self (by norm_num), mul_one, one_mul]

/-- C44 for compositions in which the elements have natural nuclides and none of these is listed as well. Missing: the others (`C44_refuted`). -/
theorem C44_atom_fractions_partial (m : Material K) (hc : Canonical m.composition) (ho : NoOverlap m.composition)
    (hpos : ∀ e ∈ m.composition, 0 ≤ e.2) (hnat : ∀ z, natStr (1000 * z) ∈ m.composition.map Prod.fst → natural z ≠ []) :
    ∃ m', m.explode = .ok m' ∧ ∀ z, elementTotal z m'.composition = elementTotal z m.composition := by
  obtain ⟨m', h1, -, -, -, h5⟩ := explode_append m hc ho
  refine ⟨m', h1, fun z => ?_⟩
  rw [h5, elementTotal_append, elementTotal_flatMap z _ hc.2 1, one_mul, ← elementTotal_split]
  intro e he hez
  exact atom_sum z (hnat z (hez ▸ List.mem_map_of_mem he)) e.2 (hpos e he)

/-! ## C45: mass fractions -/

/-- The factor by which the code changes the mass fraction of an element. -/
def Spec.massFactor (z : Nat) : ℚ :=
  ((natural z).map fun d => d.abundance / 100 * atomicMass ((1000 * z : Nat) : Int) / ((d.nucid / 10000 % 1000 : Nat) : ℚ)).sum

private theorem mass_sum (z : Nat) (x : K) (hx : x < 0) :
    ((natural z).map fun d => (nuclideEntry ((1000 * z : Nat) : Int) x d).2).sum = (massFactor z : K) * x := by
  unfold massFactor
  generalize natural z = l
  induction l with
  | nil => simp
  | cons d l ih =>
    rw [List.map_cons, List.sum_cons, ih, List.map_cons, List.sum_cons]
    simp only [nuclideEntry, if_pos hx]
    have : getAA ((d.nucid / 10000 : Nat) : Int) = ((d.nucid / 10000 % 1000 : Nat) : Int) := by unfold getAA; omega
    rw [this]
    generalize atomicMass ((1000 * z : Nat) : Int) = M
    generalize d.nucid / 10000 % 1000 = A
    generalize (List.map _ l : List ℚ).sum = S
    push_cast
    ring

/-- The mass fraction of an element listed as such is multiplied by `massFactor`. Missing: the factor is not 1 (`C45_refuted`). -/
theorem C45_mass_fractions_partial (m : Material K) (hc : Canonical m.composition) (ho : NoOverlap m.composition) (hneg : ∀ e ∈ m.composition, e.2 < 0) :
    ∃ m', m.explode = .ok m' ∧ ∀ z x, (natStr (1000 * z), x) ∈ m.composition →
      elementTotal z m'.composition = (massFactor z : K) * x + (elementTotal z m.composition - x) := by
  obtain ⟨m', h1, -, -, -, h5⟩ := explode_append m hc ho
  refine ⟨m', h1, fun z x hx => ?_⟩
  rw [h5, elementTotal_append, elementTotal_flatMap z _ hc.2 (massFactor z : K) (fun e he _ => mass_sum z e.2 (hneg e he)), elementTotal_split z m.composition]
  have : elementTotal z (m.composition.filter fun e => (elementOf e.1).isSome) = x := by
    obtain ⟨hn, hk⟩ := hc
    generalize m.composition = comp at hx hn hk
    clear hneg ho h1 h5
    have other : ∀ l : List (Str × K), (∀ e ∈ l, ∃ n : Nat, e.1 = natStr n) → natStr (1000 * z) ∉ l.map Prod.fst →
        elementTotal z (l.filter fun e => (elementOf e.1).isSome) = 0 := by
      intro l hl hm
      apply elementTotal_none
      intro e he hel
      rw [List.mem_filter] at he
      obtain ⟨n, hn⟩ := hl e he.1
      rw [hn] at hel he
      rw [isElement_natStr] at hel
      rw [elementOf_natStr] at he
      split at he
      · refine hm (List.mem_map.2 ⟨e, he.1, ?_⟩)
        rw [hn]; congr 1; omega
      · simp at he
    induction comp with
    | nil => simp at hx
    | cons e comp ih =>
      rw [List.map_cons, List.nodup_cons] at hn
      rcases List.mem_cons.1 hx with rfl | hx
      · rw [List.filter_cons_of_pos (by rw [elementOf_natStr, if_pos (by omega)]; rfl), elementTotal_cons, if_pos (isElement_natStr.2 (by omega)),
          other comp (fun e he => hk e (by simp [he])) hn.1, add_zero]
      · have ih' := ih hx hn.2 fun e he => hk e (by simp [he])
        by_cases hs : (elementOf e.1).isSome
        · rw [List.filter_cons_of_pos (p := fun e : Str × K => (elementOf e.1).isSome) hs, elementTotal_cons, ih', if_neg, zero_add]
          intro hel
          obtain ⟨n, hn1⟩ := hk e (by simp)
          rw [hn1, isElement_natStr] at hel
          rw [hn1, elementOf_natStr] at hs
          split at hs
          · refine hn.1 ?_
            rw [hn1, show n = 1000 * z by omega]
            exact List.mem_map_of_mem hx
          · simp at hs
        · rw [List.filter_cons_of_neg (p := fun e : Str × K => (elementOf e.1).isSome) hs, ih']
  rw [this]
  ring

/-! ## C47: presence -/

/-- C47 for compositions whose elements have natural nuclides: every element stays. Missing: elements without natural nuclides (`C47_refuted`). -/
theorem C47_present_partial (m : Material K) (hc : Canonical m.composition) :
    ∃ m', m.explode = .ok m' ∧ ∀ z e, e ∈ m.composition → IsElement z e.1 → (e.1 = natStr (1000 * z) → natural z ≠ []) →
      ∃ e' ∈ m'.composition, IsElement z e'.1 := by
  obtain ⟨m', h1, -, -, -, h5⟩ := explode_eq m hc.2
  refine ⟨m', h1, ?_⟩
  have hkeys : ∀ (new d : List (Str × K)) k, k ∈ (new.foldl (fun d e => dictSet d e.1 e.2) d).map Prod.fst ↔ k ∈ new.map Prod.fst ∨ k ∈ d.map Prod.fst := by
    intro new
    induction new with
    | nil => simp
    | cons e new ih =>
      intro d k
      rw [List.foldl_cons, ih, dictSet_mem_keys, List.map_cons, List.mem_cons]
      tauto
  intro z e he hz hnat
  have hmem : ∀ k, k ∈ m'.composition.map Prod.fst ↔ k ∈ (m.composition.flatMap newEntries).map Prod.fst ∨ k ∈ (m.composition.filter fun e => (elementOf e.1).isNone).map Prod.fst := by
    intro k
    rw [h5, hkeys, hkeys]
    simp
  have give : ∀ k, IsElement z k → k ∈ m'.composition.map Prod.fst → ∃ e' ∈ m'.composition, IsElement z e'.1 := by
    intro k hk hm
    obtain ⟨e', he', rfl⟩ := List.mem_map.1 hm
    exact ⟨e', he', hk⟩
  obtain ⟨n, hn⟩ := hc.2 e he
  by_cases h0 : n % 1000 = 0
  · have hnz : n = 1000 * z := by
      rw [hn, isElement_natStr] at hz; omega
    obtain ⟨d, hd⟩ := List.exists_mem_of_ne_nil _ (hnat (by rw [hn, hnz]))
    refine give (natStr (d.nucid / 10000)) (natural_isElement hd) ((hmem _).2 (Or.inl ?_))
    refine List.mem_map.2 ⟨nuclideEntry (n : Int) e.2 d, List.mem_flatMap.2 ⟨e, he, ?_⟩, rfl⟩
    obtain ⟨nuc, x⟩ := e
    simp only at hn
    subst hn
    rw [newEntries_natStr, if_pos h0, show n / 1000 = z by omega]
    exact List.mem_map_of_mem hd
  · refine give e.1 hz ((hmem _).2 (Or.inr ?_))
    refine List.mem_map_of_mem (List.mem_filter.2 ⟨he, ?_⟩)
    rw [hn, elementOf_natStr, if_neg h0]
    rfl

end

/-- C44 is false: natural carbon is lost next to an entry for carbon 12. -/
theorem C44_refuted : ∃ m m' : Material ℚ, Canonical m.composition ∧ (∀ e ∈ m.composition, 0 ≤ e.2) ∧ m.explode = .ok m' ∧
    elementTotal 6 m.composition = 1 ∧ elementTotal 6 m'.composition = 1 / 2 := by
  refine ⟨{ name := [], number := c!"1", composition := [(c!"6000", 1 / 2), (c!"6012", 1 / 2)], xsid := [], density := 0 },
    { name := [], number := c!"1", composition := [(c!"6012", 9893 / 20000), (c!"6013", 107 / 20000)], xsid := [(c!"6012", []), (c!"6013", [])], density := 0 },
    ⟨by decide, ?_⟩, by decide +kernel, by decide +kernel, by decide +kernel, by decide +kernel⟩
  intro e he
  simp only [List.mem_cons, List.not_mem_nil, or_false] at he
  rcases he with rfl | rfl
  · exact ⟨6000, by decide +kernel⟩
  · exact ⟨6012, by decide +kernel⟩

/-- C45 is false for every element of the table: the factor is never 1. -/
theorem C45_refuted : ∀ z, natural z ≠ [] → ∃ m' : Material ℚ,
    Material.explode ({ name := [], number := c!"1", composition := [(natStr (1000 * z), -1)], xsid := [], density := 0 } : Material ℚ) = .ok m' ∧ elementTotal z m'.composition ≠ -1 := by
  intro z hz
  have hc : Canonical [(natStr (1000 * z), (-1 : ℚ))] := ⟨by simp, by intro e he; rw [List.mem_singleton] at he; exact ⟨_, by rw [he]⟩⟩
  have ho : NoOverlap [(natStr (1000 * z), (-1 : ℚ))] := by
    intro y hy d hd hm
    simp only [List.map_cons, List.map_nil, List.mem_singleton] at hy hm
    have := natStr_injective hm
    have := table_shape d (natural_mem hd).1
    omega
  obtain ⟨m', h1, h2⟩ := C45_mass_fractions_partial ({ name := [], number := c!"1", composition := [(natStr (1000 * z), -1)], xsid := [], density := 0 } : Material ℚ)
    hc ho (by intro e he; rw [List.mem_singleton.1 he]; norm_num)
  refine ⟨m', h1, ?_⟩
  rw [h2 z (-1) (by simp)]
  have htot : elementTotal z [(natStr (1000 * z), (-1 : ℚ))] = -1 := by
    rw [elementTotal_cons, if_pos (isElement_natStr.2 (by omega))]
    simp [elementTotal, total]
  simp only
  rw [htot]
  have hz92 : z ∈ List.range 93 := by
    obtain ⟨d, hd⟩ := List.exists_mem_of_ne_nil _ hz
    have h1 := natural_mem hd
    have := table_shape d h1.1
    rw [List.mem_range]; omega
  have key : ∀ z ∈ List.range 93, natural z ≠ [] → massFactor z ≠ 1 := by decide +kernel
  intro h
  refine key z hz92 hz ?_
  have : (massFactor z : ℚ) * -1 = -1 := by simpa using h
  linarith

/-- C47 is false: technetium vanishes. -/
theorem C47_refuted : ∃ m m' : Material ℚ, Canonical m.composition ∧ m.explode = .ok m' ∧ m.composition = [(c!"43000", 1 / 2), (c!"1001", 1 / 2)] ∧
    m'.composition = [(c!"1001", 1 / 2)] := by
  refine ⟨{ name := [], number := c!"1", composition := [(c!"43000", 1 / 2), (c!"1001", 1 / 2)], xsid := [], density := 0 },
    { name := [], number := c!"1", composition := [(c!"1001", 1 / 2)], xsid := [], density := 0 }, ⟨by decide, ?_⟩, by decide +kernel, rfl, rfl⟩
  intro e he
  simp only [List.mem_cons, List.not_mem_nil, or_false] at he
  rcases he with rfl | rfl
  · exact ⟨43000, by decide +kernel⟩
  · exact ⟨1001, by decide +kernel⟩

/-! ## C53: colours -/

/-- Three numbers up to 255, in decimal. -/
def Spec.IsColour (s : Str) : Prop := ∃ r g b : Nat, r < 256 ∧ g < 256 ∧ b < 256 ∧ s = natStr r ++ ' ' :: natStr g ++ ' ' :: natStr b

private def isColour (s : Str) : Bool :=
  match (split s).map parseNat with
  | [some r, some g, some b] => r < 256 && g < 256 && b < 256 && s == natStr r ++ ' ' :: natStr g ++ ' ' :: natStr b
  | _ => false

/-- C53. -/
theorem C53_colour (idx : Int) : ∃ c, materialColour idx = .ok c ∧ IsColour c := by
  have hall : ∀ c ∈ colours, isColour c = true := by decide +kernel
  have hlen : colours.length = 71 := by decide +kernel
  unfold materialColour
  have h1 := Int.emod_nonneg idx (by decide : (63 : Int) ≠ 0)
  have h2 := Int.emod_lt_of_pos idx (by decide : (0 : Int) < 63)
  obtain ⟨n, hn⟩ := Int.eq_ofNat_of_zero_le h1
  have hlt : n < colours.length := by rw [hlen]; omega
  refine ⟨colours[n], ?_, ?_⟩
  · rw [hn]
    show pyGet colours n = _
    unfold pyGet
    rw [List.getElem?_eq_getElem hlt]
  · have := hall colours[n] (List.getElem_mem hlt)
    unfold isColour at this
    split at this
    · rename_i r g b _
      simp only [Bool.and_eq_true, decide_eq_true_eq, beq_iff_eq] at this
      exact ⟨r, g, b, this.1.1.1, this.1.1.2, this.1.2, this.2⟩
    · cases this

/-! ## Cases that meet the hypotheses -/

example : (split ((c!"1001.70c 2 8016 1\n     1001 1.5 nlib=70c" : Str).filter (· ≠ '\n'))).filter (fun w => '=' ∉ w) =
    entryWords [(c!"1001.70c", c!"2"), (c!"8016", c!"1"), (c!"1001", c!"1.5")] := by decide +kernel

example : (readMaterial sampleIO c!"1" c!"1001.70c 2 8016 1\n     1001 1.5 nlib=70c").map Material.composition =
    .ok [(c!"1001", 35 / 10), (c!"8016", 1)] := by decide +kernel

example : given c!"1001" [(c!"1001.70c", c!"2"), (c!"8016", c!"1"), (c!"1001", c!"1.5")] [2, 1, (3 / 2 : ℚ)] = 7 / 2 := by decide +kernel

example : total [(c!"1001", (2 : ℚ)), (c!"8016", -1), (c!"6000", 3)] ≠ 0 := by decide +kernel

/-- Water with natural hydrogen and oxygen. -/
example : Canonical [(c!"1000", (2 / 3 : ℚ)), (c!"8000", 1 / 3)] ∧ NoOverlap [(c!"1000", (2 / 3 : ℚ)), (c!"8000", 1 / 3)] := by
  refine ⟨⟨by decide, ?_⟩, ?_⟩
  · intro e he
    simp only [List.mem_cons, List.not_mem_nil, or_false] at he
    rcases he with rfl | rfl
    · exact ⟨1000, by decide +kernel⟩
    · exact ⟨8000, by decide +kernel⟩
  · intro z _ d hd hm
    have := table_shape d (natural_mem hd).1
    simp only [List.map_cons, List.map_nil, List.mem_cons, List.not_mem_nil, or_false] at hm
    rw [show (c!"1000" : Str) = natStr 1000 by decide +kernel, show (c!"8000" : Str) = natStr 8000 by decide +kernel] at hm
    rcases hm with hm | hm
    · have := natStr_injective hm; omega
    · have := natStr_injective hm; omega

example : natural 8 ≠ [] ∧ natural 43 = [] := by decide +kernel

example : 1007 / 1000 < massFactor 1 ∧ massFactor 1 < 1008 / 1000 := by decide +kernel

end Csg
