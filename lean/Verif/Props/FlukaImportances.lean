import Verif.Lemmas.Fluka
import Verif.Lemmas.FlukaNames
import Verif.Model.MaterialWriters
import Verif.Spec.Fluka
import Verif.Spec.Sample
import Mathlib.Tactic.FieldSimp
import Mathlib.Tactic.Linarith
import Mathlib.Tactic.NormNum
import Mathlib.Tactic.Positivity
import Mathlib.Tactic.Ring

/-!
# C75: importances for FLUKA
-/

namespace Csg

open Spec

section
variable {K : Type} [Field K] [LinearOrder K] [IsStrictOrderedRing K]

/-- The smallest importance in the scaling is positive, at most `10⁹`, and below all positive ones. -/
private theorem range_facts (cells : List (Cell K)) : 0 < (flukaRange cells).1 ∧ 0 < (flukaRange cells).2 ∧ (∀ c ∈ cells, 0 < c.importance → (flukaRange cells).2 ≤ c.importance) ∧
    ((flukaRange cells).2 = 1000000000 ∨ ∃ c ∈ cells, 0 < c.importance ∧ (flukaRange cells).2 = c.importance) := by
  have gen : ∀ (cells : List (Cell K)) (r : K × K), 0 < r.1 → 0 < r.2 →
      let q := cells.foldl (fun r c => (if r.1 < c.importance then c.importance else r.1, if 0 < c.importance ∧ c.importance < r.2 then c.importance else r.2)) r
      0 < q.1 ∧ 0 < q.2 ∧ q.2 ≤ r.2 ∧ (∀ c ∈ cells, 0 < c.importance → q.2 ≤ c.importance) ∧ (q.2 = r.2 ∨ ∃ c ∈ cells, 0 < c.importance ∧ q.2 = c.importance) := by
    intro cells
    induction cells with
    | nil => intro r h1 h2; exact ⟨h1, h2, le_refl _, by simp, .inl rfl⟩
    | cons c cells ih =>
      intro r h1 h2
      let r' : K × K := (if r.1 < c.importance then c.importance else r.1, if 0 < c.importance ∧ c.importance < r.2 then c.importance else r.2)
      have h1' : 0 < r'.1 := by
        simp only [r']
        split
        · rename_i h; exact h1.trans h
        · exact h1
      have h2' : 0 < r'.2 := by
        simp only [r']
        split
        · rename_i h; exact h.1
        · exact h2
      obtain ⟨g1, g2, g3, g4, g5⟩ := ih r' h1' h2'
      have hle : r'.2 ≤ r.2 := by
        simp only [r']
        split
        · rename_i h; exact h.2.le
        · exact le_refl _
      have hce : 0 < c.importance → r'.2 ≤ c.importance := by
        intro hp
        simp only [r']
        split
        · exact le_refl _
        · rename_i h
          by_contra hh
          exact h ⟨hp, not_le.1 hh⟩
      refine ⟨g1, g2, g3.trans hle, ?_, ?_⟩
      · intro c' hc' hp
        rcases List.mem_cons.1 hc' with rfl | hc'
        · exact g3.trans (hce hp)
        · exact g4 c' hc' hp
      · rcases g5 with g5 | ⟨c', hc', h, h'⟩
        · by_cases h : 0 < c.importance ∧ c.importance < r.2
          · exact .inr ⟨c, by simp, h.1, g5.trans (if_pos h)⟩
          · exact .inl (g5.trans (if_neg h))
        · exact .inr ⟨c', by simp [hc'], h, h'⟩
  obtain ⟨g1, g2, -, g4, g5⟩ := gen cells (1, 1000000000) (by norm_num) (by norm_num)
  exact ⟨g1, g2, g4, g5⟩

/-- The scaled importance. -/
private theorem bias_eq (cells : List (Cell K)) (c : Cell K) : flukaBias (flukaScale cells) c =
    if 100000 < (if c.importance = 0 then 1 / 10000 else c.importance * (flukaRange cells).2 / 10000) then 100000 else (if c.importance = 0 then 1 / 10000 else c.importance * (flukaRange cells).2 / 10000) := by
  obtain ⟨g1, g2, -, -⟩ := range_facts cells
  unfold flukaBias flukaScale
  have h : c.importance / ((flukaRange cells).1 / ((flukaRange cells).2 * ((flukaRange cells).1 / 10000))) = c.importance * (flukaRange cells).2 / 10000 := by
    have := g1.ne'
    have := g2.ne'
    field_simp
  simp only [h]

omit [Field K] [LinearOrder K] [IsStrictOrderedRing K] in
private theorem biasLine (sci4 : K → Str) (v : K) (c : Cell K) (hid : (intStr c.id).length ≤ 9) (hv : (sci4 v).length ≤ 10 ∧ ' ' ∉ sci4 v ∧ '\n' ∉ sci4 v) :
    ∃ l, ljust 10 c!"BIASING" ++ rjust 10 c!"3.0" ++ rjust 10 c!"1.0" ++ rjust 10 (sci4 v) ++ rjust 10 (c!"C" ++ intStr c.id) ++ rjust 10 [] ++ rjust 10 [] ++ rjust 10 c!"PRINT" ++ c!"\n" = l ++ c!"\n" ∧
      l.length = 80 ∧ '\n' ∉ l ∧ field l 0 = c!"BIASING" ∧ field l 1 = c!"3.0" ∧ field l 2 = c!"1.0" ∧ field l 3 = sci4 v ∧ field l 4 = c!"C" ++ intStr c.id ∧ field l 5 = [] ∧ field l 6 = [] ∧ field l 7 = c!"PRINT" := by
  have hC : (c!"C" ++ intStr c.id).length ≤ 10 := by simpa using hid
  have hCb : ' ' ∉ c!"C" ++ intStr c.id := by simpa using intStr_not_mem c.id (by decide) (by decide)
  let fs : List Str := [ljust 10 c!"BIASING", rjust 10 c!"3.0", rjust 10 c!"1.0", rjust 10 (sci4 v), rjust 10 (c!"C" ++ intStr c.id), rjust 10 [], rjust 10 [], rjust 10 c!"PRINT"]
  have hfs : ∀ f ∈ fs, f.length = 10 := by
    intro f hf
    simp only [fs, List.mem_cons, List.not_mem_nil, or_false] at hf
    rcases hf with rfl | rfl | rfl | rfl | rfl | rfl | rfl | rfl
    · rfl
    · rfl
    · rfl
    · exact rjust_length hv.1
    · exact rjust_length hC
    · rfl
    · rfl
    · rfl
  have F := fun i f h => field_flatten (t := []) hfs (i := i) (f := f) h
  refine ⟨fs.flatten ++ [], by simp [fs], ?_, ?_, ?_, ?_, ?_, ?_, ?_, ?_, ?_, ?_⟩
  · have h1 := rjust_length hv.1
    have h2 := rjust_length hC
    simp only [fs, List.append_nil, List.flatten_cons, List.flatten_nil, List.length_append, h1, h2]
    rfl
  · have hCn : '\n' ∉ intStr c.id := intStr_not_mem c.id (by decide) (by decide)
    simp only [fs, rjust, List.append_nil, List.flatten_cons, List.flatten_nil, List.mem_append, List.mem_replicate, not_or]
    exact ⟨by decide, by decide, by decide, ⟨fun h => absurd h.2 (by decide), hv.2.2⟩, ⟨fun h => absurd h.2 (by decide), by decide, hCn⟩, by decide, by decide, by decide⟩
  · rw [F 0 _ rfl]; decide
  · rw [F 1 _ rfl]; decide
  · rw [F 2 _ rfl]; decide
  · rw [F 3 _ rfl, rjust_filter hv.2.1]
  · rw [F 4 _ rfl, rjust_filter hCb]
  · rw [F 5 _ rfl]; decide
  · rw [F 6 _ rfl]; decide
  · rw [F 7 _ rfl]; decide

/-- C75: there is exactly one BIASING card for each cell, in the order of the cells, with the region of the cell and a value for it. The values of cells with positive importances are positive and at most
`10⁵`, and below this limit they have the ratios of the importances; the largest stays the largest. The importances are zero or at least `10⁻⁴⁰`, so that the exponents have two digits and a number fits in a field. Partial: the values are at least `10⁻⁴`, as FLUKA wants them, only if no importance lies between 0 and 1
(`C75_refuted_range`), ratios are lost above the limit, and a cell of importance zero has the value of a cell with importance one (`C75_refuted_zero`). -/
theorem C75_biasing_partial (sci4 : K → Str) (cells : List (Cell K)) (hid : ∀ c ∈ cells, (intStr c.id).length ≤ 9)
    (himp : ∀ c ∈ cells, c.importance = 0 ∨ 1 / 10 ^ 40 ≤ c.importance) (hsci : ∀ v, 1 / 10 ^ 99 ≤ v → v ≤ 100000 → (sci4 v).length ≤ 10 ∧ ' ' ∉ sci4 v ∧ '\n' ∉ sci4 v) :
    ∃ (value : Cell K → K) (lines : List Str), flukaImportances sci4 cells = lines.flatMap (· ++ c!"\n") ∧
      List.Forall₂ (fun c l => l.length = 80 ∧ '\n' ∉ l ∧ field l 0 = c!"BIASING" ∧ field l 1 = c!"3.0" ∧ field l 2 = c!"1.0" ∧ field l 3 = sci4 (value c) ∧ field l 4 = c!"C" ++ intStr c.id ∧
        field l 5 = [] ∧ field l 6 = [] ∧ field l 7 = c!"PRINT") cells lines ∧
      (∀ c ∈ cells, 0 < c.importance → 0 < value c ∧ value c ≤ 100000) ∧
      (∀ c ∈ cells, ∀ c' ∈ cells, 0 < c.importance → 0 < c'.importance → value c < 100000 → value c' < 100000 → value c * c'.importance = value c' * c.importance) ∧
      (∀ c ∈ cells, ∀ c' ∈ cells, 0 < c.importance → c.importance ≤ c'.importance → value c ≤ value c') ∧
      ((∀ c ∈ cells, 0 < c.importance → 1 ≤ c.importance) → ∀ c ∈ cells, 0 < c.importance → 1 / 10000 ≤ value c) := by
  obtain ⟨g1, g2, g3, g4⟩ := range_facts cells
  have hval : ∀ c : Cell K, 0 < c.importance → flukaBias (flukaScale cells) c = min 100000 (c.importance * (flukaRange cells).2 / 10000) := by
    intro c hc
    rw [bias_eq, if_neg hc.ne']
    split
    · rename_i h; rw [min_eq_left h.le]
    · rename_i h; rw [min_eq_right (not_lt.1 h)]
  have hpos : ∀ c : Cell K, 0 < c.importance → 0 < c.importance * (flukaRange cells).2 / 10000 := fun c hc => div_pos (mul_pos hc g2) (by norm_num)
  have hrange : 1 / 10 ^ 40 ≤ (flukaRange cells).2 := by
    rcases g4 with h | ⟨c, hc, h, h'⟩
    · rw [h]; norm_num
    · rw [h']
      rcases himp c hc with h0 | h0
      · exact absurd h0 h.ne'
      · exact h0
  have hbound : ∀ c ∈ cells, 1 / 10 ^ 99 ≤ flukaBias (flukaScale cells) c ∧ flukaBias (flukaScale cells) c ≤ 100000 := by
    intro c hc
    rcases himp c hc with h0 | h0
    · rw [bias_eq, if_pos h0]
      norm_num
    · have hp : 0 < c.importance := lt_of_lt_of_le (by positivity) h0
      rw [hval c hp]
      refine ⟨le_min (by norm_num) ?_, min_le_left _ _⟩
      have h1 : (1 / 10 ^ 40 : K) * (1 / 10 ^ 40) ≤ c.importance * (flukaRange cells).2 := mul_le_mul h0 hrange (by positivity) hp.le
      rw [le_div_iff₀ (by norm_num)]
      exact le_trans (by norm_num) h1
  have hlines : ∀ cs : List (Cell K), (∀ c ∈ cs, c ∈ cells) → ∃ lines : List Str,
      (cs.flatMap fun c => ljust 10 c!"BIASING" ++ rjust 10 c!"3.0" ++ rjust 10 c!"1.0" ++ rjust 10 (sci4 (flukaBias (flukaScale cells) c)) ++
        rjust 10 (c!"C" ++ intStr c.id) ++ rjust 10 [] ++ rjust 10 [] ++ rjust 10 c!"PRINT" ++ c!"\n") = lines.flatMap (· ++ c!"\n") ∧
      List.Forall₂ (fun c l => l.length = 80 ∧ '\n' ∉ l ∧ field l 0 = c!"BIASING" ∧ field l 1 = c!"3.0" ∧ field l 2 = c!"1.0" ∧ field l 3 = sci4 (flukaBias (flukaScale cells) c) ∧ field l 4 = c!"C" ++ intStr c.id ∧
        field l 5 = [] ∧ field l 6 = [] ∧ field l 7 = c!"PRINT") cs lines := by
    intro cs
    induction cs with
    | nil => intro _; exact ⟨[], rfl, .nil⟩
    | cons c cs ih =>
      intro h
      obtain ⟨lines, e, hl⟩ := ih fun x hx => h x (by simp [hx])
      obtain ⟨l, el, hf⟩ := biasLine sci4 (flukaBias (flukaScale cells) c) c (hid c (h c (by simp))) (hsci _ (hbound c (h c (by simp))).1 (hbound c (h c (by simp))).2)
      refine ⟨l :: lines, ?_, .cons hf hl⟩
      rw [List.flatMap_cons, List.flatMap_cons, e, el]
  obtain ⟨lines, e, hl⟩ := hlines cells fun _ h => h
  refine ⟨flukaBias (flukaScale cells), lines, e, hl, ?_, ?_, ?_, ?_⟩
  · intro c _ hp
    rw [hval c hp]
    exact ⟨lt_min (by norm_num) (hpos c hp), min_le_left _ _⟩
  · intro c _ c' _ hp hp' hlt hlt'
    rw [hval c hp] at hlt ⊢
    rw [hval c' hp'] at hlt' ⊢
    have hne : ∀ x : K, min 100000 x < 100000 → min 100000 x = x := by
      intro x hx
      rcases min_choice 100000 x with h | h
      · rw [h] at hx; exact absurd hx (lt_irrefl _)
      · exact h
    rw [hne _ hlt, hne _ hlt']
    ring
  · intro c _ c' _ hp hle
    rw [hval c hp, hval c' (hp.trans_le hle)]
    apply min_le_min_left
    apply div_le_div_of_nonneg_right _ (by norm_num)
    exact mul_le_mul_of_nonneg_right hle g2.le
  · intro hone c hc hp
    rw [hval c hp]
    apply le_min (by norm_num)
    apply div_le_div_of_nonneg_right _ (by norm_num)
    have h1 : 1 ≤ (flukaRange cells).2 := by
      rcases g4 with h | ⟨c', hc', h, h'⟩
      · rw [h]; norm_num
      · rw [h']; exact hone c' hc' h
    have h2 := hone c hc hp
    calc (1 : K) = 1 * 1 := by ring
      _ ≤ c.importance * (flukaRange cells).2 := mul_le_mul h2 h1 (by norm_num) hp.le

end

/-- Cells of importance 1, 4 and 0. -/
private def biased : List (Cell ℚ) := [{ Cell.blank with id := 1, importance := 1 }, { Cell.blank with id := 2, importance := 4 }, { Cell.blank with id := 3, importance := 0 }]

/-- What is written for them; the format is only a sample. -/
example : (∀ c ∈ biased, (intStr c.id).length ≤ 9) ∧ (∀ c ∈ biased, c.importance = 0 ∨ 1 / 10 ^ 40 ≤ c.importance) ∧ flukaImportances (fun q => natStr (q * 100000).num.toNat ++ c!"e-5") biased =
    c!"BIASING          3.0       1.0     10e-5        C1                         PRINT\nBIASING          3.0       1.0     40e-5        C2                         PRINT\nBIASING          3.0       1.0     10e-5        C3                         PRINT\n" :=
  ⟨by decide, by decide +kernel, by decide +kernel⟩

/-- A cell of importance zero, where no particle is to be followed, is written with the same value as a cell of importance one. -/
theorem C75_refuted_zero : ∃ c ∈ biased, ∃ c' ∈ biased, c.importance = 1 ∧ c'.importance = 0 ∧ flukaBias (flukaScale biased) c = flukaBias (flukaScale biased) c' :=
  ⟨_, List.mem_cons_self, _, by rw [biased]; exact List.mem_cons_of_mem _ (List.mem_cons_of_mem _ List.mem_cons_self), by decide +kernel, by decide +kernel, by decide +kernel⟩

/-- With an importance below one the values leave the range from `10⁻⁴` to `10⁵` that FLUKA allows. -/
theorem C75_refuted_range : ∃ cells : List (Cell ℚ), ∃ c ∈ cells, 0 < c.importance ∧ flukaBias (flukaScale cells) c < 1 / 10000 :=
  ⟨[{ Cell.blank with id := 1, importance := 1 / 2 }], _, List.mem_cons_self, by decide +kernel, by decide +kernel⟩

end Csg
