import Verif.Lemmas.Nots
import Mathlib.Data.List.Nodup

/-!
# Cell complements: C21, C22
-/

namespace Csg

open Spec

section
variable {K : Type}

/-! ## C21: `#n` expands to the complement of cell `n` -/

/-- Without cycles expansion ends, leaves no `#` reference, changes only the descriptions, and every cell holds where it held with `#n`
read as the complement of cell `n`. -/
theorem C21_expansion (rank : Int → Nat) (cells : List (Cell K)) (h : Acyclic rank cells) :
    ∃ fuel cells', (∀ more, fuel ≤ more → explodeNots more cells = some (.ok cells')) ∧
      List.Forall₂ (fun c c' => c' = { c with interpreted := c'.interpreted }) cells cells' ∧
      ∀ c ∈ cells', (∀ w ∈ words c.interpreted, '#' ∉ w) ∧ Legal (itemSyms c.interpreted) ∧
        ∀ σ T, IsCellTruth σ T cells → (Holds σ (itemSyms c.interpreted) ↔ T c.id) := by
  obtain ⟨fuel, cells', h1, h2, h3, h4, h5⟩ := explodeFrom_spec cells.length h 0 (by simp) (by simp)
  refine ⟨fuel, cells', fun more hm => explodeFrom_mono hm h1, h5, fun c hc => ⟨h3 c hc, h2.legal c hc, fun σ T hT => ?_⟩⟩
  rw [h4 σ T hT c hc]
  refine holds_congr fun w hw => ?_
  unfold cellSense
  rw [if_neg (h3 c hc w (atom_mem_itemSyms hw))]

/-- Without cycles the meaning of the cells is defined: there is one truth value for each cell. -/
theorem C21_truth_exists_unique (rank : Int → Nat) (cells : List (Cell K)) (h : Acyclic rank cells) (σ : Str → Prop) :
    (∃ T, IsCellTruth σ T cells) ∧ ∀ T T', IsCellTruth σ T cells → IsCellTruth σ T' cells → ∀ c ∈ cells, (T c.id ↔ T' c.id) := by
  refine ⟨⟨fun n => truthAt σ cells (rank n + 1) n, ?_⟩, ?_⟩
  · intro c hc
    show (∃ d ∈ cells, d.id = c.id ∧ Holds (cellSense σ (truthAt σ cells (rank c.id))) (itemSyms d.interpreted)) ↔
      Holds (cellSense σ fun n => truthAt σ cells (rank n + 1) n) (itemSyms c.interpreted)
    constructor
    · rintro ⟨d, hd, hid, hh⟩
      have : d = c := List.inj_on_of_nodup_map h.ids hd hc hid
      subst this
      refine (holds_congr fun w hw => ?_).1 hh
      unfold cellSense
      split
      · rename_i hs
        obtain ⟨n, f, hf, rfl, hfid, hlt⟩ := h.refs d hd w (atom_mem_itemSyms hw) hs
        refine exists_congr fun m => and_congr_right fun hm => ?_
        rw [← refWord_injective hm, ← hfid, truthAt_stable h σ _ f hf rfl _ (rank f.id + 1) hlt (by omega)]
      · exact Iff.rfl
    · intro hh
      refine ⟨c, hc, rfl, (holds_congr fun w hw => ?_).1 hh⟩
      unfold cellSense
      split
      · rename_i hs
        obtain ⟨n, f, hf, rfl, hfid, hlt⟩ := h.refs c hc w (atom_mem_itemSyms hw) hs
        refine exists_congr fun m => and_congr_right fun hm => ?_
        rw [← refWord_injective hm, ← hfid, truthAt_stable h σ _ f hf rfl _ (rank f.id + 1) hlt (by omega)]
      · exact Iff.rfl
  · intro T T' hT hT'
    have : ∀ k, ∀ c ∈ cells, rank c.id = k → (T c.id ↔ T' c.id) := by
      intro k
      induction k using Nat.strong_induction_on with
      | _ k ih =>
        intro c hc hk
        rw [hT c hc, hT' c hc]
        refine holds_congr fun w hw => ?_
        unfold cellSense
        split
        · rename_i hs
          obtain ⟨n, f, hf, rfl, hfid, hlt⟩ := h.refs c hc w (atom_mem_itemSyms hw) hs
          refine exists_congr fun m => and_congr_right fun hm => ?_
          rw [← refWord_injective hm, ← hfid, ih _ (by omega) f hf rfl]
        · exact Iff.rfl
    exact fun c hc => this _ c hc rfl

/-! ## C22: expansion always ends -/

/-- If every `#n` names an existing cell and each cell of a set refers to a cell of the set, expansion does not end. A set without
such a cycle is covered by `C21_expansion`. -/
theorem C22_cycle_diverges (cells : List (Cell K)) (S : Int → Prop)
    (href : ∀ c ∈ cells, ∀ w ∈ words c.interpreted, '#' ∈ w → ∃ n : Nat, ∃ d ∈ cells, w = refWord n ∧ d.id = n)
    (hS : ∀ c ∈ cells, S c.id → ∃ n : Nat, S n ∧ refWord n ∈ words c.interpreted) (hne : ∃ c ∈ cells, S c.id) (fuel : Nat) :
    explodeNots fuel cells = none := by
  rcases explodeFrom_cycle fuel cells.length href hS 0 (by simp) with h | ⟨-, h⟩
  · exact h
  · obtain ⟨c, hc, hs⟩ := hne
    obtain ⟨j, hj⟩ := List.mem_iff_getElem?.1 hc
    exact absurd hs (h j c (by omega) hj)

/-- If every `#n` names an existing cell, expansion raises no exception. -/
theorem C22_no_exception_partial (cells : List (Cell K))
    (href : ∀ c ∈ cells, ∀ w ∈ words c.interpreted, '#' ∈ w → ∃ n : Nat, ∃ d ∈ cells, w = refWord n ∧ d.id = n) (fuel : Nat) (e : PyErr) :
    explodeNots fuel cells ≠ some (.error e) := by
  rcases explodeFrom_cycle (S := fun _ => False) fuel cells.length href (fun _ _ h => h.elim) 0 (by simp) with h | ⟨⟨x, h⟩, -⟩
  · unfold explodeNots; rw [h]; simp
  · unfold explodeNots; rw [h]; simp

/-- Two cells that are the complement of each other. -/
def mutualCells : List (Cell ℤ) :=
  [{ (Cell.blank : Cell ℤ) with id := 1, interpreted := [.op .and, .str c!"#2"] },
   { (Cell.blank : Cell ℤ) with id := 2, interpreted := [.op .and, .str c!"#1", .op .and, .str c!"-3"] }]

/-- The loop does not end for cells that refer to each other. -/
theorem C22_refuted : ∃ cells : List (Cell ℤ), ∀ fuel, explodeNots fuel cells = none := by
  refine ⟨mutualCells, C22_cycle_diverges mutualCells (fun _ => True) ?_ ?_ ⟨_, List.mem_cons_self .., trivial⟩⟩
  · intro c hc w hw hh
    simp only [mutualCells, List.mem_cons, List.not_mem_nil, or_false] at hc
    rcases hc with rfl | rfl
    · simp [words] at hw; subst hw
      exact ⟨2, _, List.mem_cons_of_mem _ (List.mem_cons_self ..), by decide, rfl⟩
    · simp [words] at hw
      rcases hw with rfl | rfl
      · exact ⟨1, _, List.mem_cons_self .., by decide, rfl⟩
      · simp at hh
  · intro c hc _
    simp only [mutualCells, List.mem_cons, List.not_mem_nil, or_false] at hc
    rcases hc with rfl | rfl
    · exact ⟨2, trivial, by decide⟩
    · exact ⟨1, trivial, by decide⟩

end

/-! ## Cases that meet the hypotheses -/

/-- A chain of three cells: 3 refers to 2 twice, 2 to 1. -/
def chainCells : List (Cell ℤ) :=
  [{ (Cell.blank : Cell ℤ) with id := 3, interpreted := [.op .and, .str c!"#2", .op .union, .str c!"(", .str c!"#2", .op .and, .str c!"4", .str c!")"] },
   { (Cell.blank : Cell ℤ) with id := 2, interpreted := [.op .and, .str c!"#1", .op .and, .str c!"-3"] },
   { (Cell.blank : Cell ℤ) with id := 1, interpreted := [.op .and, .str c!"-1"] }]

example : Acyclic (fun z => z.toNat) chainCells := by
  refine ⟨by decide, ?_, ?_⟩
  · intro c hc
    simp only [chainCells, List.mem_cons, List.not_mem_nil, or_false] at hc
    rcases hc with rfl | rfl | rfl
    · exact ⟨_, .union (.one (.single (.atom _))) (.single (.paren (.one (.inter (.single (.atom _)) (.atom _)))))⟩
    · exact ⟨_, .one (.inter (.single (.atom _)) (.atom _))⟩
    · exact ⟨_, .one (.single (.atom _))⟩
  · intro c hc w hw hh
    simp only [chainCells, List.mem_cons, List.not_mem_nil, or_false] at hc
    rcases hc with rfl | rfl | rfl
    · simp [words] at hw
      rcases hw with rfl | rfl | rfl | rfl | rfl
      · exact ⟨2, _, List.mem_cons_of_mem _ (List.mem_cons_self ..), by decide, rfl, by decide⟩
      · simp at hh
      · exact ⟨2, _, List.mem_cons_of_mem _ (List.mem_cons_self ..), by decide, rfl, by decide⟩
      · simp at hh
      · simp at hh
    · simp [words] at hw
      rcases hw with rfl | rfl
      · exact ⟨1, _, List.mem_cons_of_mem _ (List.mem_cons_of_mem _ (List.mem_cons_self ..)), by decide, rfl, by decide⟩
      · simp at hh
    · simp [words] at hw; subst hw; simp at hh

example : (explodeNots 10 chainCells).map (fun r => r.map (fun cells => cells.map fun c => c.interpreted.length)) = some (.ok [28, 8, 2]) := by
  decide +kernel

end Csg
