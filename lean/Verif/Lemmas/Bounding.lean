import Verif.Model.Bounding
import Verif.Spec.Box
import Verif.Lemmas.Surface
import Mathlib.Algebra.Order.Ring.Abs
import Mathlib.Tactic.Linarith

namespace Csg

open Spec

variable {K : Type} [Field K] [LinearOrder K] [IsStrictOrderedRing K]

theorem between_of_sq {u c r w : K} (hr : 0 ≤ r) (hw : 0 ≤ w) (h : (u - c) ^ 2 + w - r ^ 2 = 0) :
    c - r ≤ u ∧ u ≤ c + r := by
  have h' : (u - c) ^ 2 ≤ r ^ 2 := by linarith
  have := abs_le.1 (abs_le_of_sq_le_sq h' hr)
  constructor <;> linarith [this.1, this.2]

omit [LinearOrder K] [IsStrictOrderedRing K] in
theorem boundingBox_shape (s : Surface K) (hw : WellFormed s) :
    ∃ x0 x1 y0 y1 z0 z1, s.boundingBox = .ok [x0, x1, y0, y1, z0, z1] := by
  obtain ⟨ty, id, tr, l, bc, bb⟩ := s
  simp only [WellFormed] at hw
  cases ty <;> simp only [arity, Option.some.injEq] at hw
  all_goals first
    | exact ⟨_, _, _, _, _, _, rfl⟩
    | (obtain ⟨a, b, c, d, rfl⟩ := length_four hw.symm; exact ⟨_, _, _, _, _, _, rfl⟩)
    | (obtain ⟨a, b, c, rfl⟩ := length_three hw.symm; exact ⟨_, _, _, _, _, _, rfl⟩)

omit [IsStrictOrderedRing K] in
theorem boundGo_spec (l : List (Surface K)) (hw : ∀ s ∈ l, WellFormed s) :
    ∀ acc : List K, acc.length = 6 → ∃ B, boundGo acc l = .ok B ∧ B.length = 6 ∧ BoxLe acc B ∧
      (∀ s ∈ l, ∃ b, s.boundingBox = .ok b ∧ BoxLe b B) ∧
      ∀ B', BoxLe acc B' → (∀ s ∈ l, ∀ b, s.boundingBox = .ok b → BoxLe b B') → BoxLe B B' := by
  induction l with
  | nil =>
    intro acc ha
    obtain ⟨x0, x1, y0, y1, z0, z1, rfl⟩ := length_six ha
    exact ⟨_, rfl, rfl, ⟨le_refl _, le_refl _, le_refl _, le_refl _, le_refl _, le_refl _⟩, by simp,
      fun B' h _ => h⟩
  | cons s l ih =>
    intro acc ha
    obtain ⟨x0, x1, y0, y1, z0, z1, rfl⟩ := length_six ha
    obtain ⟨u0, u1, v0, v1, w0, w1, hb⟩ := boundingBox_shape s (hw s (by simp))
    have hstep : boundSurface [x0, x1, y0, y1, z0, z1] s =
        .ok [boundStep 0 x0 u0, boundStep 1 x1 u1, boundStep 2 y0 v0, boundStep 3 y1 v1, boundStep 4 z0 w0,
          boundStep 5 z1 w1] := by
      simp [boundSurface, hb, pyGet, bind, Except.bind]
    have lo : ∀ (i : Nat) (a b : K), i % 2 = 0 → boundStep i a b ≤ a ∧ boundStep i a b ≤ b ∧
        (boundStep i a b = a ∨ boundStep i a b = b) := by
      intro i a b hi
      unfold boundStep
      rw [if_pos hi]
      split
      · rename_i h; exact ⟨le_of_lt h, le_refl _, Or.inr rfl⟩
      · rename_i h; exact ⟨le_refl _, not_lt.1 h, Or.inl rfl⟩
    have hi' : ∀ (i : Nat) (a b : K), i % 2 = 1 → a ≤ boundStep i a b ∧ b ≤ boundStep i a b ∧
        (boundStep i a b = a ∨ boundStep i a b = b) := by
      intro i a b hi
      unfold boundStep
      rw [if_neg (by omega)]
      split
      · rename_i h; exact ⟨le_of_lt h, le_refl _, Or.inr rfl⟩
      · rename_i h; exact ⟨le_refl _, not_lt.1 h, Or.inl rfl⟩
    obtain ⟨B, hB, hl, hacc, hmem, hleast⟩ := ih (fun t ht => hw t (by simp [ht])) _
      (rfl : [boundStep 0 x0 u0, boundStep 1 x1 u1, boundStep 2 y0 v0, boundStep 3 y1 v1, boundStep 4 z0 w0,
          boundStep 5 z1 w1].length = 6)
    obtain ⟨p0, p1, q0, q1, r0, r1, rfl⟩ := length_six hl
    obtain ⟨k0, k1, k2, k3, k4, k5⟩ := hacc
    have e0 := lo 0 x0 u0 rfl
    have e1 := hi' 1 x1 u1 rfl
    have e2 := lo 2 y0 v0 rfl
    have e3 := hi' 3 y1 v1 rfl
    have e4 := lo 4 z0 w0 rfl
    have e5 := hi' 5 z1 w1 rfl
    refine ⟨[p0, p1, q0, q1, r0, r1], ?_, rfl, ?_, ?_, ?_⟩
    · simp only [boundGo, hstep, bind, Except.bind]; exact hB
    · exact ⟨k0.trans e0.1, e1.1.trans k1, k2.trans e2.1, e3.1.trans k3, k4.trans e4.1, e5.1.trans k5⟩
    · intro t ht
      rcases List.mem_cons.1 ht with rfl | ht
      · exact ⟨_, hb, k0.trans e0.2.1, e1.2.1.trans k1, k2.trans e2.2.1, e3.2.1.trans k3, k4.trans e4.2.1,
          e5.2.1.trans k5⟩
      · exact hmem t ht
    · intro B' h1 h2
      apply hleast B'
      · have h3 := h2 s (by simp) _ hb
        match B', h1, h3 with
        | [a0, a1, b0, b1, c0, c1], ⟨m0, m1, m2, m3, m4, m5⟩, ⟨n0, n1, n2, n3, n4, n5⟩ =>
          refine ⟨?_, ?_, ?_, ?_, ?_, ?_⟩
          · rcases e0.2.2 with h | h <;> rw [h] <;> assumption
          · rcases e1.2.2 with h | h <;> rw [h] <;> assumption
          · rcases e2.2.2 with h | h <;> rw [h] <;> assumption
          · rcases e3.2.2 with h | h <;> rw [h] <;> assumption
          · rcases e4.2.2 with h | h <;> rw [h] <;> assumption
          · rcases e5.2.2 with h | h <;> rw [h] <;> assumption
      · exact fun t ht => h2 t (by simp [ht])

end Csg
