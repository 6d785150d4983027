import Verif.Spec.Transform
import Verif.Lemmas.Surface
import Mathlib.Algebra.Order.Ring.Cast
import Mathlib.Algebra.CharZero.Defs
import Mathlib.Tactic.Ring
import Mathlib.Algebra.Order.Ring.Defs
import Mathlib.Tactic.LinearCombination

namespace Csg

open Spec

section
variable {K : Type} [Field K] [CharZero K]

theorem transformCoeffs_value (cs : List K) (t : Transform K) (hl : cs.length = 10) :
    ∃ cs', transformCoeffs cs t = .ok cs' ∧ cs'.length = 10 ∧
      ∀ p, value .generalQuadratic cs' p = value .generalQuadratic cs (pullback t p) := by
  obtain ⟨a, b, c, d, e, f, g, h', j, k, rfl⟩ := length_ten hl
  refine ⟨_, rfl, rfl, fun p => ?_⟩
  simp only [value, pullback, matmul, transpose4, Option.some.injEq, Matrix.cons_val]
  ring

/-- Two quadrics with the same values have the same coefficients. -/
theorem gq_coeffs_unique (cs cs' : List K) (hl : cs.length = 10) (hl' : cs'.length = 10)
    (h : ∀ p, value .generalQuadratic cs p = value .generalQuadratic cs' p) : cs = cs' := by
  obtain ⟨a, b, c, d, e, f, g, h', j, k, rfl⟩ := length_ten hl
  obtain ⟨a2, b2, c2, d2, e2, f2, g2, h2, j2, k2, rfl⟩ := length_ten hl'
  simp only [value, Option.some.injEq] at h
  have h0 := h ⟨0, 0, 0⟩
  have hx := h ⟨1, 0, 0⟩
  have hx' := h ⟨-1, 0, 0⟩
  have hy := h ⟨0, 1, 0⟩
  have hy' := h ⟨0, -1, 0⟩
  have hz := h ⟨0, 0, 1⟩
  have hz' := h ⟨0, 0, -1⟩
  have hxy := h ⟨1, 1, 0⟩
  have hyz := h ⟨0, 1, 1⟩
  have hzx := h ⟨1, 0, 1⟩
  simp only at h0 hx hx' hy hy' hz hz' hxy hyz hzx
  have ek : k = k2 := by linear_combination h0
  have ea : a = a2 := by linear_combination (1/2 : K) * hx + (1/2 : K) * hx' - h0
  have eg : g = g2 := by linear_combination (1/2 : K) * hx - (1/2 : K) * hx'
  have eb : b = b2 := by linear_combination (1/2 : K) * hy + (1/2 : K) * hy' - h0
  have eh : h' = h2 := by linear_combination (1/2 : K) * hy - (1/2 : K) * hy'
  have ec : c = c2 := by linear_combination (1/2 : K) * hz + (1/2 : K) * hz' - h0
  have ej : j = j2 := by linear_combination (1/2 : K) * hz - (1/2 : K) * hz'
  have ed : d = d2 := by linear_combination hxy - hx - hy + h0
  have ee : e = e2 := by linear_combination hyz - hy - hz + h0
  have ef : f = f2 := by linear_combination hzx - hx - hz + h0
  rw [ek, ea, eg, eb, eh, ec, ej, ed, ee, ef]

end

section
variable {K : Type} [Field K] [LinearOrder K]

/-- `simplify` keeps the value of a quadric that is not of the exceptional form. -/
theorem simplify_value (s : Surface K) (hty : s.type = .generalQuadratic) (hl : s.coeffs.length = 10)
    (hx : ¬ XZOnly (value s.type s.coeffs)) :
    ∃ s', s.simplify = .ok s' ∧ s'.id = s.id ∧ s'.bc = s.bc ∧ s'.transform = s.transform ∧ WellFormed s' ∧
      IsQuadric s'.type ∧ TwoSheet s' ∧ ∀ p, value s'.type s'.coeffs p = value s.type s.coeffs p := by
  obtain ⟨ty, id, tr, l, bc, bb⟩ := s
  simp only at hty hl hx
  subst hty
  obtain ⟨a, b, c, d, e, f, g, h', j, k, rfl⟩ := length_ten hl
  by_cases h5 : a = 0 ∧ b = 0 ∧ c = 0 ∧ d = 0 ∧ e = 0
  · obtain ⟨rfl, rfl, rfl, rfl, rfl⟩ := h5
    have hf : f = 0 := by
      by_contra hf
      exact hx ⟨f, g, h', j, k, hf, fun p => by simp only [value, Option.some.injEq]; ring⟩
    subst hf
    refine ⟨{ type := .planeGeneral, id := id, transform := tr, coeffs := [g, h', j, -1 * k], bc := bc, bbox := bb },
      ?_, rfl, rfl, rfl, rfl, trivial, trivial, fun p => ?_⟩
    · simp [Surface.simplify, pyGet, bind, Except.bind]
    · simp only [value, Option.some.injEq]; ring
  · refine ⟨_, ?_, rfl, rfl, rfl, rfl, trivial, trivial, fun p => rfl⟩
    have h7 : ¬ (a = 0 ∧ b = 0 ∧ c = 0 ∧ d = 0 ∧ e = 0 ∧ f = 0 ∧ g = 0) := fun h =>
      h5 ⟨h.1, h.2.1, h.2.2.1, h.2.2.2.1, h.2.2.2.2.1⟩
    simp [Surface.simplify, h5, h7]

variable [IsStrictOrderedRing K]

/-- The diagonal of the quadratic part of a surface that is not given as a general quadric. -/
theorem gqCoeffs_diag (s : Surface K) (hw : WellFormed s) (hq : IsQuadric s.type)
    (hng : s.type ≠ .generalQuadratic) :
    ∃ q1 q2 q3 g h j k : K, gqCoeffs s.type s.coeffs = .ok [q1, q2, q3, 0, 0, 0, g, h, j, k] ∧
      ((q1 = 0 ∧ q2 = 0 ∧ q3 = 0) ∨ q1 + q2 + q3 ≠ 0 ∨ (q1 ≠ 0 ∧ q2 ≠ 0 ∧ q3 ≠ 0)) := by
  obtain ⟨ty, id, tr, l, bc, bb⟩ := s
  simp only [WellFormed] at hw
  cases ty <;> simp only [IsQuadric] at hq <;> simp only [arity, Option.some.injEq] at hw
  all_goals first
    | exact absurd rfl hng
    | (obtain ⟨a, b, c, d, rfl⟩ := length_four hw.symm
       refine ⟨_, _, _, _, _, _, _, rfl, ?_⟩; simp)
    | (obtain ⟨a, b, c, rfl⟩ := length_three hw.symm
       refine ⟨_, _, _, _, _, _, _, rfl, Or.inr (Or.inl ?_)⟩; norm_num)
    | (obtain ⟨a, b, c, d, e, rfl⟩ := length_five hw.symm
       refine ⟨_, _, _, _, _, _, _, rfl, Or.inr ?_⟩
       by_cases hd : d = 2
       · right; subst hd; norm_num
       · left; intro h; apply hd; linear_combination -h)

/-- A rigid motion never turns one of the standard surfaces into the exceptional form. -/
theorem not_xzOnly_of_rigid (q1 q2 q3 g h j k : K) (t : Transform K) (hr : Rigid t)
    (hd : (q1 = 0 ∧ q2 = 0 ∧ q3 = 0) ∨ q1 + q2 + q3 ≠ 0 ∨ (q1 ≠ 0 ∧ q2 ≠ 0 ∧ q3 ≠ 0)) :
    ¬ XZOnly (fun p => value .generalQuadratic [q1, q2, q3, 0, 0, 0, g, h, j, k] (pullback t p)) := by
  rintro ⟨f', g', h', j', k', hf, hv⟩
  obtain ⟨⟨s1, s2, s3⟩, ⟨b1, b2, b3⟩, ⟨b4, b5, b6⟩, ⟨b7, b8, b9⟩⟩ := t
  obtain ⟨n1, n2, n3, o12, o13, o23⟩ := hr
  simp only [vecDot] at n1 n2 n3 o12 o13 o23
  simp only [value, pullback, Option.some.injEq] at hv
  have h0 := hv ⟨s1, s2, s3⟩
  have hx := hv ⟨s1 + 1, s2, s3⟩
  have hx' := hv ⟨s1 - 1, s2, s3⟩
  have hy := hv ⟨s1, s2 + 1, s3⟩
  have hy' := hv ⟨s1, s2 - 1, s3⟩
  have hz := hv ⟨s1, s2, s3 + 1⟩
  have hz' := hv ⟨s1, s2, s3 - 1⟩
  have hxy := hv ⟨s1 + 1, s2 + 1, s3⟩
  have hyz := hv ⟨s1, s2 + 1, s3 + 1⟩
  have hzx := hv ⟨s1 + 1, s2, s3 + 1⟩
  simp only at h0 hx hx' hy hy' hz hz' hxy hyz hzx
  -- the second-degree coefficients of both sides
  have ea : q1 * b1 ^ 2 + q2 * b4 ^ 2 + q3 * b7 ^ 2 = 0 := by
    linear_combination (1/2 : K) * hx + (1/2 : K) * hx' - h0
  have eb : q1 * b2 ^ 2 + q2 * b5 ^ 2 + q3 * b8 ^ 2 = 0 := by
    linear_combination (1/2 : K) * hy + (1/2 : K) * hy' - h0
  have ec : q1 * b3 ^ 2 + q2 * b6 ^ 2 + q3 * b9 ^ 2 = 0 := by
    linear_combination (1/2 : K) * hz + (1/2 : K) * hz' - h0
  have ed : q1 * b1 * b2 + q2 * b4 * b5 + q3 * b7 * b8 = 0 := by
    linear_combination (1/2 : K) * (hxy - hx - hy + h0)
  have ee : q1 * b2 * b3 + q2 * b5 * b6 + q3 * b8 * b9 = 0 := by
    linear_combination (1/2 : K) * (hyz - hy - hz + h0)
  have ef : 2 * (q1 * b1 * b3 + q2 * b4 * b6 + q3 * b7 * b9) = f' := by
    linear_combination hzx - hx - hz + h0
  rcases hd with ⟨rfl, rfl, rfl⟩ | htr | ⟨hq1, hq2, hq3⟩
  · exact hf (by linear_combination -ef)
  · apply htr
    linear_combination ea + eb + ec - q1 * n1 - q2 * n2 - q3 * n3
  · have k1 : q1 * b2 = 0 := by
      linear_combination b1 * ed + b2 * eb + b3 * ee - q1 * b2 * n1 - q2 * b5 * o12 - q3 * b8 * o13
    have k2 : q2 * b5 = 0 := by
      linear_combination b4 * ed + b5 * eb + b6 * ee - q1 * b2 * o12 - q2 * b5 * n2 - q3 * b8 * o23
    have k3 : q3 * b8 = 0 := by
      linear_combination b7 * ed + b8 * eb + b9 * ee - q1 * b2 * o13 - q2 * b5 * o23 - q3 * b8 * n3
    have z1 : b2 = 0 := by simpa [hq1] using k1
    have z2 : b5 = 0 := by simpa [hq2] using k2
    have z3 : b8 = 0 := by simpa [hq3] using k3
    subst z1 z2 z3
    have e1 : (b1 * b6 - b3 * b4) ^ 2 = 1 := by
      linear_combination (b4 ^ 2 + b6 ^ 2) * n1 + n2 - (b1 * b4 + b3 * b6) * o12
    have e2 : (b7 * (b1 * b6 - b3 * b4)) = 0 := by linear_combination b6 * o13 - b3 * o23
    have e3 : (b9 * (b1 * b6 - b3 * b4)) = 0 := by linear_combination b1 * o23 - b4 * o13
    have : (1 : K) = 0 := by
      linear_combination -n3 * (b1 * b6 - b3 * b4) ^ 2 + b7 * (b1 * b6 - b3 * b4) * e2 + b9 * (b1 * b6 - b3 * b4) * e3 - e1
    exact one_ne_zero this

end

end Csg
