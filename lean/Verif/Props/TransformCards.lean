import Verif.Model.DataCards
import Verif.Spec.Transform
import Verif.Spec.Sample
import Verif.Lemmas.Py
import Mathlib.Tactic.Linarith
import Mathlib.Tactic.LinearCombination
import Mathlib.Data.List.Forall2

/-!
# TR cards: C41
-/

set_option linter.unusedSectionVars false

namespace Csg

open Spec

section
variable {K : Type} [Field K] [LinearOrder K] [IsStrictOrderedRing K]

private theorem trName_id (degrees : Bool) (n : Str) : sliceFrom (trName degrees n) (findChar 'r' (trName degrees n) + 1) = n := by
  cases degrees
  · exact congrArg (fun i => sliceFrom (c!"tr" ++ n) (i + 1)) (findChar_append 'r' c!"t" n (by decide))
  · exact congrArg (fun i => sliceFrom (c!"*tr" ++ n) (i + 1)) (findChar_append 'r' c!"*t" n (by decide))

private theorem trName_star (degrees : Bool) (n : Str) (hn : '*' ∉ n) : (trName degrees n).elem '*' = degrees := by
  cases degrees
  · simpa [trName] using hn
  · rfl

private theorem float3_ok (io : NumIO K) (tokens : List Str) (i : Nat) {a b c : Str} {x y z : K} (ha : tokens[i]? = some a) (hb : tokens[i + 1]? = some b)
    (hc : tokens[i + 2]? = some c) (hx : io.float a = .ok x) (hy : io.float b = .ok y) (hz : io.float c = .ok z) :
    float3 io tokens i = .ok ⟨x, y, z⟩ := by
  unfold float3 pyGet
  rw [ha, hb, hc]
  simp only [bind, Except.bind]
  rw [hx, hy, hz]

/-- A card with three values: the shift. -/
theorem C41_shift (io : NumIO K) (cosDeg : K → K) (text n : Str) (degrees : Bool) (ws : List Str) (x y z : K)
    (ht : split text = trName degrees n :: ws) (hw : List.Forall₂ (fun w v => io.float w = .ok v) ws [x, y, z]) :
    parseTransform io cosDeg text = .ok (n, ⟨⟨x, y, z⟩, ⟨1, 0, 0⟩, ⟨0, 1, 0⟩, ⟨0, 0, 1⟩⟩) := by
  obtain _ | ⟨h1, _ | ⟨h2, _ | ⟨h3, _ | _⟩⟩⟩ := hw
  unfold parseTransform
  rw [ht]
  simp only [bind, Except.bind, pyGet, List.getElem?_cons_zero]
  rw [float3_ok io _ 1 rfl rfl rfl h1 h2 h3]
  simp [trName_id]

/-- A card with twelve values: shift and the three rows, in degrees with a star. -/
theorem C41_full (io : NumIO K) (cosDeg : K → K) (text n : Str) (degrees : Bool) (ws : List Str) (x y z a1 a2 a3 b1 b2 b3 c1 c2 c3 : K) (hn : '*' ∉ n)
    (ht : split text = trName degrees n :: ws)
    (hw : List.Forall₂ (fun w v => io.float w = .ok v) ws [x, y, z, a1, a2, a3, b1, b2, b3, c1, c2, c3]) :
    parseTransform io cosDeg text =
      .ok (n, ⟨⟨x, y, z⟩, trRow cosDeg degrees a1 a2 a3, trRow cosDeg degrees b1 b2 b3, trRow cosDeg degrees c1 c2 c3⟩) := by
  obtain _ | ⟨h1, _ | ⟨h2, _ | ⟨h3, _ | ⟨h4, _ | ⟨h5, _ | ⟨h6, _ | ⟨h7, _ | ⟨h8, _ | ⟨h9, _ | ⟨h10, _ | ⟨h11, _ | ⟨h12, _ | _⟩⟩⟩⟩⟩⟩⟩⟩⟩⟩⟩⟩ := hw
  unfold parseTransform
  rw [ht]
  simp only [bind, Except.bind, pyGet, List.getElem?_cons_zero]
  rw [float3_ok io _ 1 rfl rfl rfl h1 h2 h3]
  simp only
  rw [if_pos (by simp), float3_ok io _ 4 rfl rfl rfl h4 h5 h6, float3_ok io _ 7 rfl rfl rfl h7 h8 h9, float3_ok io _ 10 rfl rfl rfl h10 h11 h12]
  simp only [trName_id, trName_star _ _ hn, trRow]

private theorem nine (io : NumIO K) (cosDeg : K → K) (text n : Str) (degrees : Bool) (ws : List Str) (x y z a1 a2 a3 b1 b2 b3 : K) (hn : '*' ∉ n)
    (ht : split text = trName degrees n :: ws) (hw : List.Forall₂ (fun w v => io.float w = .ok v) ws [x, y, z, a1, a2, a3, b1, b2, b3]) :
    parseTransform io cosDeg text = .ok (n, ⟨⟨x, y, z⟩, trRow cosDeg degrees a1 a2 a3, trRow cosDeg degrees b1 b2 b3,
      cross (trRow cosDeg degrees a1 a2 a3) (trRow cosDeg degrees b1 b2 b3)⟩) := by
  obtain _ | ⟨h1, _ | ⟨h2, _ | ⟨h3, _ | ⟨h4, _ | ⟨h5, _ | ⟨h6, _ | ⟨h7, _ | ⟨h8, _ | ⟨h9, _ | _⟩⟩⟩⟩⟩⟩⟩⟩⟩ := hw
  unfold parseTransform
  rw [ht]
  simp only [bind, Except.bind, pyGet, List.getElem?_cons_zero]
  rw [float3_ok io _ 1 rfl rfl rfl h1 h2 h3]
  simp only
  rw [if_neg (by simp), if_pos (by simp), float3_ok io _ 4 rfl rfl rfl h4 h5 h6, float3_ok io _ 7 rfl rfl rfl h7 h8 h9]
  simp only [trName_id, trName_star _ _ hn, trRow]

private theorem cross_triad (s v w : Vec3 K) (h1 : vecDot v v = 1) (h2 : vecDot w w = 1) (h12 : vecDot v w = 0) :
    RightHanded ⟨s, v, w, cross v w⟩ ↔ v.x * w.z = v.z * w.x := by
  have lagrange : (v.y * w.z - w.y * v.z) ^ 2 + (v.x * w.z - w.x * v.z) ^ 2 + (v.x * w.y - w.x * v.y) ^ 2 = 1 := by
    simp only [vecDot] at h1 h2 h12
    linear_combination (w.x * w.x + w.y * w.y + w.z * w.z) * h1 + h2 - (v.x * w.x + v.y * w.y + v.z * w.z) * h12
  constructor
  · rintro ⟨-, h⟩
    simp only [vecDot, vectorProduct, cross] at h
    have : (v.x * w.z - v.z * w.x) ^ 2 = 0 := by linear_combination (lagrange - h) / 2
    linear_combination pow_eq_zero_iff (two_ne_zero) |>.1 this
  · intro h
    simp only [vecDot] at h1 h2 h12
    refine ⟨⟨h1, h2, ?_, h12, ?_, ?_⟩, ?_⟩
    · simp only [vecDot, cross]; linear_combination lagrange
    · simp only [vecDot, cross]; linear_combination 2 * v.y * h
    · simp only [vecDot, cross]; linear_combination 2 * w.y * h
    · simp only [vecDot, cross, vectorProduct]; linear_combination lagrange - 2 * (v.x * w.z - v.z * w.x) * h

/-- A card with nine values: the shift and two rows as written. If these are orthonormal, the third row completes them to a right-handed triad exactly if its second
component vanishes. Missing: the other directions, for which the code has the wrong sign in the vector product (`C41_refuted`). -/
theorem C41_two_vectors_partial (io : NumIO K) (cosDeg : K → K) (text n : Str) (degrees : Bool) (ws : List Str) (x y z a1 a2 a3 b1 b2 b3 : K) (hn : '*' ∉ n)
    (ht : split text = trName degrees n :: ws) (hw : List.Forall₂ (fun w v => io.float w = .ok v) ws [x, y, z, a1, a2, a3, b1, b2, b3]) :
    let v1 := trRow cosDeg degrees a1 a2 a3
    let v2 := trRow cosDeg degrees b1 b2 b3
    ∃ t, parseTransform io cosDeg text = .ok (n, t) ∧ t.shift = ⟨x, y, z⟩ ∧ t.v1 = v1 ∧ t.v2 = v2 ∧
      (vecDot v1 v1 = 1 → vecDot v2 v2 = 1 → vecDot v1 v2 = 0 → (RightHanded t ↔ (vectorProduct v1 v2).y = 0)) := by
  intro v1 v2
  refine ⟨_, nine io cosDeg text n degrees ws x y z a1 a2 a3 b1 b2 b3 hn ht hw, rfl, rfl, rfl, ?_⟩
  intro h1 h2 h12
  rw [cross_triad _ _ _ h1 h2 h12]
  simp only [vectorProduct]
  constructor
  · intro h; linear_combination -h
  · intro h; linear_combination -h

end

/-- C41 is false: for the rows z and x the third row is not y but -y. -/
theorem C41_refuted : ∃ t : Transform ℚ, parseTransform sampleIO id c!"tr1 0 0 0 0 0 1 1 0 0" = .ok (c!"1", t) ∧ t.v1 = ⟨0, 0, 1⟩ ∧ t.v2 = ⟨1, 0, 0⟩ ∧
    t.v3 = ⟨0, -1, 0⟩ ∧ ¬ RightHanded t := by
  refine ⟨⟨⟨0, 0, 0⟩, ⟨0, 0, 1⟩, ⟨1, 0, 0⟩, ⟨0, -1, 0⟩⟩, by decide +kernel, rfl, rfl, rfl, ?_⟩
  rintro ⟨-, h⟩
  exact absurd h (by decide +kernel)

/-! ## Cases that meet the hypotheses -/

example : parseTransform sampleIO id c!"tr7 1 2 3" = .ok (c!"7", ⟨⟨1, 2, 3⟩, ⟨1, 0, 0⟩, ⟨0, 1, 0⟩, ⟨0, 0, 1⟩⟩) := by decide +kernel

example : split c!"*tr7 1 2 3 90 0 90\n      180 90 90 90 90 0\n" = trName true c!"7" ::
    [c!"1", c!"2", c!"3", c!"90", c!"0", c!"90", c!"180", c!"90", c!"90", c!"90", c!"90", c!"0"] := by decide +kernel

example : RightHanded (⟨⟨0, 0, 0⟩, ⟨3 / 5, 4 / 5, 0⟩, ⟨-4 / 5, 3 / 5, 0⟩, cross ⟨3 / 5, 4 / 5, 0⟩ ⟨-4 / 5, 3 / 5, 0⟩⟩ : Transform ℚ) :=
  ⟨⟨by decide +kernel, by decide +kernel, by decide +kernel, by decide +kernel, by decide +kernel, by decide +kernel⟩, by decide +kernel⟩

end Csg
