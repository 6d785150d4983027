import Verif.Spec.Macrobody
import Mathlib.Tactic.Ring
import Mathlib.Tactic.Linarith
import Mathlib.Tactic.FieldSimp
import Mathlib.Tactic.LinearCombination
import Mathlib.Algebra.Order.Field.Basic

/-!
# Geometry of boxes and cylinders
-/

set_option linter.unusedSectionVars false

namespace Csg

open Spec

section
variable {K : Type} [Field K] [LinearOrder K] [IsStrictOrderedRing K]

theorem dot_self_pos {a : Point K} (h : dot a a ≠ 0) : 0 < dot a a := by
  have : 0 ≤ dot a a := by unfold dot; nlinarith [mul_self_nonneg a.x, mul_self_nonneg a.y, mul_self_nonneg a.z]
  exact lt_of_le_of_ne this (Ne.symm h)

/-- A point of a cylinder by coordinates along the axis. -/
theorem inCylinder_iff (S R : K → Prop) (b h p : Point K) (hh : dot h h ≠ 0) :
    InCylinder S R b h p ↔
      S (dot (p.sub b) h / dot h h) ∧ R (dot (p.sub b) (p.sub b) - dot (p.sub b) h ^ 2 / dot h h) := by
  constructor
  · rintro ⟨t, q, h1, h2, h3, rfl⟩
    have e1 : dot (((b.add (h.scale t)).add q).sub b) h = t * dot h h := by
      have : dot (((b.add (h.scale t)).add q).sub b) h = t * dot h h + dot q h := by
        simp only [dot, Point.add, Point.sub, Point.scale]; ring
      rw [this, h2, add_zero]
    have e2 : dot (((b.add (h.scale t)).add q).sub b) (((b.add (h.scale t)).add q).sub b) = t ^ 2 * dot h h + dot q q := by
      have : dot (((b.add (h.scale t)).add q).sub b) (((b.add (h.scale t)).add q).sub b) =
          t ^ 2 * dot h h + 2 * t * dot q h + dot q q := by
        simp only [dot, Point.add, Point.sub, Point.scale]; ring
      rw [this, h2]; ring
    rw [e1, e2]
    refine ⟨by rwa [mul_div_assoc, div_self hh, mul_one], ?_⟩
    have : t ^ 2 * dot h h + dot q q - (t * dot h h) ^ 2 / dot h h = dot q q := by field_simp; ring
    rwa [this]
  · rintro ⟨h1, h2⟩
    refine ⟨dot (p.sub b) h / dot h h, (p.sub b).sub (h.scale (dot (p.sub b) h / dot h h)), h1, ?_, ?_, ?_⟩
    · have : dot ((p.sub b).sub (h.scale (dot (p.sub b) h / dot h h))) h = dot (p.sub b) h - dot (p.sub b) h / dot h h * dot h h := by
        generalize dot (p.sub b) h / dot h h = t
        simp only [dot, Point.sub, Point.scale]; ring
      rw [this, div_mul_cancel₀ _ hh, sub_self]
    · have : dot ((p.sub b).sub (h.scale (dot (p.sub b) h / dot h h))) ((p.sub b).sub (h.scale (dot (p.sub b) h / dot h h))) =
          dot (p.sub b) (p.sub b) - dot (p.sub b) h ^ 2 / dot h h := by
        have e : ∀ t, dot ((p.sub b).sub (h.scale t)) ((p.sub b).sub (h.scale t)) =
            dot (p.sub b) (p.sub b) - 2 * t * dot (p.sub b) h + t ^ 2 * dot h h := by
          intro t; simp only [dot, Point.sub, Point.scale]; ring
        rw [e]; field_simp; ring
      rwa [this]
    · generalize dot (p.sub b) h / dot h h = t
      ext <;> simp only [Point.add, Point.sub, Point.scale] <;> ring

/-- Three vectors at right angles, none of them zero, span space. -/
theorem orthogonal_span (a b c : Point K) (ha : dot a a ≠ 0) (hb : dot b b ≠ 0) (hc : dot c c ≠ 0) (hab : dot a b = 0)
    (hbc : dot b c = 0) (hac : dot a c = 0) (q : Point K) :
    q = ((a.scale (dot q a / dot a a)).add (b.scale (dot q b / dot b b))).add (c.scale (dot q c / dot c c)) := by
  obtain ⟨w, hw⟩ : ∃ w : Point K, w = q.sub (((a.scale (dot q a / dot a a)).add (b.scale (dot q b / dot b b))).add
      (c.scale (dot q c / dot c c))) := ⟨_, rfl⟩
  have wa : dot w a = 0 := by
    have : dot w a = dot q a - (dot q a / dot a a * dot a a + dot q b / dot b b * dot a b + dot q c / dot c c * dot a c) := by
      rw [hw]
      generalize dot q a / dot a a = s
      generalize dot q b / dot b b = t
      generalize dot q c / dot c c = u
      simp only [dot, Point.add, Point.sub, Point.scale]; ring
    rw [this, hab, hac, div_mul_cancel₀ _ ha]; ring
  have wb : dot w b = 0 := by
    have : dot w b = dot q b - (dot q a / dot a a * dot a b + dot q b / dot b b * dot b b + dot q c / dot c c * dot b c) := by
      rw [hw]
      generalize dot q a / dot a a = s
      generalize dot q b / dot b b = t
      generalize dot q c / dot c c = u
      simp only [dot, Point.add, Point.sub, Point.scale]; ring
    rw [this, hab, hbc, div_mul_cancel₀ _ hb]; ring
  have wc : dot w c = 0 := by
    have : dot w c = dot q c - (dot q a / dot a a * dot a c + dot q b / dot b b * dot b c + dot q c / dot c c * dot c c) := by
      rw [hw]
      generalize dot q a / dot a a = s
      generalize dot q b / dot b b = t
      generalize dot q c / dot c c = u
      simp only [dot, Point.add, Point.sub, Point.scale]; ring
    rw [this, hac, hbc, div_mul_cancel₀ _ hc]; ring
  obtain ⟨D, hD⟩ : ∃ D, D = a.x * (b.y * c.z - b.z * c.y) + a.y * (b.z * c.x - b.x * c.z) + a.z * (b.x * c.y - b.y * c.x) := ⟨_, rfl⟩
  have hD2 : D ^ 2 = dot a a * dot b b * dot c c := by
    have : D ^ 2 = dot a a * dot b b * dot c c + 2 * dot a b * dot b c * dot a c - dot a a * dot b c ^ 2 - dot b b * dot a c ^ 2 -
        dot c c * dot a b ^ 2 := by
      rw [hD]; simp only [dot]; ring
    rw [this, hab, hbc, hac]; ring
  have hD0 : D ≠ 0 := by
    intro h
    rw [h] at hD2
    have : dot a a * dot b b * dot c c = 0 := by rw [← hD2]; ring
    simp [ha, hb, hc] at this
  have wx : D * w.x = 0 := by
    have : D * w.x = dot w a * (b.y * c.z - b.z * c.y) + dot w b * (c.y * a.z - c.z * a.y) + dot w c * (a.y * b.z - a.z * b.y) := by
      rw [hD]; simp only [dot]; ring
    rw [this, wa, wb, wc]; ring
  have wy : D * w.y = 0 := by
    have : D * w.y = dot w a * (b.z * c.x - b.x * c.z) + dot w b * (c.z * a.x - c.x * a.z) + dot w c * (a.z * b.x - a.x * b.z) := by
      rw [hD]; simp only [dot]; ring
    rw [this, wa, wb, wc]; ring
  have wz : D * w.z = 0 := by
    have : D * w.z = dot w a * (b.x * c.y - b.y * c.x) + dot w b * (c.x * a.y - c.y * a.x) + dot w c * (a.x * b.y - a.y * b.x) := by
      rw [hD]; simp only [dot]; ring
    rw [this, wa, wb, wc]; ring
  have zx : w.x = 0 := by simpa [hD0] using wx
  have zy : w.y = 0 := by simpa [hD0] using wy
  have zz : w.z = 0 := by simpa [hD0] using wz
  rw [hw] at zx zy zz
  simp only [Point.sub] at zx zy zz
  ext
  · linear_combination zx
  · linear_combination zy
  · linear_combination zz

/-- A point of a box by coordinates along the edges. -/
theorem inBox_iff (S : K → Prop) (v a b c p : Point K) (ha : dot a a ≠ 0) (hb : dot b b ≠ 0) (hc : dot c c ≠ 0) (hab : dot a b = 0)
    (hbc : dot b c = 0) (hac : dot a c = 0) :
    InBox S v a b c p ↔ S (dot (p.sub v) a / dot a a) ∧ S (dot (p.sub v) b / dot b b) ∧ S (dot (p.sub v) c / dot c c) := by
  constructor
  · rintro ⟨s, t, u, h1, h2, h3, rfl⟩
    have e1 : dot ((((v.add (a.scale s)).add (b.scale t)).add (c.scale u)).sub v) a = s * dot a a := by
      have : dot ((((v.add (a.scale s)).add (b.scale t)).add (c.scale u)).sub v) a = s * dot a a + t * dot a b + u * dot a c := by
        simp only [dot, Point.add, Point.sub, Point.scale]; ring
      rw [this, hab, hac]; ring
    have e2 : dot ((((v.add (a.scale s)).add (b.scale t)).add (c.scale u)).sub v) b = t * dot b b := by
      have : dot ((((v.add (a.scale s)).add (b.scale t)).add (c.scale u)).sub v) b = s * dot a b + t * dot b b + u * dot b c := by
        simp only [dot, Point.add, Point.sub, Point.scale]; ring
      rw [this, hab, hbc]; ring
    have e3 : dot ((((v.add (a.scale s)).add (b.scale t)).add (c.scale u)).sub v) c = u * dot c c := by
      have : dot ((((v.add (a.scale s)).add (b.scale t)).add (c.scale u)).sub v) c = s * dot a c + t * dot b c + u * dot c c := by
        simp only [dot, Point.add, Point.sub, Point.scale]; ring
      rw [this, hac, hbc]; ring
    rw [e1, e2, e3, mul_div_assoc, div_self ha, mul_div_assoc, div_self hb, mul_div_assoc, div_self hc]
    simpa using ⟨h1, h2, h3⟩
  · rintro ⟨h1, h2, h3⟩
    refine ⟨_, _, _, h1, h2, h3, ?_⟩
    have := orthogonal_span a b c ha hb hc hab hbc hac (p.sub v)
    generalize dot (p.sub v) a / dot a a = s at this ⊢
    generalize dot (p.sub v) b / dot b b = t at this ⊢
    generalize dot (p.sub v) c / dot c c = u at this ⊢
    rw [Point.ext_iff] at this ⊢
    simp only [Point.add, Point.sub, Point.scale] at this ⊢
    obtain ⟨k1, k2, k3⟩ := this
    refine ⟨by linear_combination k1, by linear_combination k2, by linear_combination k3⟩

end

end Csg
