import Verif.Spec.Geometry

/-!
# Axis-aligned boxes `[xmin, xmax, ymin, ymax, zmin, zmax]`
-/

namespace Csg.Spec

variable {K : Type}

section
variable [LinearOrder K]

/-- The box contains the point. -/
def Within (b : List K) (p : Point K) : Prop :=
  match b with
  | [x0, x1, y0, y1, z0, z1] => x0 ≤ p.x ∧ p.x ≤ x1 ∧ y0 ≤ p.y ∧ p.y ≤ y1 ∧ z0 ≤ p.z ∧ p.z ≤ z1
  | _ => False

/-- The first box lies inside the second, limit by limit. -/
def BoxLe (b B : List K) : Prop :=
  match b, B with
  | [x0, x1, y0, y1, z0, z1], [u0, u1, v0, v1, w0, w1] =>
    u0 ≤ x0 ∧ x1 ≤ u1 ∧ v0 ≤ y0 ∧ y1 ≤ v1 ∧ w0 ≤ z0 ∧ z1 ≤ w1
  | _, _ => False

end

/-- The radius of a sphere or cylinder is not negative. -/
def RadiusNonneg [Zero K] [LE K] (s : Surface K) : Prop :=
  match s.type, s.coeffs with
  | .sphereGeneral, [_, _, _, r] | .cylinderX, [_, _, r] | .cylinderY, [_, _, r] | .cylinderZ, [_, _, r] => 0 ≤ r
  | _, _ => True

/-- The axes along which the surface is bounded. -/
def boundedAxes : SType → Bool × Bool × Bool
  | .planeX => (true, false, false)
  | .planeY => (false, true, false)
  | .planeZ => (false, false, true)
  | .cylinderX => (false, true, true)
  | .cylinderY => (true, false, true)
  | .cylinderZ => (true, true, false)
  | .sphereGeneral => (true, true, true)
  | _ => (false, false, false)

end Csg.Spec
