import Verif.Model.Transform
import Verif.Spec.Geometry

/-!
# What a TR card means
-/

namespace Csg.Spec

variable {K : Type} [Field K]

/-- The coordinates of a point in the auxiliary system of a TR card, by the MCNP manual: subtract the displacement, then take
the products with the three rotation rows. -/
def pullback (t : Transform K) (p : Point K) : Point K :=
  { x := t.v1.x * (p.x - t.shift.x) + t.v1.y * (p.y - t.shift.y) + t.v1.z * (p.z - t.shift.z)
    y := t.v2.x * (p.x - t.shift.x) + t.v2.y * (p.y - t.shift.y) + t.v2.z * (p.z - t.shift.z)
    z := t.v3.x * (p.x - t.shift.x) + t.v3.y * (p.y - t.shift.y) + t.v3.z * (p.z - t.shift.z) }

/-- Scalar product. -/
def vecDot (v w : Vec3 K) : K := v.x * w.x + v.y * w.y + v.z * w.z

/-- The rotation rows are orthonormal: the transform is a rigid motion. -/
structure Rigid (t : Transform K) : Prop where
  n1 : vecDot t.v1 t.v1 = 1
  n2 : vecDot t.v2 t.v2 = 1
  n3 : vecDot t.v3 t.v3 = 1
  o12 : vecDot t.v1 t.v2 = 0
  o13 : vecDot t.v1 t.v3 = 0
  o23 : vecDot t.v2 t.v3 = 0

/-- The vector product. -/
def vectorProduct (v w : Vec3 K) : Vec3 K :=
  ⟨v.y * w.z - v.z * w.y, v.z * w.x - v.x * w.z, v.x * w.y - v.y * w.x⟩

/-- A polynomial whose only term of degree two is a non-zero multiple of `x z`. -/
def XZOnly (F : Point K → Option K) : Prop :=
  ∃ f g h j k : K, f ≠ 0 ∧ ∀ p, F p = some (f * p.z * p.x + g * p.x + h * p.y + j * p.z + k)

/-- The first word of a card for transform `n`, with or without the star for degrees. -/
def trName (degrees : Bool) (n : Str) : Str := if degrees then c!"*tr" ++ n else c!"tr" ++ n

/-- A rotation row as written: cosines, or angles in degrees. -/
def trRow (cosDeg : K → K) (degrees : Bool) (x y z : K) : Vec3 K := if degrees then ⟨cosDeg x, cosDeg y, cosDeg z⟩ else ⟨x, y, z⟩

/-- Orthonormal rows with determinant 1. -/
def RightHanded (t : Transform K) : Prop := Rigid t ∧ vecDot (vectorProduct t.v1 t.v2) t.v3 = 1

end Csg.Spec
