import Verif.Model.Surface

/-!
# What a surface card means

The sense of a point with respect to a surface, written down from the MCNP manual (surface equations in terms of the
coefficients in the order in which the code stores them). Nothing here refers to functions of the model.
-/

namespace Csg.Spec

/-- A point of space. -/
@[ext] structure Point (K : Type) where
  x : K
  y : K
  z : K
  deriving DecidableEq

/-- The three senses of a point with respect to a surface. -/
inductive Side
  | neg | on | pos
  deriving DecidableEq, Repr

/-- The opposite sense. -/
def Side.flip : Side → Side
  | .neg => .pos
  | .on => .on
  | .pos => .neg

section
variable {K : Type} [Field K]

/-- The defining polynomial of a surface that has one. The value is `none` for tori, macrobodies and unset cards and for coefficient
lists of the wrong length. For cones this is the polynomial of the double cone. -/
def value : SType → List K → Point K → Option K
  | .planeX, [_, _, _, d], p => some (p.x - d)
  | .planeY, [_, _, _, d], p => some (p.y - d)
  | .planeZ, [_, _, _, d], p => some (p.z - d)
  | .planeGeneral, [a, b, c, d], p => some (a * p.x + b * p.y + c * p.z - d)
  | .sphereGeneral, [x, y, z, r], p => some ((p.x - x) ^ 2 + (p.y - y) ^ 2 + (p.z - z) ^ 2 - r ^ 2)
  | .cylinderX, [y, z, r], p => some ((p.y - y) ^ 2 + (p.z - z) ^ 2 - r ^ 2)
  | .cylinderY, [x, z, r], p => some ((p.x - x) ^ 2 + (p.z - z) ^ 2 - r ^ 2)
  | .cylinderZ, [x, y, r], p => some ((p.x - x) ^ 2 + (p.y - y) ^ 2 - r ^ 2)
  | .coneX, [x, y, z, t, _], p => some ((p.y - y) ^ 2 + (p.z - z) ^ 2 - t * (p.x - x) ^ 2)
  | .coneY, [x, y, z, t, _], p => some ((p.x - x) ^ 2 + (p.z - z) ^ 2 - t * (p.y - y) ^ 2)
  | .coneZ, [x, y, z, t, _], p => some ((p.x - x) ^ 2 + (p.y - y) ^ 2 - t * (p.z - z) ^ 2)
  | .generalQuadratic, [a, b, c, d, e, f, g, h, j, k], p =>
    some (a * p.x ^ 2 + b * p.y ^ 2 + c * p.z ^ 2 + d * p.x * p.y + e * p.y * p.z + f * p.z * p.x +
      g * p.x + h * p.y + j * p.z + k)
  | _, _, _ => none

/-- The sheet selector of a cone with five coefficients: the axial offset from the apex multiplied by the selector.
`none` for everything else. -/
def sheet : SType → List K → Point K → Option (K × K)
  | .coneX, [x, _, _, _, s], p => some (s, s * (p.x - x))
  | .coneY, [_, y, _, _, s], p => some (s, s * (p.y - y))
  | .coneZ, [_, _, z, _, s], p => some (s, s * (p.z - z))
  | _, _, _ => none

/-- The elliptic torus function of the MCNP manual, for a square root function. -/
def torusValue (sqrt : K → K) : SType → List K → Point K → Option K
  | .torusX, [x, y, z, a, b, c], p =>
    some ((p.x - x) ^ 2 / b ^ 2 + (sqrt ((p.y - y) ^ 2 + (p.z - z) ^ 2) - a) ^ 2 / c ^ 2 - 1)
  | .torusY, [x, y, z, a, b, c], p =>
    some ((p.y - y) ^ 2 / b ^ 2 + (sqrt ((p.x - x) ^ 2 + (p.z - z) ^ 2) - a) ^ 2 / c ^ 2 - 1)
  | .torusZ, [x, y, z, a, b, c], p =>
    some ((p.z - z) ^ 2 / b ^ 2 + (sqrt ((p.x - x) ^ 2 + (p.y - y) ^ 2) - a) ^ 2 / c ^ 2 - 1)
  | _, _, _ => none

variable [LinearOrder K]

/-- The side on which a value lies. -/
def sideOf (v : K) : Side := if v < 0 then .neg else if v = 0 then .on else .pos

/-- The side of a one-sheet cone: `u` is the axial offset towards the selected nappe, `v` the value of the double cone. Only the
selected nappe bounds; the other one belongs to the outside. -/
def nappeSide (u v : K) : Side :=
  if v < 0 ∧ 0 < u then .neg else if v = 0 ∧ 0 ≤ u then .on else .pos

/-- The sense of a point with respect to a surface. `none` if the card has no meaning as a surface. -/
def side (sqrt : K → K) (ty : SType) (cs : List K) (p : Point K) : Option Side :=
  match torusValue sqrt ty cs p, value ty cs p, sheet ty cs p with
  | some t, _, _ => some (sideOf t)
  | none, some v, some (s, u) => if s = 0 then some (sideOf v) else some (nappeSide u v)
  | none, some v, none => some (sideOf v)
  | none, none, _ => none

end

/-- The number of coefficients each type carries. -/
def arity : SType → Option Nat
  | .planeGeneral | .planeX | .planeY | .planeZ | .sphereGeneral => some 4
  | .cylinderX | .cylinderY | .cylinderZ => some 3
  | .coneX | .coneY | .coneZ => some 5
  | .torusX | .torusY | .torusZ => some 6
  | .generalQuadratic => some 10
  | .macroRPP => some 6
  | .macroBOX => some 12
  | .macroRCC => some 7
  | .unset => none

/-- A card with the right number of coefficients for its type. -/
def WellFormed {K : Type} (s : Surface K) : Prop := arity s.type = some s.coeffs.length

/-- The polynomial surfaces: everything but tori, macrobodies and unset cards. -/
def IsQuadric : SType → Prop
  | .torusX | .torusY | .torusZ | .macroRPP | .macroBOX | .macroRCC | .unset => False
  | _ => True

/-- Not a one-sheet cone: cones carry the sheet selector 0. -/
def TwoSheet {K : Type} [Zero K] (s : Surface K) : Prop :=
  match s.type, s.coeffs with
  | .coneX, [_, _, _, _, w] | .coneY, [_, _, _, _, w] | .coneZ, [_, _, _, _, w] => w = 0
  | _, _ => True

end Csg.Spec
