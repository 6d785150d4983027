import Verif.Spec.Geometry
import Verif.Model.Num
import Verif.Spec.Text

/-!
# The surface equations of the MCNP manual, by mnemonic
-/

namespace Csg.Spec

variable {K : Type} [Field K]

/-- Mnemonics of polynomial surfaces. -/
inductive Mn
  | p | px | py | pz | so | s | sph | sx | sy | sz | cpx | cpy | cpz | cx | cy | cz | kpx | kpy | kpz | kx | ky | kz | sq | gq
  deriving DecidableEq, Repr

/-- The word on the card. -/
def Mn.word : Mn → Str
  | .p => c!"p"
  | .px => c!"px"
  | .py => c!"py"
  | .pz => c!"pz"
  | .so => c!"so"
  | .s => c!"s"
  | .sph => c!"sph"
  | .sx => c!"sx"
  | .sy => c!"sy"
  | .sz => c!"sz"
  | .cpx => c!"c/x"
  | .cpy => c!"c/y"
  | .cpz => c!"c/z"
  | .cx => c!"cx"
  | .cy => c!"cy"
  | .cz => c!"cz"
  | .kpx => c!"k/x"
  | .kpy => c!"k/y"
  | .kpz => c!"k/z"
  | .kx => c!"kx"
  | .ky => c!"ky"
  | .kz => c!"kz"
  | .sq => c!"sq"
  | .gq => c!"gq"

/-- The function whose sign is the sense of a point with respect to a card with the given mnemonic and entries. Cones are two-sheet
cones here, `p` has the four-entry form. -/
def mcnpValue (mn : Mn) (cs : List K) (p : Point K) : Option K :=
  match mn with
  | .p => match cs with
    | [a, b, c, d] => some (a * p.x + b * p.y + c * p.z - d)
    | _ => none
  | .px => match cs with
    | [d] => some (p.x - d)
    | _ => none
  | .py => match cs with
    | [d] => some (p.y - d)
    | _ => none
  | .pz => match cs with
    | [d] => some (p.z - d)
    | _ => none
  | .so => match cs with
    | [r] => some (p.x ^ 2 + p.y ^ 2 + p.z ^ 2 - r ^ 2)
    | _ => none
  | .s => match cs with
    | [x, y, z, r] => some ((p.x - x) ^ 2 + (p.y - y) ^ 2 + (p.z - z) ^ 2 - r ^ 2)
    | _ => none
  | .sph => match cs with
    | [x, y, z, r] => some ((p.x - x) ^ 2 + (p.y - y) ^ 2 + (p.z - z) ^ 2 - r ^ 2)
    | _ => none
  | .sx => match cs with
    | [x, r] => some ((p.x - x) ^ 2 + p.y ^ 2 + p.z ^ 2 - r ^ 2)
    | _ => none
  | .sy => match cs with
    | [y, r] => some (p.x ^ 2 + (p.y - y) ^ 2 + p.z ^ 2 - r ^ 2)
    | _ => none
  | .sz => match cs with
    | [z, r] => some (p.x ^ 2 + p.y ^ 2 + (p.z - z) ^ 2 - r ^ 2)
    | _ => none
  | .cpx => match cs with
    | [y, z, r] => some ((p.y - y) ^ 2 + (p.z - z) ^ 2 - r ^ 2)
    | _ => none
  | .cpy => match cs with
    | [x, z, r] => some ((p.x - x) ^ 2 + (p.z - z) ^ 2 - r ^ 2)
    | _ => none
  | .cpz => match cs with
    | [x, y, r] => some ((p.x - x) ^ 2 + (p.y - y) ^ 2 - r ^ 2)
    | _ => none
  | .cx => match cs with
    | [r] => some (p.y ^ 2 + p.z ^ 2 - r ^ 2)
    | _ => none
  | .cy => match cs with
    | [r] => some (p.x ^ 2 + p.z ^ 2 - r ^ 2)
    | _ => none
  | .cz => match cs with
    | [r] => some (p.x ^ 2 + p.y ^ 2 - r ^ 2)
    | _ => none
  | .kpx => match cs with
    | [x, y, z, t] => some ((p.y - y) ^ 2 + (p.z - z) ^ 2 - t * (p.x - x) ^ 2)
    | _ => none
  | .kpy => match cs with
    | [x, y, z, t] => some ((p.x - x) ^ 2 + (p.z - z) ^ 2 - t * (p.y - y) ^ 2)
    | _ => none
  | .kpz => match cs with
    | [x, y, z, t] => some ((p.x - x) ^ 2 + (p.y - y) ^ 2 - t * (p.z - z) ^ 2)
    | _ => none
  | .kx => match cs with
    | [x, t] => some (p.y ^ 2 + p.z ^ 2 - t * (p.x - x) ^ 2)
    | _ => none
  | .ky => match cs with
    | [y, t] => some (p.x ^ 2 + p.z ^ 2 - t * (p.y - y) ^ 2)
    | _ => none
  | .kz => match cs with
    | [z, t] => some (p.x ^ 2 + p.y ^ 2 - t * (p.z - z) ^ 2)
    | _ => none
  | .sq => match cs with
    | [a, b, c, d, e, f, g, x, y, z] =>
      some (a * (p.x - x) ^ 2 + b * (p.y - y) ^ 2 + c * (p.z - z) ^ 2 + 2 * d * (p.x - x) + 2 * e * (p.y - y) +
        2 * f * (p.z - z) + g)
    | _ => none
  | .gq => match cs with
    | [a, b, c, d, e, f, g, h, j, k] =>
      some (a * p.x ^ 2 + b * p.y ^ 2 + c * p.z ^ 2 + d * p.x * p.y + e * p.y * p.z + f * p.z * p.x +
        g * p.x + h * p.y + j * p.z + k)
    | _ => none

/-- One-sheet cones: the axial coordinate of the apex and the axial coordinate of the point, the value of the double cone, and the
sheet selector. -/
def mcnpCone (mn : Mn) (cs : List K) (p : Point K) : Option (K × K × K × K) :=
  match mn with
  | .kpx => match cs with
    | [x, y, z, t, w] => some (x, p.x, (p.y - y) ^ 2 + (p.z - z) ^ 2 - t * (p.x - x) ^ 2, w)
    | _ => none
  | .kpy => match cs with
    | [x, y, z, t, w] => some (y, p.y, (p.x - x) ^ 2 + (p.z - z) ^ 2 - t * (p.y - y) ^ 2, w)
    | _ => none
  | .kpz => match cs with
    | [x, y, z, t, w] => some (z, p.z, (p.x - x) ^ 2 + (p.y - y) ^ 2 - t * (p.z - z) ^ 2, w)
    | _ => none
  | .kx => match cs with
    | [x, t, w] => some (x, p.x, p.y ^ 2 + p.z ^ 2 - t * (p.x - x) ^ 2, w)
    | _ => none
  | .ky => match cs with
    | [y, t, w] => some (y, p.y, p.x ^ 2 + p.z ^ 2 - t * (p.y - y) ^ 2, w)
    | _ => none
  | .kz => match cs with
    | [z, t, w] => some (z, p.z, p.x ^ 2 + p.y ^ 2 - t * (p.z - z) ^ 2, w)
    | _ => none
  | _ => none

/-- The words of a card stand for these numbers. -/
def Reads (io : NumIO K) (ws : List Str) (cs : List K) : Prop :=
  List.Forall₂ (fun w c => io.parse w = some c) ws cs

/-- The text is a surface card: number, transform number (if any), mnemonic, entries. -/
def IsCard (io : NumIO K) (text : Str) (n : Int) (tr : Option Str) (mn : Str) (ws : List Str) : Prop :=
  ∃ w₀, parseInt w₀ = some n ∧ '*' ∉ w₀ ∧
    match tr with
    | none => Words text (w₀ :: mn :: ws) ∧ io.parse mn = none
    | some t => Words text (w₀ :: t :: mn :: ws) ∧ (io.parse t).isSome = true

/-- The same for a card with a star in front of the number. -/
def IsStarCard (io : NumIO K) (text : Str) (n : Int) (tr : Option Str) (mn : Str) (ws : List Str) : Prop :=
  ∃ w₀, parseInt w₀ = some n ∧ '*' ∉ w₀ ∧
    match tr with
    | none => Words text (('*' :: w₀) :: mn :: ws) ∧ io.parse mn = none
    | some t => Words text (('*' :: w₀) :: t :: mn :: ws) ∧ (io.parse t).isSome = true

/-- Three points on a line: the components of the vector product of two differences vanish. -/
def Collinear (a b c : Point K) : Prop :=
  (b.y - a.y) * (c.z - a.z) - (b.z - a.z) * (c.y - a.y) = 0 ∧
  (b.z - a.z) * (c.x - a.x) - (b.x - a.x) * (c.z - a.z) = 0 ∧
  (b.x - a.x) * (c.y - a.y) - (b.y - a.y) * (c.x - a.x) = 0

/-- MCNP's rule for the sense of the plane `A x + B y + C z = D` given by three points: the origin is on the negative side. If the
plane passes through the origin then the point at infinity on the positive z axis is on the positive side, and if the plane contains it the one
on the y axis, and then the one on the x axis. -/
def PlaneSense [LT K] (A B C D : K) : Prop :=
  0 < D ∨ (D = 0 ∧ (0 < C ∨ (C = 0 ∧ (0 < B ∨ (B = 0 ∧ 0 < A)))))

/-- The coordinate axes. -/
inductive Axis
  | x | y | z
  deriving DecidableEq, Repr

/-- The mnemonic of a surface given by points, by axis of symmetry. -/
def Axis.word : Axis → Str
  | .x => c!"x"
  | .y => c!"y"
  | .z => c!"z"

/-- The coordinate along the axis. -/
def Axis.along (a : Axis) (p : Point K) : K :=
  match a with
  | .x => p.x
  | .y => p.y
  | .z => p.z

/-- The squared distance from the axis. -/
def Axis.dist2 (a : Axis) (p : Point K) : K :=
  match a with
  | .x => p.y ^ 2 + p.z ^ 2
  | .y => p.x ^ 2 + p.z ^ 2
  | .z => p.x ^ 2 + p.y ^ 2

/-- Planes normal to the axis, cylinders and cones around lines parallel to it. -/
def Axis.plane : Axis → SType
  | .x => .planeX
  | .y => .planeY
  | .z => .planeZ
def Axis.cylinder : Axis → SType
  | .x => .cylinderX
  | .y => .cylinderY
  | .z => .cylinderZ
def Axis.cone : Axis → SType
  | .x => .coneX
  | .y => .coneY
  | .z => .coneZ

/-- The cards that MCNP's mnemonics without a sheet selector can express with the stored coefficients: axis planes are normalised, cones have
both sheets. -/
def Expressible (s : Surface K) : Prop :=
  match s.type with
  | .planeX => ∃ d, s.coeffs = [1, 0, 0, d]
  | .planeY => ∃ d, s.coeffs = [0, 1, 0, d]
  | .planeZ => ∃ d, s.coeffs = [0, 0, 1, d]
  | .coneX | .coneY | .coneZ => ∃ x y z t, s.coeffs = [x, y, z, t, 0]
  | .planeGeneral | .sphereGeneral => s.coeffs.length = 4
  | .cylinderX | .cylinderY | .cylinderZ => s.coeffs.length = 3
  | .torusX | .torusY | .torusZ => s.coeffs.length = 6
  | .generalQuadratic => s.coeffs.length = 10
  | .macroRPP | .macroBOX | .macroRCC | .unset => False

end Csg.Spec
