import Verif.Model.Py
import Mathlib.Algebra.Order.Field.Basic

/-!
# `SurfaceCard.py`: generic surfaces

Coefficients are elements of a linearly ordered field `K` instead of floats. `surface_coefficients[i]` is
`pyGet`, so short coefficient lists raise `IndexError` as in Python.
-/

namespace Csg

/-- `SurfaceCard.BoundaryCondition` (SurfaceCard.py 15-20). -/
inductive BC
  | transmission | vacuum | reflecting | periodic | white
  deriving DecidableEq, Repr

/-- `SurfaceCard.SurfaceType` (SurfaceCard.py 22-40). `unset` is the integer 0 that the constructor stores
(line 44) and that stays when no `classify` branch applies. -/
inductive SType
  | planeGeneral | planeX | planeY | planeZ
  | cylinderX | cylinderY | cylinderZ
  | sphereGeneral
  | coneX | coneY | coneZ
  | torusX | torusY | torusZ
  | generalQuadratic
  | macroRPP | macroBOX | macroRCC
  | unset
  deriving DecidableEq, Repr

/-- The fields of a surface card (SurfaceCard.py 43-51). `transform` is `none` for the integer 0 and the
token of the card otherwise. The comment and the source text are left out. -/
structure Surface (K : Type) where
  type : SType
  id : Int
  transform : Option Str
  coeffs : List K
  bc : BC
  bbox : List K
  deriving DecidableEq, Repr

section
variable {K : Type}

/-- A card as the constructor leaves it (SurfaceCard.py 43-51). -/
def Surface.blank [Zero K] : Surface K :=
  { type := .unset, id := 0, transform := none, coeffs := [], bc := .transmission,
    bbox := [0, 0, 0, 0, 0, 0] }

/-- `set_type` (SurfaceCard.py 114-118). -/
def Surface.setType (s : Surface K) (id : Int) (tr : Option Str) (ty : SType) (cs : List K) : Surface K :=
  { s with id := id, transform := tr, type := ty, coeffs := cs }

/-- `is_macrobody` (SurfaceCard.py 121-128). -/
def Surface.isMacrobody (s : Surface K) : Bool :=
  s.type == .macroRPP || s.type == .macroBOX || s.type == .macroRCC

/-- `reverse` (SurfaceCard.py 109-112). -/
def Surface.reverse [Neg K] (s : Surface K) : Surface K :=
  { s with coeffs := s.coeffs.map fun x => -x }

/-- The types that `generalise` leaves alone (SurfaceCard.py 283-288). -/
def SType.isTorus : SType → Bool
  | .torusX | .torusY | .torusZ => true
  | _ => false

variable [Field K]

/-- The ten quadric coefficients computed by `generalise` (SurfaceCard.py 174-290). Every branch lists
`[a, b, c, d, e, f, g, h, j, k]`. The last branch (macrobodies, unclassified) prints a message and keeps ten zeros. -/
def gqCoeffs (ty : SType) (cs : List K) : Py (List K) :=
  match ty with
  | .planeX => do
    let d ← pyGet cs 3
    .ok [0, 0, 0, 0, 0, 0, 1, 0, 0, -1 * d]
  | .planeY => do
    let d ← pyGet cs 3
    .ok [0, 0, 0, 0, 0, 0, 0, 1, 0, -1 * d]
  | .planeZ => do
    let d ← pyGet cs 3
    .ok [0, 0, 0, 0, 0, 0, 0, 0, 1, -1 * d]
  | .planeGeneral => do
    let g ← pyGet cs 0
    let h ← pyGet cs 1
    let j ← pyGet cs 2
    let d ← pyGet cs 3
    .ok [0, 0, 0, 0, 0, 0, g, h, j, -1 * d]
  | .sphereGeneral => do
    let x ← pyGet cs 0
    let y ← pyGet cs 1
    let z ← pyGet cs 2
    let r ← pyGet cs 3
    .ok [1, 1, 1, 0, 0, 0, -2 * x, -2 * y, -2 * z, x ^ 2 + y ^ 2 + z ^ 2 - r ^ 2]
  | .cylinderX => do
    let y ← pyGet cs 0
    let z ← pyGet cs 1
    let r ← pyGet cs 2
    .ok [0, 1, 1, 0, 0, 0, 0, -2 * y, -2 * z, y ^ 2 + z ^ 2 - r ^ 2]
  | .cylinderY => do
    let x ← pyGet cs 0
    let z ← pyGet cs 1
    let r ← pyGet cs 2
    .ok [1, 0, 1, 0, 0, 0, -2 * x, 0, -2 * z, x ^ 2 + z ^ 2 - r ^ 2]
  | .cylinderZ => do
    let x ← pyGet cs 0
    let y ← pyGet cs 1
    let r ← pyGet cs 2
    .ok [1, 1, 0, 0, 0, 0, -2 * x, -2 * y, 0, x ^ 2 + y ^ 2 - r ^ 2]
  | .coneX => do
    let x ← pyGet cs 0
    let y ← pyGet cs 1
    let z ← pyGet cs 2
    let t ← pyGet cs 3
    .ok [-1 * t, 1, 1, 0, 0, 0, 2 * x * t, -2 * y, -2 * z, -t * x ^ 2 + y ^ 2 + z ^ 2]
  | .coneY => do
    let x ← pyGet cs 0
    let y ← pyGet cs 1
    let z ← pyGet cs 2
    let t ← pyGet cs 3
    .ok [1, -1 * t, 1, 0, 0, 0, -2 * x, 2 * y * t, -2 * z, x ^ 2 - t * y ^ 2 + z ^ 2]
  | .coneZ => do
    let x ← pyGet cs 0
    let y ← pyGet cs 1
    let z ← pyGet cs 2
    let t ← pyGet cs 3
    .ok [1, 1, -1 * t, 0, 0, 0, -2 * x, -2 * y, 2 * z * t, x ^ 2 + y ^ 2 - z ^ 2 * t]
  | .generalQuadratic => do
    let a ← pyGet cs 0
    let b ← pyGet cs 1
    let c ← pyGet cs 2
    let d ← pyGet cs 3
    let e ← pyGet cs 4
    let f ← pyGet cs 5
    let g ← pyGet cs 6
    let h ← pyGet cs 7
    let j ← pyGet cs 8
    let k ← pyGet cs 9
    .ok [a, b, c, d, e, f, g, h, j, k]
  | _ => .ok [0, 0, 0, 0, 0, 0, 0, 0, 0, 0]

/-- `generalise` (SurfaceCard.py 173-309): tori return unchanged, everything else becomes a general
quadric. -/
def Surface.generalise (s : Surface K) : Py (Surface K) :=
  if s.type.isTorus then .ok s
  else do
    let cs ← gqCoeffs s.type s.coeffs
    .ok { s with type := .generalQuadratic, coeffs := cs }

variable [DecidableEq K]

/-- `simplify` (SurfaceCard.py 311-334). The tested slices are `[0:5]` and `[0:7]`. -/
def Surface.simplify (s : Surface K) : Py (Surface K) :=
  if s.type ≠ .generalQuadratic then .ok s
  else if (s.coeffs.take 5).all (· == 0) then do
    let g ← pyGet s.coeffs 6
    let h ← pyGet s.coeffs 7
    let j ← pyGet s.coeffs 8
    let k ← pyGet s.coeffs 9
    .ok { s with type := .planeGeneral, coeffs := [g, h, j, -1 * k] }
  else if (s.coeffs.take 7).all (· == 0) then do
    let k ← pyGet s.coeffs 9
    .ok { s with type := .planeZ, coeffs := [0, 0, 1, -1 * k] }
  else .ok s

/-- `diff` (SurfaceCard.py 77-102) with `already_generalised = True`, as the duplicate search calls it. The result is the
pair `(same, reversed)` together with the argument surface, which the method reverses and reverses back. -/
def Surface.diff (self surface : Surface K) (both : Bool) : (Bool × Bool) × Surface K :=
  if surface.type ≠ self.type then ((false, false), surface)
  else if surface.coeffs = self.coeffs then ((true, false), surface)
  else if both then
    let surface := surface.reverse
    if surface.coeffs = self.coeffs then
      let surface := surface.reverse
      ((true, true), surface)
    else
      let surface := surface.reverse
      ((false, false), surface)
  else ((false, false), surface)

end

section
variable {K : Type} [Field K]

/-- `bounding_box` (SurfaceCard.py 131-170). -/
def Surface.boundingBox (s : Surface K) : Py (List K) :=
  let cs := s.coeffs
  match s.type with
  | .planeX => do
    let d ← pyGet cs 3
    .ok [d, d, 0, 0, 0, 0]
  | .planeY => do
    let d ← pyGet cs 3
    .ok [0, 0, d, d, 0, 0]
  | .planeZ => do
    let d ← pyGet cs 3
    .ok [0, 0, 0, 0, d, d]
  | .cylinderX => do
    let u ← pyGet cs 0
    let v ← pyGet cs 1
    let r ← pyGet cs 2
    .ok [0, 0, u - r, u + r, v - r, v + r]
  | .cylinderY => do
    let u ← pyGet cs 0
    let v ← pyGet cs 1
    let r ← pyGet cs 2
    .ok [u - r, u + r, 0, 0, v - r, v + r]
  | .cylinderZ => do
    let u ← pyGet cs 0
    let v ← pyGet cs 1
    let r ← pyGet cs 2
    .ok [u - r, u + r, v - r, v + r, 0, 0]
  | .sphereGeneral => do
    let x ← pyGet cs 0
    let y ← pyGet cs 1
    let z ← pyGet cs 2
    let r ← pyGet cs 3
    .ok [x - r, x + r, y - r, y + r, z - r, z + r]
  | _ => .ok [0, 0, 0, 0, 0, 0]

end

end Csg
