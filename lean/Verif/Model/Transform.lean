import Verif.Model.Num
import Verif.Model.Surface
import Mathlib.Data.Fin.VecNotation

/-!
# `Vector.py`, `MCNPDataCard.py` and `MCNPSurfaceCard.transform`
-/

namespace Csg

/-- A row of three numbers. -/
@[ext] structure Vec3 (K : Type) where
  x : K
  y : K
  z : K
  deriving DecidableEq, Repr

section
variable {K : Type} [Field K]

/-- `Vector.cross` (Vector.py 23-28). -/
def cross (v w : Vec3 K) : Vec3 K :=
  ⟨v.y * w.z - w.y * v.z, v.x * w.z - w.x * v.z, v.x * w.y - w.x * v.y⟩

/-- The fields of `MCNPTransformCard` (MCNPDataCard.py 16-24). -/
structure Transform (K : Type) where
  shift : Vec3 K
  v1 : Vec3 K
  v2 : Vec3 K
  v3 : Vec3 K
  deriving DecidableEq, Repr

/-- Three consecutive tokens as floats. -/
def float3 (io : NumIO K) (tokens : List Str) (i : Nat) : Py (Vec3 K) := do
  let a ← pyGet tokens i
  let x ← io.float a
  let b ← pyGet tokens (i + 1)
  let y ← io.float b
  let c ← pyGet tokens (i + 2)
  let z ← io.float c
  .ok ⟨x, y, z⟩

/-- `MCNPTransformCard.__process_string` (MCNPDataCard.py 42-86): the transform number and the transform. `cosDeg`
is `math.cos(x / 180.0 * math.pi)`. -/
def parseTransform (io : NumIO K) (cosDeg : K → K) (text : Str) : Py (Str × Transform K) := do
  let tokens := split text
  let t0 ← pyGet tokens 0
  let degrees := t0.elem '*'
  let id := sliceFrom t0 (findChar 'r' t0 + 1)
  let shift ← float3 io tokens 1
  let conv : Vec3 K → Vec3 K := fun v => if degrees then ⟨cosDeg v.x, cosDeg v.y, cosDeg v.z⟩ else v
  if tokens.length = 13 ∨ tokens.length = 14 then do
    let v1 ← float3 io tokens 4
    let v2 ← float3 io tokens 7
    let v3 ← float3 io tokens 10
    .ok (id, ⟨shift, conv v1, conv v2, conv v3⟩)
  else if tokens.length = 10 then do
    let v1 ← float3 io tokens 4
    let v2 ← float3 io tokens 7
    .ok (id, ⟨shift, conv v1, conv v2, cross (conv v1) (conv v2)⟩)
  else
    .ok (id, ⟨shift, ⟨1, 0, 0⟩, ⟨0, 1, 0⟩, ⟨0, 0, 1⟩⟩)

/-- 4 by 4 matrices, `np.matmul` and `np.transpose` on them. -/
abbrev M4 (K : Type) := Fin 4 → Fin 4 → K

/-- `np.matmul`. -/
def matmul (A B : M4 K) : M4 K :=
  fun i j => A i 0 * B 0 j + A i 1 * B 1 j + A i 2 * B 2 j + A i 3 * B 3 j

/-- `np.transpose`. -/
def transpose4 (A : M4 K) : M4 K := fun i j => A j i

/-- `MCNPSurfaceCard.transform` (MCNPSurfaceCard.py 1025-1095) on the coefficients. Coefficients past the tenth
do not occur. -/
def transformCoeffs (cs : List K) (t : Transform K) : Py (List K) := do
  let a ← pyGet cs 0
  let b ← pyGet cs 1
  let c ← pyGet cs 2
  let d ← pyGet cs 3
  let e ← pyGet cs 4
  let f ← pyGet cs 5
  let g ← pyGet cs 6
  let h ← pyGet cs 7
  let j ← pyGet cs 8
  let k ← pyGet cs 9
  let A : M4 K := ![![k, g / 2, h / 2, j / 2],
                    ![g / 2, a, d / 2, f / 2],
                    ![h / 2, d / 2, b, e / 2],
                    ![j / 2, f / 2, e / 2, c]]
  let rot : M4 K := ![![1, 0, 0, 0],
                      ![0, t.v1.x, t.v1.y, t.v1.z],
                      ![0, t.v2.x, t.v2.y, t.v2.z],
                      ![0, t.v3.x, t.v3.y, t.v3.z]]
  let R := matmul (transpose4 rot) (matmul A rot)
  let trl : M4 K := ![![1, 0, 0, 0],
                      ![-t.shift.x, 1, 0, 0],
                      ![-t.shift.y, 0, 1, 0],
                      ![-t.shift.z, 0, 0, 1]]
  let T := matmul (transpose4 trl) (matmul R trl)
  .ok [T 1 1, T 2 2, T 3 3, T 1 2 + T 2 1, T 3 2 + T 2 3, T 1 3 + T 3 1,
       T 1 0 + T 0 1, T 2 0 + T 0 2, T 3 0 + T 0 3, T 0 0]

/-- `transform` (MCNPSurfaceCard.py 1025-1028): nothing happens without a transform number. -/
def Surface.applyTransform (s : Surface K) (t : Transform K) : Py (Surface K) :=
  match s.transform with
  | none => .ok s
  | some _ => do
    let cs ← transformCoeffs s.coeffs t
    .ok { s with coeffs := cs }

variable [DecidableEq K]

/-- One round of `__apply_surface_transformations` (MCNPInput.py 281-291). `trs` is `transform_list`. -/
def Surface.applyTransformCard (trs : List (Str × Transform K)) (s : Surface K) : Py (Surface K) :=
  match s.transform with
  | none => .ok s
  | some n =>
    if s.isMacrobody then .ok s
    else do
      let g ← s.generalise
      match trs.lookup n with
      | some t => do
        let m ← g.applyTransform t
        m.simplify
      | none => .ok g

end

end Csg
