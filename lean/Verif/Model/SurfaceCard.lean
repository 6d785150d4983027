import Verif.Model.Num
import Verif.Model.Surface
import Verif.Model.Formatter

/-!
# `MCNPSurfaceCard.py`: reading and writing surface cards

Printed messages are left out.
-/

namespace Csg

section
variable {K : Type} [Field K]

/-- `surface["coefficients"]` together with `float(surface["coefficients"][i])`: the length and the conversion of an entry. -/
structure Coeffs (K : Type) where
  len : Nat
  get : Nat → Py K

/-- Coefficients given as words. -/
def Coeffs.ofWords (io : NumIO K) (ws : List Str) : Coeffs K :=
  { len := ws.length
    get := fun i => do
      let w ← pyGet ws i
      io.float w }

/-- Coefficients given as numbers (`__define_edp_2coord` builds such lists). -/
def Coeffs.ofValues (vs : List K) : Coeffs K := { len := vs.length, get := pyGet vs }

/-- The local dictionary `surface` of `classify`. Its entry "boundary_condition" is never read and is left out. -/
structure Fields (K : Type) where
  id : Int
  transform : Option Str
  type : Str
  coeffs : Coeffs K

/-- `set_type` with the entries of the dictionary. -/
def Surface.setFrom (s : Surface K) (f : Fields K) (ty : SType) (cs : List K) : Surface K :=
  s.setType f.id f.transform ty cs

/-- The first `n` coefficients as floats. -/
def Coeffs.first (c : Coeffs K) : Nat → Py (List K)
  | 0 => .ok []
  | n + 1 => do
    let l ← c.first n
    let x ← c.get n
    .ok (l ++ [x])

/-- `__classify_xyz_planes` (MCNPSurfaceCard.py 319-361). -/
def classifyXyzPlanes (s : Surface K) (f : Fields K) : Py (Surface K) :=
  if f.type = c!"px" then do
    let d ← f.coeffs.get 0
    .ok (s.setFrom f .planeX [1, 0, 0, d])
  else if f.type = c!"py" then do
    let d ← f.coeffs.get 0
    .ok (s.setFrom f .planeY [0, 1, 0, d])
  else if f.type = c!"pz" then do
    let d ← f.coeffs.get 0
    .ok (s.setFrom f .planeZ [0, 0, 1, d])
  else .ok s

section
variable [DecidableEq K]

/-- The determinants computed in the loop of `__classify_general_planes` (MCNPSurfaceCard.py 386-398), with the three
rounds written out. The argument holds three points. -/
def planeDets (s : List K) : Py (K × K × K × K) := do
  let s0 ← pyGet s 0
  let s1 ← pyGet s 1
  let s2 ← pyGet s 2
  let s3 ← pyGet s 3
  let s4 ← pyGet s 4
  let s5 ← pyGet s 5
  let s6 ← pyGet s 6
  let s7 ← pyGet s 7
  let s8 ← pyGet s 8
  let c0 := s1 * (s5 - s8) + s4 * (s8 - s2) + s7 * (s2 - s5)
  let c1 := s2 * (s3 - s6) + s5 * (s6 - s0) + s8 * (s0 - s3)
  let c2 := s0 * (s4 - s7) + s3 * (s7 - s1) + s6 * (s1 - s4)
  let c3 := 0 + s0 * (s4 * s8 - s7 * s5) + s1 * (s5 * s6 - s8 * s3) + s2 * (s3 * s7 - s6 * s4)
  .ok (c0, c1, c2, c3)

/-- One round of the scaling loop (MCNPSurfaceCard.py 401-404): the factor after the round and the scaled coordinate. -/
def scaleStep (coeff c : K) : K × K :=
  let coeff := if coeff = 0 ∧ c ≠ 0 then 1 / c else coeff
  (coeff, c * coeff)

/-- The scaling loop over the indices 3, 2, 1, 0 (MCNPSurfaceCard.py 400-404). -/
def scalePlane (c0 c1 c2 c3 : K) : List K :=
  let (k3, d3) := scaleStep 0 c3
  let (k2, d2) := scaleStep k3 c2
  let (k1, d1) := scaleStep k2 c1
  let (_, d0) := scaleStep k1 c0
  [d0, d1, d2, d3]

/-- `__classify_general_planes` (MCNPSurfaceCard.py 364-425). -/
def classifyGeneralPlanes (s : Surface K) (f : Fields K) : Py (Surface K) :=
  if f.coeffs.len = 9 then do
    let l ← f.coeffs.first 9
    let (c0, c1, c2, c3) ← planeDets l
    .ok (s.setFrom f .planeGeneral (scalePlane c0 c1 c2 c3))
  else if f.coeffs.len = 4 then do
    let l ← f.coeffs.first 4
    .ok (s.setFrom f .planeGeneral l)
  else .error .exception

end

/-- `__classify_general_sphere` and `__classify_sph` (MCNPSurfaceCard.py 428-440, 796-808). -/
def classifyGeneralSphere (s : Surface K) (f : Fields K) : Py (Surface K) := do
  let l ← f.coeffs.first 4
  .ok (s.setFrom f .sphereGeneral l)

/-- `__classify_origin_sphere` (MCNPSurfaceCard.py 443-455). -/
def classifyOriginSphere (s : Surface K) (f : Fields K) : Py (Surface K) := do
  let r ← f.coeffs.get 0
  .ok (s.setFrom f .sphereGeneral [0, 0, 0, r])

/-- `__classify_xyz_sphere` (MCNPSurfaceCard.py 458-496). -/
def classifyXyzSphere (s : Surface K) (f : Fields K) : Py (Surface K) :=
  if f.type = c!"sx" then do
    let u ← f.coeffs.get 0
    let r ← f.coeffs.get 1
    .ok (s.setFrom f .sphereGeneral [u, 0, 0, r])
  else if f.type = c!"sy" then do
    let u ← f.coeffs.get 0
    let r ← f.coeffs.get 1
    .ok (s.setFrom f .sphereGeneral [0, u, 0, r])
  else if f.type = c!"sz" then do
    let u ← f.coeffs.get 0
    let r ← f.coeffs.get 1
    .ok (s.setFrom f .sphereGeneral [0, 0, u, r])
  else .ok s

/-- `__classify_cylinder_parallel` (MCNPSurfaceCard.py 499-531). -/
def classifyCylinderParallel (s : Surface K) (f : Fields K) : Py (Surface K) :=
  if f.type = c!"c/x" then do
    let l ← f.coeffs.first 3
    .ok (s.setFrom f .cylinderX l)
  else if f.type = c!"c/y" then do
    let l ← f.coeffs.first 3
    .ok (s.setFrom f .cylinderY l)
  else if f.type = c!"c/z" then do
    let l ← f.coeffs.first 3
    .ok (s.setFrom f .cylinderZ l)
  else .ok s

/-- `__classify_cylinder_on_axis` (MCNPSurfaceCard.py 534-566). -/
def classifyCylinderOnAxis (s : Surface K) (f : Fields K) : Py (Surface K) :=
  if f.type = c!"cx" then do
    let r ← f.coeffs.get 0
    .ok (s.setFrom f .cylinderX [0, 0, r])
  else if f.type = c!"cy" then do
    let r ← f.coeffs.get 0
    .ok (s.setFrom f .cylinderY [0, 0, r])
  else if f.type = c!"cz" then do
    let r ← f.coeffs.get 0
    .ok (s.setFrom f .cylinderZ [0, 0, r])
  else .ok s

/-- `__classify_cone_parallel` (MCNPSurfaceCard.py 569-600). -/
def classifyConeParallel (s : Surface K) (f : Fields K) : Py (Surface K) := do
  let l ← f.coeffs.first 4
  let w ← if f.coeffs.len = 5 then f.coeffs.get 4 else .ok 0
  if f.type = c!"k/x" then .ok (s.setFrom f .coneX (l ++ [w]))
  else if f.type = c!"k/y" then .ok (s.setFrom f .coneY (l ++ [w]))
  else if f.type = c!"k/z" then .ok (s.setFrom f .coneZ (l ++ [w]))
  else .ok s

/-- `__classify_cone_on_axis` (MCNPSurfaceCard.py 603-650). -/
def classifyConeOnAxis (s : Surface K) (f : Fields K) : Py (Surface K) :=
  if f.type = c!"kx" then do
    let u ← f.coeffs.get 0
    let t ← f.coeffs.get 1
    let w ← if f.coeffs.len = 3 then f.coeffs.get 2 else .ok 0
    .ok (s.setFrom f .coneX [u, 0, 0, t, w])
  else if f.type = c!"ky" then do
    let u ← f.coeffs.get 0
    let t ← f.coeffs.get 1
    let w ← if f.coeffs.len = 3 then f.coeffs.get 2 else .ok 0
    .ok (s.setFrom f .coneY [0, u, 0, t, w])
  else if f.type = c!"kz" then do
    let u ← f.coeffs.get 0
    let t ← f.coeffs.get 1
    let w ← if f.coeffs.len = 3 then f.coeffs.get 2 else .ok 0
    .ok (s.setFrom f .coneZ [0, 0, u, t, w])
  else .ok s

/-- `__classify_gq` (MCNPSurfaceCard.py 652-711). -/
def classifyGq (s : Surface K) (f : Fields K) : Py (Surface K) :=
  if f.type = c!"gq" then do
    let l ← f.coeffs.first 10
    .ok (s.setFrom f .generalQuadratic l)
  else if f.type = c!"sq" then do
    let a ← f.coeffs.get 0
    let b ← f.coeffs.get 1
    let c ← f.coeffs.get 2
    let d ← f.coeffs.get 3
    let e ← f.coeffs.get 4
    let f' ← f.coeffs.get 5
    let xBar ← f.coeffs.get 7
    let yBar ← f.coeffs.get 8
    let zBar ← f.coeffs.get 9
    let c6 ← f.coeffs.get 6
    let g := 2 * d - 2 * a * xBar
    let h := 2 * e - 2 * b * yBar
    let j := 2 * f' - 2 * c * zBar
    let k := a * xBar ^ 2 + b * yBar ^ 2 + c * zBar ^ 2 - 2 * d * xBar - 2 * e * yBar - 2 * f' * zBar + c6
    .ok (s.setFrom f .generalQuadratic [a, b, c, 0, 0, 0, g, h, j, k])
  else .ok s

/-- `__classify_torus` (MCNPSurfaceCard.py 714-733). -/
def classifyTorus (s : Surface K) (f : Fields K) : Py (Surface K) := do
  let l ← f.coeffs.first 6
  if f.type = c!"tx" then .ok (s.setFrom f .torusX l)
  else if f.type = c!"ty" then .ok (s.setFrom f .torusY l)
  else if f.type = c!"tz" then .ok (s.setFrom f .torusZ l)
  else .ok s

/-- `__classify_box` (MCNPSurfaceCard.py 736-793). -/
def classifyBox [DecidableEq K] (s : Surface K) (f : Fields K) : Py (Surface K) := do
  let vx ← f.coeffs.get 0
  let vy ← f.coeffs.get 1
  let vz ← f.coeffs.get 2
  let a1x ← f.coeffs.get 3
  let a1y ← f.coeffs.get 4
  let a1z ← f.coeffs.get 5
  let a2x ← f.coeffs.get 6
  let a2y ← f.coeffs.get 7
  let a2z ← f.coeffs.get 8
  let a3x ← f.coeffs.get 9
  let a3y ← f.coeffs.get 10
  let a3z ← f.coeffs.get 11
  if a1y = 0 ∧ a1z = 0 ∧ a2x = 0 ∧ a2z = 0 ∧ a3x = 0 ∧ a3y = 0 then
    .ok (s.setFrom f .macroRPP [vx, vx + a1x, vy, vy + a2y, vz, vz + a3z])
  else
    .ok (s.setFrom f .macroBOX [vx, vy, vz, a1x, a1y, a1z, a2x, a2y, a2z, a3x, a3y, a3z])

/-- `__classify_rpp` (MCNPSurfaceCard.py 811-821). -/
def classifyRpp (s : Surface K) (f : Fields K) : Py (Surface K) := do
  let l ← f.coeffs.first 6
  .ok (s.setFrom f .macroRPP l)

/-- `__classify_rcc` (MCNPSurfaceCard.py 824-834). -/
def classifyRcc (s : Surface K) (f : Fields K) : Py (Surface K) := do
  let l ← f.coeffs.first 7
  .ok (s.setFrom f .macroRCC l)

section
variable [LinearOrder K]

/-- `__define_edp_2coord` (MCNPSurfaceCard.py 839-873) for the pairs `(a1, r1)` and `(a2, r2)` and a direction. Division by zero
cannot occur: `dx = 0` and `dy = 0` are the plane and cylinder cases. -/
def edp2 (s : Surface K) (f : Fields K) (a1 r1 a2 r2 : K) (dir : Char) : Py (Surface K) :=
  if a1 = a2 then
    classifyXyzPlanes s { f with type := ['p', dir], coeffs := .ofValues [a1] }
  else if r1 = r2 then
    classifyCylinderOnAxis s { f with type := ['c', dir], coeffs := .ofValues [r1] }
  else
    let dx := r2 - r1
    let dy := a2 - a1
    let grad := dy / dx
    let offset := a2 - grad * r2
    let angle := (-1 / grad) ^ 2
    let upOrDown : K := if grad < 0 then -1 else 1
    classifyConeOnAxis s { f with type := ['k', dir], coeffs := .ofValues [offset, angle, upOrDown] }

/-- `__classify_edp` (MCNPSurfaceCard.py 876-920). `__define_edp_1coord` does nothing. With neither two nor four coefficients
nothing happens. -/
def classifyEdp (s : Surface K) (f : Fields K) : Py (Surface K) :=
  if f.coeffs.len = 2 then do
    let _ ← f.coeffs.first 2
    if f.type = c!"x" then .ok s
    else if f.type = c!"y" then .ok s
    else if f.type = c!"z" then .ok s
    else .error .exception
  else if f.coeffs.len = 4 then do
    let a1 ← f.coeffs.get 0
    let r1 ← f.coeffs.get 1
    let a2 ← f.coeffs.get 2
    let r2 ← f.coeffs.get 3
    if f.type = c!"x" then edp2 s f a1 r1 a2 r2 'y'
    else if f.type = c!"y" then edp2 s f a1 r1 a2 r2 'y'
    else if f.type = c!"z" then edp2 s f a1 r1 a2 r2 'z'
    else .error .exception
  else .ok s

/-- The branches of `__classify_surface_types`. -/
inductive Branch
  | generalPlane | xyzPlane | originSphere | xyzSphere | gq | generalSphere | oddSphere
  | cylinderParallel | cylinderOnAxis | coneParallel | coneOnAxis | torus | box | rpp | sph | rcc | edp
  deriving DecidableEq, Repr

/-- The tests of `__classify_surface_types` (MCNPSurfaceCard.py 929-966), in order. The test `"x" or "y" or "z" in surf_type` in line 963
is always true. -/
def branch (t : Str) : Branch :=
  if t.elem 'p' ∧ t = c!"p" then .generalPlane
  else if t.elem 'p' ∧ t ≠ c!"p" then .xyzPlane
  else if t.elem 's' then
    if t = c!"so" then .originSphere
    else if t.elem 'x' ∨ t.elem 'y' ∨ t.elem 'z' then .xyzSphere
    else if t.elem 'q' then .gq
    else if t = c!"s" then .generalSphere
    else .oddSphere
  else if t.elem 'c' ∧ t.elem '/' then .cylinderParallel
  else if t.elem 'c' ∧ ¬ t.elem '/' then .cylinderOnAxis
  else if t.elem 'k' ∧ t.elem '/' then .coneParallel
  else if t.elem 'k' ∧ ¬ t.elem '/' then .coneOnAxis
  else if t.elem 'g' ∧ t.elem 'q' then .gq
  else if t.elem 't' ∧ (t.elem 'x' ∨ t.elem 'y' ∨ t.elem 'z') then .torus
  else if hasInfix c!"box" t then .box
  else if hasInfix c!"rpp" t then .rpp
  else if hasInfix c!"sph" t then .sph
  else if hasInfix c!"rcc" t then .rcc
  else .edp

/-- `__classify_surface_types` (MCNPSurfaceCard.py 923-966). -/
def classifySurfaceTypes (s : Surface K) (f : Fields K) : Py (Surface K) :=
  match branch f.type with
  | .generalPlane => classifyGeneralPlanes s f
  | .xyzPlane => classifyXyzPlanes s f
  | .originSphere => classifyOriginSphere s f
  | .xyzSphere => classifyXyzSphere s f
  | .gq => classifyGq s f
  | .generalSphere => classifyGeneralSphere s f
  | .oddSphere => .ok s
  | .cylinderParallel => classifyCylinderParallel s f
  | .cylinderOnAxis => classifyCylinderOnAxis s f
  | .coneParallel => classifyConeParallel s f
  | .coneOnAxis => classifyConeOnAxis s f
  | .torus => classifyTorus s f
  | .box => classifyBox s f
  | .rpp => classifyRpp s f
  | .sph => classifyGeneralSphere s f
  | .rcc => classifyRcc s f
  | .edp => classifyEdp s f

/-- `__classify_macrobody_types` (MCNPSurfaceCard.py 969-987). The `sys.exit(1)` in line 984 is a `NameError`: the file does not import `sys`. -/
def classifyMacrobodyTypes (s : Surface K) (f : Fields K) : Py (Surface K) :=
  if hasInfix c!"box" f.type then classifyBox s f
  else if hasInfix c!"rpp" f.type then classifyRpp s f
  else if hasInfix c!"sph" f.type then classifyGeneralSphere s f
  else if hasInfix c!"rcc" f.type then classifyRcc s f
  else .error .nameError

end

end

/-- `__mcnp_surface_types` (MCNPSurfaceCard.py 268-296). -/
def surfaceTypes : List Str :=
  [c!"p", c!"px", c!"py", c!"pz", c!"s", c!"so", c!"sx", c!"sy", c!"sz", c!"cx", c!"cy", c!"cz", c!"c/x", c!"c/y",
    c!"c/z", c!"kx", c!"ky", c!"kz", c!"k/x", c!"k/y", c!"k/z", c!"tx", c!"ty", c!"tz", c!"gq", c!"sq", c!"x", c!"y",
    c!"z"]

/-- `__mcnp_macro_types` (MCNPSurfaceCard.py 298). -/
def macroTypes : List Str := [c!"rpp", c!"box", c!"sph", c!"rcc"]

/-- The answers of `__mcnp_type`. -/
inductive McnpType
  | infinite | macrobody | unknown
  deriving DecidableEq, Repr

/-- `__mcnp_type` (MCNPSurfaceCard.py 308-316). `in` on strings is the substring test. -/
def mcnpType (t : Str) : McnpType :=
  if surfaceTypes.any (fun s => hasInfix t s) then .infinite
  else if macroTypes.any (fun s => hasInfix t s) then .macrobody
  else .unknown

section
variable {K : Type} [Field K] [LinearOrder K]

/-- The end of `classify` (MCNPSurfaceCard.py 1017-1022), on a card in the state the constructor leaves. -/
def classifyFields (f : Fields K) : Py (Surface K) :=
  match mcnpType f.type with
  | .infinite => classifySurfaceTypes .blank f
  | .macrobody => classifyMacrobodyTypes .blank f
  | .unknown => .ok .blank

/-- `surface_has_transform` (MCNPSurfaceCard.py 49-60). -/
def hasTransform (io : NumIO K) (tokens : List Str) : Bool :=
  match pyGet tokens 1 with
  | .ok t => (io.parse t).isSome
  | .error _ => false

/-- The dictionary built by `classify` (MCNPSurfaceCard.py 1000-1015) from the tokens. -/
def readFields (io : NumIO K) (tokens : List Str) : Py (Fields K) := do
  let t0 ← pyGet tokens 0
  let id ← pyInt (if t0.elem '*' then t0.filter (· ≠ '*') else t0)
  if hasTransform io tokens then do
    let tr ← pyGet tokens 1
    let ty ← pyGet tokens 2
    .ok ⟨id, some tr, ty, .ofWords io (tokens.drop 3)⟩
  else do
    let ty ← pyGet tokens 1
    .ok ⟨id, none, ty, .ofWords io (tokens.drop 2)⟩

/-- `MCNPSurfaceCard(card_string)` and `classify` (MCNPSurfaceCard.py 303-305, 990-1022). A `$` comment is cut off first. -/
def classify (io : NumIO K) (text : Str) : Py (Surface K) := do
  let f ← readFields io (split (stripDollar text))
  classifyFields f

/-- `boundary_condition` (MCNPSurfaceCard.py 10-21): the local variable stays unset for PERIODIC. -/
def mcnpBoundary : BC → Py Str
  | .transmission => .ok []
  | .vacuum => .ok []
  | .reflecting => .ok c!"*"
  | .white => .ok c!"+"
  | .periodic => .error .unboundLocal

/-- Coefficients of the given indices as text, separated by blanks and ended by a newline. -/
def coeffText (io : NumIO K) (cs : List K) : List Nat → Py Str
  | [] => .ok []
  | [i] => do
    let x ← pyGet cs i
    .ok (io.render x ++ c!"\n")
  | i :: is => do
    let x ← pyGet cs i
    let t ← coeffText io cs is
    .ok (io.render x ++ c!" " ++ t)

/-- The mnemonic and the indices of the coefficients that the `mcnp_*` functions print (MCNPSurfaceCard.py 64-209). -/
def mcnpLayout : SType → Option (Str × List Nat)
  | .planeGeneral => some (c!"p", [0, 1, 2, 3])
  | .planeX => some (c!"px", [3])
  | .planeY => some (c!"py", [3])
  | .planeZ => some (c!"pz", [3])
  | .cylinderX => some (c!"c/x", [0, 1, 2])
  | .cylinderY => some (c!"c/y", [0, 1, 2])
  | .cylinderZ => some (c!"c/z", [0, 1, 2])
  | .coneX => some (c!"k/x", [0, 1, 2, 3])
  | .coneY => some (c!"k/y", [0, 1, 2, 3])
  | .coneZ => some (c!"k/z", [0, 1, 2, 3])
  | .sphereGeneral => some (c!"s", [0, 1, 2, 3])
  | .generalQuadratic => some (c!"gq", [0, 1, 2, 3, 4, 5, 6, 7, 8, 9])
  | .torusX => some (c!"tx", [0, 1, 2, 3, 4, 5])
  | .torusY => some (c!"ty", [0, 1, 2, 3, 4, 5])
  | .torusZ => some (c!"tz", [0, 1, 2, 3, 4, 5])
  | _ => none

/-- The text that `write_mcnp_surface` passes to the line formatter (MCNPSurfaceCard.py 213-250). -/
def mcnpSurfaceLine (io : NumIO K) (s : Surface K) : Py Str := do
  let b ← mcnpBoundary s.bc
  let head := b ++ intStr s.id ++ c!" "
  match mcnpLayout s.type with
  | some (mn, idx) => do
    let t ← coeffText io s.coeffs idx
    .ok (head ++ (mn ++ c!" " ++ t))
  | none => .ok (head ++ c!"Unknown surface type")

/-- `write_mcnp_surface` (MCNPSurfaceCard.py 213-254). `none`: the line formatter has not ended after `fuel` rounds. -/
def writeMcnpSurface (fuel : Nat) (io : NumIO K) (s : Surface K) : Py (Option Str) := do
  let t ← mcnpSurfaceLine io s
  .ok (lineFormatter fuel t)

end

end Csg
