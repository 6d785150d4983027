import Verif.Model.SurfaceCard
import Mathlib.Algebra.Order.Field.Rat
import Mathlib.Algebra.Order.Group.Unbundled.Abs

/-!
# Writing surfaces

`SerpentSurfaceCard.py`, `OpenMCSurface.py`, `SCONESurfaceCard.py`, `FLUKASurfaceCard.py`: the surface writers. What is written to the file is returned as text. The MCNP writer,
which PHITS uses too, is in `Model/SurfaceCard.lean`.

`fixed` is Python's `"{:f}".format(x)`, `io.render` is `str(x)` for a float.
-/

namespace Csg

/-- Round to the nearest integer, ties to the even one. -/
def roundEven (q : ℚ) : Int :=
  let f := q.floor
  if q - f < 1 / 2 then f
  else if 1 / 2 < q - f then f + 1
  else if f % 2 = 0 then f else f + 1

/-- The number of millionths in `"{:f}".format(x)`. -/
def millionths (q : ℚ) : Nat := (roundEven (|q| * 10 ^ 6)).toNat

/-- `"{:f}".format(x)`: six digits after the point. -/
def formatF (q : ℚ) : Str :=
  let n := millionths q
  let frac := natStr (n % 10 ^ 6)
  (if q < 0 then c!"-" else []) ++ natStr (n / 10 ^ 6) ++ c!"." ++ List.replicate (6 - frac.length) '0' ++ frac

section
variable {K : Type}

/-- The coefficients of the given indices. -/
def pickCoeffs (cs : List K) (idx : List Nat) : Py (List K) := idx.mapM (pyGet cs)

/-! ## Serpent -/

/-- The `serpent_*` functions (SerpentSurfaceCard.py 7-162): what follows the number of the surface. `none` for the types without a writer. -/
def serpentBody (io : NumIO K) (fixed : K → Str) (s : Surface K) : Py (Option Str) :=
  let joined (kw : Str) (idx : List Nat) : Py (Option Str) := do
    let xs ← pickCoeffs s.coeffs idx
    .ok (some (c!" " ++ kw ++ c!" " ++ join c!" " (xs.map io.render) ++ c!"\n"))
  let cylinder (kw : Str) : Py (Option Str) := do
    let xs ← pickCoeffs s.coeffs [0, 1, 2]
    .ok (some (c!" " ++ kw ++ c!" " ++ xs.flatMap (fun x => io.render x ++ c!" ") ++ c!"\n"))
  let formatted (kw : Str) (idx : List Nat) : Py (Option Str) := do
    let xs ← pickCoeffs s.coeffs idx
    .ok (some (c!" " ++ kw ++ xs.flatMap (fun x => c!" " ++ fixed x) ++ c!"\n"))
  let cone (kw : Str) : Py (Option Str) :=
    formatted kw (if 4 < s.coeffs.length then [0, 1, 2, 3, 4] else [0, 1, 2, 3])
  match s.type with
  | .planeGeneral => joined c!"plane" [0, 1, 2, 3]
  | .planeX => joined c!"px" [3]
  | .planeY => joined c!"py" [3]
  | .planeZ => joined c!"pz" [3]
  | .cylinderX => cylinder c!"cylx"
  | .cylinderY => cylinder c!"cyly"
  | .cylinderZ => cylinder c!"cylz"
  | .sphereGeneral => joined c!"sph" [0, 1, 2, 3]
  | .generalQuadratic => .ok (some (c!" quadratic " ++ s.coeffs.flatMap (fun x => c!" " ++ io.render x ++ c!" ") ++ c!"\n"))
  | .coneX => cone c!"ckx"
  | .coneY => cone c!"cky"
  | .coneZ => cone c!"ckz"
  | .torusX => formatted c!"torx" [0, 1, 2, 3, 4, 5]
  | .torusY => formatted c!"tory" [0, 1, 2, 3, 4, 5]
  | .torusZ => formatted c!"torz" [0, 1, 2, 3, 4, 5]
  | _ => .ok none

/-- `write_serpent_surface` (SerpentSurfaceCard.py 270-327). -/
def serpentSurface (io : NumIO K) (fixed : K → Str) (s : Surface K) : Py Str := do
  match ← serpentBody io fixed s with
  | some t => .ok (c!"surf " ++ intStr s.id ++ t)
  | none => .ok c!"surface not supported\n"

/-! ## OpenMC -/

/-- The attributes of an OpenMC `surface` element. -/
structure OpenmcSurface where
  id : Str
  type : Str
  coeffs : Str
  boundary : Str
  deriving DecidableEq, Repr

/-- `boundary_condition` (OpenMCSurface.py 9-23): the local variable stays unset for PERIODIC. -/
def openmcBoundary : BC → Py Str
  | .transmission => .ok c!"transmission"
  | .vacuum => .ok c!"vacuum"
  | .reflecting => .ok c!"reflecting"
  | .white => .ok c!"vacuum"
  | .periodic => .error .unboundLocal

/-- `openmc_surface_info` (OpenMCSurface.py 26-75). -/
def openmcInfo (io : NumIO K) (s : Surface K) : Py (Str × Str) :=
  let all (ty : Str) : Py (Str × Str) := .ok (ty, join c!" " (s.coeffs.map io.render))
  let plane (ty : Str) : Py (Str × Str) := do
    let x ← pyGet s.coeffs 3
    .ok (ty, io.render x)
  let cone (ty : Str) : Py (Str × Str) := .ok (ty, join c!" " ((s.coeffs.take 4).map io.render))
  match s.type with
  | .planeGeneral => all c!"plane"
  | .planeX => plane c!"x-plane"
  | .planeY => plane c!"y-plane"
  | .planeZ => plane c!"z-plane"
  | .cylinderX => all c!"x-cylinder"
  | .cylinderY => all c!"y-cylinder"
  | .cylinderZ => all c!"z-cylinder"
  | .sphereGeneral => all c!"sphere"
  | .generalQuadratic => all c!"quadric"
  | .coneX => cone c!"x-cone"
  | .coneY => cone c!"y-cone"
  | .coneZ => cone c!"z-cone"
  | .torusX => all c!"x-torus"
  | .torusY => all c!"y-torus"
  | .torusZ => all c!"z-torus"
  | _ => .ok (c!"error", c!"error")

/-- `write_openmc_surface` (OpenMCSurface.py 80-90): the attributes of the new element. -/
def openmcSurface (io : NumIO K) (s : Surface K) : Py OpenmcSurface := do
  let (ty, cs) ← openmcInfo io s
  let b ← openmcBoundary s.bc
  .ok { id := intStr s.id, type := ty, coeffs := cs, boundary := b }

/-! ## SCONE -/

variable [Field K] [LinearOrder K]

/-- The limits along the axis of a cone (SCONESurfaceCard.py 97-105): the texts of -1E10, 0 and 1E10. -/
def sconeLimits (sign : K) : Str × Str :=
  if sign < 0 then (c!"-10000000000.0", c!"0")
  else if 0 < sign then (c!"0", c!"10000000000.0")
  else (c!"-10000000000.0", c!"10000000000.0")

/-- `scone_cone_x`, `scone_cone_y`, `scone_cone_z` (SCONESurfaceCard.py 79-194), which differ in the keyword. `sqrt` is `math.sqrt` for non-negative numbers, `degAtan` is
`degrees(atan(x))`. -/
def sconeCone (io : NumIO K) (fixed : K → Str) (sqrt degAtan : K → K) (kw : Str) (cs : List K) : Py Str := do
  let x ← pyGet cs 0
  let y ← pyGet cs 1
  let z ← pyGet cs 2
  let t ← pyGet cs 3
  let sign ← (if cs.length < 5 then .ok 0 else pyGet cs 4 : Py K)
  let lim := sconeLimits sign
  if t < 0 then .error .valueError
  else
    .ok (c!"  " ++ kw ++ c!"; vertex ( " ++ fixed x ++ c!" " ++ fixed y ++ c!" " ++ fixed z ++ c!"  ); \n" ++
      c!"angle " ++ io.render (degAtan (sqrt t)) ++ c!"; hMin " ++ lim.1 ++ c!"; hMax " ++ lim.2 ++ c!"; } \n")

/-- The `scone_*` functions (SCONESurfaceCard.py 7-194): what follows the header. `none` for the types without a writer. -/
def sconeBody (io : NumIO K) (fixed : K → Str) (sqrt degAtan : K → K) (s : Surface K) : Py (Option Str) :=
  let cs := s.coeffs
  let cone (kw : Str) : Py (Option Str) := (sconeCone io fixed sqrt degAtan kw cs).map some
  match s.type with
  | .planeGeneral => do
    let xs ← pickCoeffs cs [0, 1, 2, 3]
    .ok (some (c!" plane; coeffs ( " ++ join c!" " (xs.map io.render) ++ c!"); } \n"))
  | .planeX => do
    let d ← pyGet cs 3
    .ok (some (c!" xPlane; x0 " ++ io.render d ++ c!"; } \n"))
  | .planeY => do
    let d ← pyGet cs 3
    .ok (some (c!" yPlane; y0 " ++ io.render d ++ c!"; } \n"))
  | .planeZ => do
    let d ← pyGet cs 3
    .ok (some (c!" zPlane; z0 " ++ io.render d ++ c!"; } \n"))
  | .cylinderX => do
    let r ← pyGet cs 2
    let y ← pyGet cs 0
    let z ← pyGet cs 1
    .ok (some (c!" xCylinder; radius " ++ io.render r ++ c!"; origin ( 0.0 " ++ io.render y ++ c!" " ++ io.render z ++ c!"); } \n"))
  | .cylinderY => do
    let r ← pyGet cs 2
    let x ← pyGet cs 0
    let z ← pyGet cs 1
    .ok (some (c!" yCylinder; radius " ++ io.render r ++ c!"; origin (" ++ io.render x ++ c!" 0 " ++ io.render z ++ c!"); } \n"))
  | .cylinderZ => do
    let r ← pyGet cs 2
    let x ← pyGet cs 0
    let y ← pyGet cs 1
    .ok (some (c!" zCylinder; radius " ++ io.render r ++ c!"; origin (" ++ io.render x ++ c!" " ++ io.render y ++ c!" 0); } \n"))
  | .sphereGeneral => do
    let x ← pyGet cs 0
    let y ← pyGet cs 1
    let z ← pyGet cs 2
    let r ← pyGet cs 3
    .ok (some (c!" sphere; origin (" ++ io.render x ++ c!" " ++ io.render y ++ c!" " ++ io.render z ++ c!"); radius " ++ io.render r ++ c!"; } \n"))
  | .generalQuadratic => .ok (some (c!" quadric; coeffs ( " ++ cs.flatMap (fun x => c!" " ++ io.render x ++ c!" ") ++ c!"); } \n"))
  | .coneX => cone c!"xCone"
  | .coneY => cone c!"yCone"
  | .coneZ => cone c!"zCone"
  | _ => .ok none

/-- `write_scone_surface` (SCONESurfaceCard.py 300-345). -/
def sconeSurface (io : NumIO K) (fixed : K → Str) (sqrt degAtan : K → K) (s : Surface K) : Py Str := do
  match ← sconeBody io fixed sqrt degAtan s with
  | some t => .ok (intStr s.id ++ c!" { id " ++ intStr s.id ++ c!"; type " ++ t)
  | none => .ok c!"surface not supported\n"

/-! ## FLUKA -/

/-- The keyword and the name of a body (FLUKASurfaceCard.py 19, 35 and so on). -/
def flukaHead (kw : Str) (s : Surface K) : Str := kw ++ c!" S" ++ intStr s.id

/-- `fluka_plane_string` (FLUKASurfaceCard.py 9-28): the normal and the point of the plane nearest to the origin. -/
def flukaPlane (io : NumIO K) (s : Surface K) : Py Str := do
  let a ← pyGet s.coeffs 0
  let b ← pyGet s.coeffs 1
  let c ← pyGet s.coeffs 2
  let d ← pyGet s.coeffs 3
  let mag := a ^ 2 + b ^ 2 + c ^ 2
  if mag = 0 then .error .zeroDivision
  else
    let xp := a * (a * 0 + b * 0 + c * 0 + d) / mag
    let yp := b * (a * 0 + b * 0 + c * 0 + d) / mag
    let zp := c * (a * 0 + b * 0 + c * 0 + d) / mag
    .ok (flukaHead c!"PLA" s ++ c!" " ++ [a, b, c, xp, yp, zp].flatMap (fun x => io.render x ++ c!" ") ++ c!"\n")

/-- `fluka_gq` (FLUKASurfaceCard.py 129-162). -/
def flukaGq (io : NumIO K) (s : Surface K) : Py Str := do
  let xs ← pickCoeffs s.coeffs [0, 1, 2, 3, 5, 4, 6, 7, 8, 9]
  .ok (flukaHead c!"QUA" s ++ xs.flatMap (fun x => c!" " ++ io.render x ++ c!" ") ++ c!"\n")

/-- The end point and the height of a one-sheet cone along the axis with bounding coordinates `lo` and `hi` and apex `x` (FLUKASurfaceCard.py 170-180, 228-236, 287-295). For any other selector
than -1 and 1 the x cone has height 0 at 0 (172-173, printed as integers in the code), the others fail. -/
def flukaSheet (ty : SType) (sel lo hi x : K) : Py (K × K) :=
  if sel = -1 then .ok (lo, |lo| + x)
  else if sel = 1 then .ok (hi, -1 * (hi - x))
  else if ty = .coneX then .ok (0, 0)
  else .error .unboundLocal

/-- The quadric that `fluka_cone_x`, `fluka_cone_y` and `fluka_cone_z` put in place of a two-sheet cone (FLUKASurfaceCard.py 203-219, 262-278, 321-337). -/
def flukaConeGq (ty : SType) (x y z t : K) : List K :=
  match ty with
  | .coneX => [t, 1, 1, 0, 0, 0, -2 * t * x, -2 * y, -2 * z, t * x ^ 2 + y ^ 2 + z ^ 2]
  | .coneY => [1, t, 1, 0, 0, 0, -2 * x, -2 * t * y, -2 * z, x ^ 2 + t * y ^ 2 + z ^ 2]
  | _ => [1, 1, t, 0, 0, 0, -2 * x, -2 * y, -2 * t * z, x ^ 2 + y ^ 2 + t * z ^ 2]

/-- `fluka_cone_x`, `fluka_cone_y`, `fluka_cone_z` (FLUKASurfaceCard.py 167-338): the text and the surface afterwards, whose coefficients are overwritten for two sheets. -/
def flukaCone (io : NumIO K) (sqrt : K → K) (s : Surface K) : Py (Str × Surface K) := do
  let sel ← pyGet s.coeffs 4
  let x ← pyGet s.coeffs 0
  let y ← pyGet s.coeffs 1
  let z ← pyGet s.coeffs 2
  let t ← pyGet s.coeffs 3
  if sel ≠ 0 then do
    let (axis, apex) := (match s.type with | .coneX => (0, x) | .coneY => (1, y) | _ => (2, z) : Nat × K)
    let lo ← pyGet s.bbox (2 * axis)
    let hi ← pyGet s.bbox (2 * axis + 1)
    let (e, h) ← flukaSheet s.type sel lo hi apex
    if t < 0 then .error .valueError
    else
      let r := |h| * sqrt t
      let body := match s.type with
        | .coneX => io.render e ++ c!" " ++ io.render y ++ c!" " ++ io.render z ++ c!" " ++ io.render h ++ c!" 0. 0. "
        | .coneY => io.render x ++ c!" " ++ io.render e ++ c!" " ++ io.render z ++ c!" " ++ c!"0. " ++ io.render h ++ c!" 0. "
        | _ => io.render x ++ c!" " ++ io.render y ++ c!" " ++ io.render e ++ c!" " ++ c!"0. 0. " ++ io.render h ++ c!" "
      .ok (flukaHead c!"TRC" s ++ c!" " ++ body ++ io.render r ++ c!" 0.0\n", s)
  else do
    let s := { s with coeffs := flukaConeGq s.type x y z t }
    let text ← flukaGq io s
    .ok (text, s)

/-- `write_fluka_surface` (FLUKASurfaceCard.py 377-434): the text and the surface afterwards. -/
def flukaSurface (io : NumIO K) (sqrt : K → K) (s : Surface K) : Py (Str × Surface K) :=
  let plane (kw : Str) : Py (Str × Surface K) := do
    let d ← pyGet s.coeffs 3
    .ok (flukaHead kw s ++ c!" " ++ io.render d ++ c!"\n", s)
  let cylinder (kw : Str) (idx : List Nat) : Py (Str × Surface K) := do
    let xs ← pickCoeffs s.coeffs idx
    .ok (flukaHead kw s ++ c!" " ++ xs.flatMap (fun x => io.render x ++ c!" ") ++ c!"\n", s)
  match s.type with
  | .planeGeneral => (flukaPlane io s).map (·, s)
  | .planeX => plane c!"YZP"
  | .planeY => plane c!"XZP"
  | .planeZ => plane c!"XYP"
  | .cylinderX => cylinder c!"XCC" [0, 1, 2]
  | .cylinderY => cylinder c!"YCC" [1, 0, 2]
  | .cylinderZ => cylinder c!"ZCC" [0, 1, 2]
  | .sphereGeneral => do
    let xs ← pickCoeffs s.coeffs [0, 1, 2, 3]
    .ok (flukaHead c!"SPH" s ++ c!" " ++ join c!" " (xs.map io.render) ++ c!"\n", s)
  | .coneX => flukaCone io sqrt s
  | .coneY => flukaCone io sqrt s
  | .coneZ => flukaCone io sqrt s
  | .torusX => .ok (c!"* Surface TORUS_X not supported\n", s)
  | .torusY => .ok (c!"* Surface TORUS_Y not supported\n", s)
  | .torusZ => .ok (c!"* Surface TORUS_Z not supported\n", s)
  | .generalQuadratic => (flukaGq io s).map (·, s)
  | _ => .ok (c!"surface not supported\n", s)

end

end Csg
