import Verif.Spec.Geometry
import Verif.Model.Num

/-!
# Surfaces in the other codes

How Serpent, OpenMC, SCONE and FLUKA read a surface, written down from their manuals. A surface is a keyword and a list of numbers; the value is the sense of a point. Nothing here refers
to functions of the model.
-/

namespace Csg.Spec

/-- Printing `x` with `print` gives one word made of digits, signs, the point and the letter e, which the other code reads as `x`. -/
structure Prints {K : Type} (read : Str → Option K) (print : K → Str) (x : K) : Prop where
  ne_nil : print x ≠ []
  chars : ∀ c ∈ print x, isDigit c = true ∨ c = '+' ∨ c = '-' ∨ c = '.' ∨ c = 'e'
  reads : read (print x) = some x

section
variable {K : Type} [Field K] [LinearOrder K]

/-- The side of a general quadric with coefficients of x², y², z², xy, yz, zx, x, y, z, 1. -/
def quadricSide (a b c d e f g h j k : K) (p : Point K) : Side :=
  sideOf (a * p.x ^ 2 + b * p.y ^ 2 + c * p.z ^ 2 + d * p.x * p.y + e * p.y * p.z + f * p.z * p.x + g * p.x + h * p.y + j * p.z + k)

/-- The side of a cone: `u` is the offset along the axis, `r` the squared distance from it, `t` the squared tangent, `s` the selector. -/
def coneSide (u r t s : K) : Side := if s = 0 then sideOf (r - t * u ^ 2) else nappeSide (s * u) (r - t * u ^ 2)

/-- Serpent surfaces. -/
def serpentTable (sqrt : K → K) : List (Str × (List K → Point K → Option Side)) := [
  (c!"px", fun ns p => match ns with | [d] => some (sideOf (p.x - d)) | _ => none),
  (c!"py", fun ns p => match ns with | [d] => some (sideOf (p.y - d)) | _ => none),
  (c!"pz", fun ns p => match ns with | [d] => some (sideOf (p.z - d)) | _ => none),
  (c!"plane", fun ns p => match ns with | [a, b, c, d] => some (sideOf (a * p.x + b * p.y + c * p.z - d)) | _ => none),
  (c!"sph", fun ns p => match ns with | [x, y, z, r] => some (sideOf ((p.x - x) ^ 2 + (p.y - y) ^ 2 + (p.z - z) ^ 2 - r ^ 2)) | _ => none),
  (c!"cylx", fun ns p => match ns with | [y, z, r] => some (sideOf ((p.y - y) ^ 2 + (p.z - z) ^ 2 - r ^ 2)) | _ => none),
  (c!"cyly", fun ns p => match ns with | [x, z, r] => some (sideOf ((p.x - x) ^ 2 + (p.z - z) ^ 2 - r ^ 2)) | _ => none),
  (c!"cylz", fun ns p => match ns with | [x, y, r] => some (sideOf ((p.x - x) ^ 2 + (p.y - y) ^ 2 - r ^ 2)) | _ => none),
  (c!"quadratic", fun ns p => match ns with | [a, b, c, d, e, f, g, h, j, k] => some (quadricSide a b c d e f g h j k p) | _ => none),
  (c!"ckx", fun ns p => match ns with
    | [x, y, z, t, s] => some (coneSide (p.x - x) ((p.y - y) ^ 2 + (p.z - z) ^ 2) t s)
    | [x, y, z, t] => some (coneSide (p.x - x) ((p.y - y) ^ 2 + (p.z - z) ^ 2) t 0) | _ => none),
  (c!"cky", fun ns p => match ns with
    | [x, y, z, t, s] => some (coneSide (p.y - y) ((p.x - x) ^ 2 + (p.z - z) ^ 2) t s)
    | [x, y, z, t] => some (coneSide (p.y - y) ((p.x - x) ^ 2 + (p.z - z) ^ 2) t 0) | _ => none),
  (c!"ckz", fun ns p => match ns with
    | [x, y, z, t, s] => some (coneSide (p.z - z) ((p.x - x) ^ 2 + (p.y - y) ^ 2) t s)
    | [x, y, z, t] => some (coneSide (p.z - z) ((p.x - x) ^ 2 + (p.y - y) ^ 2) t 0) | _ => none),
  (c!"torx", fun ns p => match ns with
    | [x, y, z, a, b, c] => some (sideOf ((p.x - x) ^ 2 / b ^ 2 + (sqrt ((p.y - y) ^ 2 + (p.z - z) ^ 2) - a) ^ 2 / c ^ 2 - 1)) | _ => none),
  (c!"tory", fun ns p => match ns with
    | [x, y, z, a, b, c] => some (sideOf ((p.y - y) ^ 2 / b ^ 2 + (sqrt ((p.x - x) ^ 2 + (p.z - z) ^ 2) - a) ^ 2 / c ^ 2 - 1)) | _ => none),
  (c!"torz", fun ns p => match ns with
    | [x, y, z, a, b, c] => some (sideOf ((p.z - z) ^ 2 / b ^ 2 + (sqrt ((p.x - x) ^ 2 + (p.y - y) ^ 2) - a) ^ 2 / c ^ 2 - 1)) | _ => none)]

/-- The sense of a point with respect to a Serpent surface. -/
def serpentSide (sqrt : K → K) (kw : Str) (ns : List K) (p : Point K) : Option Side := ((serpentTable sqrt).lookup kw).bind fun f => f ns p

/-- OpenMC surfaces: the attributes `type` and `coeffs`. -/
def openmcTable (sqrt : K → K) : List (Str × (List K → Point K → Option Side)) := [
  (c!"x-plane", fun ns p => match ns with | [d] => some (sideOf (p.x - d)) | _ => none),
  (c!"y-plane", fun ns p => match ns with | [d] => some (sideOf (p.y - d)) | _ => none),
  (c!"z-plane", fun ns p => match ns with | [d] => some (sideOf (p.z - d)) | _ => none),
  (c!"plane", fun ns p => match ns with | [a, b, c, d] => some (sideOf (a * p.x + b * p.y + c * p.z - d)) | _ => none),
  (c!"sphere", fun ns p => match ns with | [x, y, z, r] => some (sideOf ((p.x - x) ^ 2 + (p.y - y) ^ 2 + (p.z - z) ^ 2 - r ^ 2)) | _ => none),
  (c!"x-cylinder", fun ns p => match ns with | [y, z, r] => some (sideOf ((p.y - y) ^ 2 + (p.z - z) ^ 2 - r ^ 2)) | _ => none),
  (c!"y-cylinder", fun ns p => match ns with | [x, z, r] => some (sideOf ((p.x - x) ^ 2 + (p.z - z) ^ 2 - r ^ 2)) | _ => none),
  (c!"z-cylinder", fun ns p => match ns with | [x, y, r] => some (sideOf ((p.x - x) ^ 2 + (p.y - y) ^ 2 - r ^ 2)) | _ => none),
  (c!"quadric", fun ns p => match ns with | [a, b, c, d, e, f, g, h, j, k] => some (quadricSide a b c d e f g h j k p) | _ => none),
  (c!"x-cone", fun ns p => match ns with | [x, y, z, t] => some (sideOf ((p.y - y) ^ 2 + (p.z - z) ^ 2 - t * (p.x - x) ^ 2)) | _ => none),
  (c!"y-cone", fun ns p => match ns with | [x, y, z, t] => some (sideOf ((p.x - x) ^ 2 + (p.z - z) ^ 2 - t * (p.y - y) ^ 2)) | _ => none),
  (c!"z-cone", fun ns p => match ns with | [x, y, z, t] => some (sideOf ((p.x - x) ^ 2 + (p.y - y) ^ 2 - t * (p.z - z) ^ 2)) | _ => none),
  (c!"x-torus", fun ns p => match ns with
    | [x, y, z, a, b, c] => some (sideOf ((p.x - x) ^ 2 / b ^ 2 + (sqrt ((p.y - y) ^ 2 + (p.z - z) ^ 2) - a) ^ 2 / c ^ 2 - 1)) | _ => none),
  (c!"y-torus", fun ns p => match ns with
    | [x, y, z, a, b, c] => some (sideOf ((p.y - y) ^ 2 / b ^ 2 + (sqrt ((p.x - x) ^ 2 + (p.z - z) ^ 2) - a) ^ 2 / c ^ 2 - 1)) | _ => none),
  (c!"z-torus", fun ns p => match ns with
    | [x, y, z, a, b, c] => some (sideOf ((p.z - z) ^ 2 / b ^ 2 + (sqrt ((p.x - x) ^ 2 + (p.y - y) ^ 2) - a) ^ 2 / c ^ 2 - 1)) | _ => none)]

/-- The sense of a point with respect to an OpenMC surface. -/
def openmcSide (sqrt : K → K) (kw : Str) (ns : List K) (p : Point K) : Option Side := ((openmcTable sqrt).lookup kw).bind fun f => f ns p

/-- The boundary types that OpenMC reads. -/
def openmcBoundaryMeaning : List (Str × BC) := [
  (c!"transmission", .transmission), (c!"transmit", .transmission), (c!"vacuum", .vacuum), (c!"reflective", .reflecting), (c!"reflect", .reflecting),
  (c!"reflecting", .reflecting), (c!"white", .white), (c!"periodic", .periodic)]

/-- FLUKA bodies. A point is on the negative side if it is inside the body. `TRC` is a truncated cone with base point, height vector, and radii at base and top. -/
def flukaTable : List (Str × (List K → Point K → Option Side)) := [
  (c!"YZP", fun ns p => match ns with | [d] => some (sideOf (p.x - d)) | _ => none),
  (c!"XZP", fun ns p => match ns with | [d] => some (sideOf (p.y - d)) | _ => none),
  (c!"XYP", fun ns p => match ns with | [d] => some (sideOf (p.z - d)) | _ => none),
  (c!"PLA", fun ns p => match ns with
    | [a, b, c, x, y, z] => if a = 0 ∧ b = 0 ∧ c = 0 then none else some (sideOf (a * (p.x - x) + b * (p.y - y) + c * (p.z - z))) | _ => none),
  (c!"SPH", fun ns p => match ns with | [x, y, z, r] => some (sideOf ((p.x - x) ^ 2 + (p.y - y) ^ 2 + (p.z - z) ^ 2 - r ^ 2)) | _ => none),
  (c!"XCC", fun ns p => match ns with | [y, z, r] => some (sideOf ((p.y - y) ^ 2 + (p.z - z) ^ 2 - r ^ 2)) | _ => none),
  (c!"YCC", fun ns p => match ns with | [z, x, r] => some (sideOf ((p.x - x) ^ 2 + (p.z - z) ^ 2 - r ^ 2)) | _ => none),
  (c!"ZCC", fun ns p => match ns with | [x, y, r] => some (sideOf ((p.x - x) ^ 2 + (p.y - y) ^ 2 - r ^ 2)) | _ => none),
  (c!"QUA", fun ns p => match ns with | [a, b, c, xy, xz, yz, g, h, j, k] => some (quadricSide a b c xy yz xz g h j k p) | _ => none),
  (c!"TRC", fun ns p => match ns with
    | [x, y, z, hx, hy, hz, r₁, r₂] =>
      let l := hx ^ 2 + hy ^ 2 + hz ^ 2
      let s := ((p.x - x) * hx + (p.y - y) * hy + (p.z - z) * hz) / l
      if l = 0 then none
      else some (sideOf (max (max (-s) (s - 1))
        ((p.x - x) ^ 2 + (p.y - y) ^ 2 + (p.z - z) ^ 2 - s ^ 2 * l - (r₁ + s * (r₂ - r₁)) ^ 2)))
    | _ => none)]

/-- The sense of a point with respect to a FLUKA body. -/
def flukaSide (kw : Str) (ns : List K) (p : Point K) : Option Side := (flukaTable.lookup kw).bind fun f => f ns p

end

/-- How many numbers belong to a FLUKA body. -/
def flukaArity : List (Str × Nat) :=
  [(c!"YZP", 1), (c!"XZP", 1), (c!"XYP", 1), (c!"PLA", 6), (c!"SPH", 4), (c!"XCC", 3), (c!"YCC", 3), (c!"ZCC", 3), (c!"QUA", 10), (c!"TRC", 8)]

/-! ## SCONE dictionaries -/

/-- The characters that are words by themselves in a SCONE dictionary. -/
def isSconeMark (c : Char) : Bool := c == '(' || c == ')' || c == '{' || c == '}' || c == ';'

/-- The words of a SCONE dictionary, with the word read so far. -/
def sconeWordsGo (acc : Str) : Str → List Str
  | [] => if acc = [] then [] else [acc]
  | c :: cs =>
    if isSpace c then (if acc = [] then [] else [acc]) ++ sconeWordsGo [] cs
    else if isSconeMark c then (if acc = [] then [] else [acc]) ++ [c] :: sconeWordsGo [] cs
    else sconeWordsGo (acc ++ [c]) cs

/-- The words of a SCONE dictionary. -/
def sconeWords (s : Str) : List Str := sconeWordsGo [] s

/-- The entries up to the closing brace: each ends with a semicolon. There is no dictionary among them. -/
def sconeChunks (cur : List Str) : List Str → Option (List (List Str))
  | [] => none
  | t :: ts =>
    if t = c!"{" then none
    else if t = c!"}" then (if cur = [] ∧ ts = [] then some [] else none)
    else if t = c!";" then (sconeChunks [] ts).map (cur :: ·)
    else sconeChunks (cur ++ [t]) ts

/-- An entry: a keyword and a word or a list of words in parentheses. -/
def sconeEntry : List Str → Option (Str × List Str)
  | [k, v] => some (k, [v])
  | k :: o :: vs => if o = c!"(" ∧ vs.getLast? = some c!")" then some (k, vs.dropLast) else none
  | _ => none

/-- A dictionary `name { entries }`. -/
def sconeDictionary (text : Str) : Option (Str × List (Str × List Str)) :=
  match sconeWords text with
  | name :: o :: ts => if o = c!"{" then ((sconeChunks [] ts).bind fun cs => cs.mapM sconeEntry).map (name, ·) else none
  | _ => none

section
variable {K : Type} [Field K] [LinearOrder K]

/-- The numbers of an entry. -/
def sconeNumbers (read : Str → Option K) (es : List (Str × List Str)) (key : Str) : Option (List K) := (es.lookup key).bind fun ws => ws.mapM read

/-- The side of a cone that is cut off at the offsets `lo` and `hi` from the vertex. -/
def sconeConeSide (u r t lo hi : K) : Side := sideOf (max (r - t * u ^ 2) (max (lo - u) (u - hi)))

/-- SCONE surfaces: the names of the entries besides `type` and `id`, and the meaning of their numbers in this order. `tanSq` is the squared tangent of an angle in degrees. -/
def sconeTable (tanSq : K → K) : List (Str × List Str × (List (List K) → Point K → Option Side)) := [
  (c!"xPlane", [c!"x0"], fun ns p => match ns with | [[d]] => some (sideOf (p.x - d)) | _ => none),
  (c!"yPlane", [c!"y0"], fun ns p => match ns with | [[d]] => some (sideOf (p.y - d)) | _ => none),
  (c!"zPlane", [c!"z0"], fun ns p => match ns with | [[d]] => some (sideOf (p.z - d)) | _ => none),
  (c!"plane", [c!"coeffs"], fun ns p => match ns with | [[a, b, c, d]] => some (sideOf (a * p.x + b * p.y + c * p.z - d)) | _ => none),
  (c!"sphere", [c!"origin", c!"radius"], fun ns p => match ns with
    | [[x, y, z], [r]] => some (sideOf ((p.x - x) ^ 2 + (p.y - y) ^ 2 + (p.z - z) ^ 2 - r ^ 2)) | _ => none),
  (c!"xCylinder", [c!"origin", c!"radius"], fun ns p => match ns with
    | [[_, y, z], [r]] => some (sideOf ((p.y - y) ^ 2 + (p.z - z) ^ 2 - r ^ 2)) | _ => none),
  (c!"yCylinder", [c!"origin", c!"radius"], fun ns p => match ns with
    | [[x, _, z], [r]] => some (sideOf ((p.x - x) ^ 2 + (p.z - z) ^ 2 - r ^ 2)) | _ => none),
  (c!"zCylinder", [c!"origin", c!"radius"], fun ns p => match ns with
    | [[x, y, _], [r]] => some (sideOf ((p.x - x) ^ 2 + (p.y - y) ^ 2 - r ^ 2)) | _ => none),
  (c!"quadric", [c!"coeffs"], fun ns p => match ns with
    | [[a, b, c, d, e, f, g, h, j, k]] => some (quadricSide a b c d e f g h j k p) | _ => none),
  (c!"xCone", [c!"vertex", c!"angle", c!"hMin", c!"hMax"], fun ns p => match ns with
    | [[x, y, z], [w], [lo], [hi]] => some (sconeConeSide (p.x - x) ((p.y - y) ^ 2 + (p.z - z) ^ 2) (tanSq w) lo hi) | _ => none),
  (c!"yCone", [c!"vertex", c!"angle", c!"hMin", c!"hMax"], fun ns p => match ns with
    | [[x, y, z], [w], [lo], [hi]] => some (sconeConeSide (p.y - y) ((p.x - x) ^ 2 + (p.z - z) ^ 2) (tanSq w) lo hi) | _ => none),
  (c!"zCone", [c!"vertex", c!"angle", c!"hMin", c!"hMax"], fun ns p => match ns with
    | [[x, y, z], [w], [lo], [hi]] => some (sconeConeSide (p.z - z) ((p.x - x) ^ 2 + (p.y - y) ^ 2) (tanSq w) lo hi) | _ => none)]

/-- The sense of a point with respect to a SCONE surface. -/
def sconeSide (read : Str → Option K) (tanSq : K → K) (es : List (Str × List Str)) (p : Point K) : Option Side :=
  match es.lookup c!"type" with
  | some [ty] => ((sconeTable tanSq).lookup ty).bind fun (keys, f) => (keys.mapM (sconeNumbers read es)).bind fun ns => f ns p
  | _ => none

/-- The offset of a point from the apex along the axis of a cone. -/
def coneOffset : SType → List K → Point K → Option K
  | .coneX, [x, _, _, _, _], p => some (p.x - x)
  | .coneY, [_, y, _, _, _], p => some (p.y - y)
  | .coneZ, [_, _, z, _, _], p => some (p.z - z)
  | _, _, _ => none

end

/-- Cones. -/
def IsCone (ty : SType) : Prop := ty = .coneX ∨ ty = .coneY ∨ ty = .coneZ

/-- Tori. -/
def IsTorus (ty : SType) : Prop := ty = .torusX ∨ ty = .torusY ∨ ty = .torusZ

end Csg.Spec
