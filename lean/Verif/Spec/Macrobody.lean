import Verif.Spec.Geometry
import Verif.Spec.Complement

/-!
# What a macrobody means

Solids and facets, written down from the MCNP manual (macrobodies RPP, BOX and RCC), and the truth value of the words of a cell
description at a point. Nothing here refers to functions of the model, except for `isMacrobody`, which is a test on the type.
-/

namespace Csg.Spec

section
variable {K : Type} [Field K] [LinearOrder K]

/-- The inner product. -/
def dot (p q : Point K) : K := p.x * q.x + p.y * q.y + p.z * q.z

def Point.add (p q : Point K) : Point K := ⟨p.x + q.x, p.y + q.y, p.z + q.z⟩

def Point.scale (t : K) (p : Point K) : Point K := ⟨t * p.x, t * p.y, t * p.z⟩

def Point.sub (p q : Point K) : Point K := ⟨p.x - q.x, p.y - q.y, p.z - q.z⟩

/-- The points `v + s₁ a₁ + s₂ a₂ + s₃ a₃` for parameters in a set. -/
def InBox (S : K → Prop) (v a₁ a₂ a₃ p : Point K) : Prop :=
  ∃ s₁ s₂ s₃, S s₁ ∧ S s₂ ∧ S s₃ ∧ p = ((v.add (a₁.scale s₁)).add (a₂.scale s₂)).add (a₃.scale s₃)

/-- The points `b + t h + q` with `q` at right angles to `h`, for parameters `t` in a set and squared lengths of `q` in a set. -/
def InCylinder (S R : K → Prop) (b h p : Point K) : Prop :=
  ∃ t q, S t ∧ dot q h = 0 ∧ R (dot q q) ∧ p = (b.add (h.scale t)).add q

/-- The points strictly inside a macrobody. -/
def Inside : SType → List K → Point K → Prop
  | .macroRPP, [x0, x1, y0, y1, z0, z1], p => (x0 < p.x ∧ p.x < x1) ∧ (y0 < p.y ∧ p.y < y1) ∧ (z0 < p.z ∧ p.z < z1)
  | .macroBOX, [x, y, z, a1, b1, c1, a2, b2, c2, a3, b3, c3], p =>
    InBox (fun s => 0 < s ∧ s < 1) ⟨x, y, z⟩ ⟨a1, b1, c1⟩ ⟨a2, b2, c2⟩ ⟨a3, b3, c3⟩ p
  | .macroRCC, [x, y, z, a, b, c, r], p => InCylinder (fun t => 0 < t ∧ t < 1) (fun d => d < r ^ 2) ⟨x, y, z⟩ ⟨a, b, c⟩ p
  | _, _, _ => False

/-- The points strictly outside a macrobody: not in the closed solid. -/
def Outside : SType → List K → Point K → Prop
  | .macroRPP, [x0, x1, y0, y1, z0, z1], p => ¬ ((x0 ≤ p.x ∧ p.x ≤ x1) ∧ (y0 ≤ p.y ∧ p.y ≤ y1) ∧ (z0 ≤ p.z ∧ p.z ≤ z1))
  | .macroBOX, [x, y, z, a1, b1, c1, a2, b2, c2, a3, b3, c3], p =>
    ¬ InBox (fun s => 0 ≤ s ∧ s ≤ 1) ⟨x, y, z⟩ ⟨a1, b1, c1⟩ ⟨a2, b2, c2⟩ ⟨a3, b3, c3⟩ p
  | .macroRCC, [x, y, z, a, b, c, r], p => ¬ InCylinder (fun t => 0 ≤ t ∧ t ≤ 1) (fun d => d ≤ r ^ 2) ⟨x, y, z⟩ ⟨a, b, c⟩ p
  | _, _, _ => False

/-- A function that is positive on the positive side of facet `k` and negative on the negative side. RPP: upper and lower x, y, z. BOX: end and
beginning of each edge. RCC: the cylinder, the end and the beginning of the axis. The positive side is the one away from the solid. -/
def facetValue : SType → List K → Nat → Point K → Option K
  | .macroRPP, [x0, x1, y0, y1, z0, z1], k, p => [p.x - x1, x0 - p.x, p.y - y1, y0 - p.y, p.z - z1, z0 - p.z][k - 1]?
  | .macroBOX, [x, y, z, a1, b1, c1, a2, b2, c2, a3, b3, c3], k, p =>
    let q : Point K := p.sub ⟨x, y, z⟩
    let e₁ : Point K := ⟨a1, b1, c1⟩
    let e₂ : Point K := ⟨a2, b2, c2⟩
    let e₃ : Point K := ⟨a3, b3, c3⟩
    [dot (q.sub e₁) e₁, -dot q e₁, dot (q.sub e₂) e₂, -dot q e₂, dot (q.sub e₃) e₃, -dot q e₃][k - 1]?
  | .macroRCC, [x, y, z, a, b, c, r], k, p =>
    let q : Point K := p.sub ⟨x, y, z⟩
    let h : Point K := ⟨a, b, c⟩
    [dot h h * (dot q q - r ^ 2) - dot q h ^ 2, dot (q.sub h) h, -dot q h][k - 1]?
  | _, _, _, _ => none

/-- The number of facets. -/
def facetCount : SType → Nat
  | .macroRPP => 6
  | .macroBOX => 6
  | .macroRCC => 3
  | _ => 0

/-- A macrobody that the manual allows: six numbers; three edges at right angles, none of them zero; an axis that is not zero. -/
def ProperBody : SType → List K → Prop
  | .macroRPP, [_, _, _, _, _, _] => True
  | .macroBOX, [_, _, _, a1, b1, c1, a2, b2, c2, a3, b3, c3] =>
    let e₁ : Point K := ⟨a1, b1, c1⟩
    let e₂ : Point K := ⟨a2, b2, c2⟩
    let e₃ : Point K := ⟨a3, b3, c3⟩
    dot e₁ e₁ ≠ 0 ∧ dot e₂ e₂ ≠ 0 ∧ dot e₃ e₃ ≠ 0 ∧ dot e₁ e₂ = 0 ∧ dot e₂ e₃ = 0 ∧ dot e₁ e₃ = 0
  | .macroRCC, [_, _, _, a, b, c, _] => a ^ 2 + b ^ 2 + c ^ 2 ≠ 0
  | _, _ => False

/-- The square root function is right on a number. -/
def RootAt (sqrt : K → K) (x : K) : Prop := 0 ≤ sqrt x ∧ sqrt x ^ 2 = x

/-- The square root function is right on the squared lengths that occur in a macrobody. -/
def Roots (sqrt : K → K) : SType → List K → Prop
  | .macroBOX, [_, _, _, a1, b1, c1, a2, b2, c2, a3, b3, c3] =>
    RootAt sqrt (a1 ^ 2 + b1 ^ 2 + c1 ^ 2) ∧ RootAt sqrt (a2 ^ 2 + b2 ^ 2 + c2 ^ 2) ∧ RootAt sqrt (a3 ^ 2 + b3 ^ 2 + c3 ^ 2)
  | .macroRCC, [_, _, _, a, b, c, _] => RootAt sqrt (a ^ 2 + b ^ 2 + c ^ 2)
  | _, _ => True

/-- The number of coefficients that belongs to the type. -/
def BodyShape : SType → List K → Prop
  | .macroRPP, [_, _, _, _, _, _] => True
  | .macroBOX, [_, _, _, _, _, _, _, _, _, _, _, _] => True
  | .macroRCC, [_, _, _, _, _, _, _] => True
  | _, _ => False

/-- The point is on the given side (`true`: positive) of a surface or macrobody. -/
def OnSide (sqrt : K → K) (s : Surface K) (p : Point K) (positive : Bool) : Prop :=
  if s.isMacrobody then (if positive then Outside s.type s.coeffs p else Inside s.type s.coeffs p)
  else side sqrt s.type s.coeffs p = some (if positive then .pos else .neg)

/-- The truth value of a signed surface number at a point. `place` carries the point into the system of coordinates that the transformation
of a surface names. -/
def surfaceSense (sqrt : K → K) (place : Option Str → Point K → Point K) (surfs : List (Surface K)) (p : Point K) (z : Int) : Prop :=
  ∃ s ∈ surfs, s.id = z.natAbs ∧ OnSide sqrt s (place s.transform p) (0 < z)

/-- The word for facet `k` of the macrobody with number `n`. -/
def facetWord (negative : Bool) (n : Int) (k : Nat) : Str := (if negative then c!"-" else []) ++ intStr n ++ c!"." ++ natStr k

/-- The truth value of a facet word at a point. -/
def facetSense (place : Option Str → Point K → Point K) (surfs : List (Surface K)) (p : Point K) (w : Str) : Prop :=
  ∃ s ∈ surfs, ∃ neg k v, w = facetWord neg s.id k ∧ 1 ≤ k ∧ facetValue s.type s.coeffs k (place s.transform p) = some v ∧
    (if neg then v < 0 else 0 < v)

/-- The truth value of a word of a cell description at a point. -/
def pointSense (sqrt : K → K) (place : Option Str → Point K → Point K) (surfs : List (Surface K)) (p : Point K) (w : Str) : Prop :=
  wordSense (surfaceSense sqrt place surfs p) w ∨ facetSense place surfs p w

/-- The description `text` over the surfaces `surfs` is an expression that is true exactly at the points of `S`. -/
def Describes (sqrt : K → K) (surfs : List (Surface K)) (text : Str) (S : Point K → Prop) : Prop :=
  ∀ p, Legal (lexGeometry text) ∧ (Holds (pointSense sqrt (fun _ q => q) surfs p) (lexGeometry text) ↔ S p)

/-- A word that flattening handles: `#` with a cell number, the number of a surface or macrobody in the usual notation with or without sign, or a
facet of a macrobody. Left out are the facets 2 and 3 of an RCC (C15), and facets of a body whose number ends with that of another body. -/
def KnownWord (surfs : List (Surface K)) (w : Str) : Prop :=
  (∃ n, w = refWord n) ∨
  (∃ s ∈ surfs, w = intStr s.id ∨ w = '-' :: intStr s.id) ∨
  ∃ s ∈ surfs, s.isMacrobody = true ∧ ∃ neg k, w = facetWord neg s.id k ∧ (1 ≤ k ∧ k ≤ facetCount s.type) ∧ (s.type = .macroRCC → k = 1) ∧
    ∀ m ∈ surfs, m.isMacrobody = true → intStr m.id <:+ intStr s.id → m.id = s.id

/-- A cell as it is after a card is read: the material is an integer, and the description is an expression that agrees with its list of words. -/
structure ReadCell (c : Cell K) : Prop where
  material : ∃ m : Int, c.material = .int m ∧ 0 ≤ m ∧ (m = 0 → c.density = 0)
  legal : Legal (tokenSyms c.text)
  parsed : itemSyms c.interpreted = tokenSyms c.text

/-- In the description each `#` on its own stands before an opening parenthesis. -/
def HashOpen (ws : List Str) : Prop := ∀ a b, ws = a ++ c!"#" :: b → b.head? = some c!"("

/-- Every word of the description that is a number is the number of a surface other than a macrobody. -/
def NumbersPlain {K : Type} (surfs : List (Surface K)) (ws : List Str) : Prop :=
  ∀ w ∈ ws, ∀ z, parseInt w = some z → ∃ s ∈ surfs, s.isMacrobody = false ∧ s.id = z.natAbs

/-- The same point set: `c` over the surfaces `surfs` and `c'` over `surfs'` hold at the same points, however the other cells and the transformations
are. -/
def SamePoints (sqrt : K → K) (surfs surfs' : List (Surface K)) (c c' : Cell K) : Prop :=
  ∀ (place : Option Str → Point K → Point K) (p : Point K) (T : Int → Prop),
    Holds (cellSense (pointSense sqrt place surfs p) T) (itemSyms c.interpreted) ↔
      Holds (cellSense (pointSense sqrt place surfs' p) T) (itemSyms c'.interpreted)

end

end Csg.Spec
