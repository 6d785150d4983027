import Verif.Model.Cell
import Verif.Model.SurfaceCard

/-!
# Macrobodies (`MCNPInput.py` 386-509, 704-964)

The helpers `__macro_rcc_cylinder`, `__simplify_cone` and `__simplify_cones` (511-700) are not called by the code and not modelled.
-/

namespace Csg

section
variable {K : Type} [Field K] [LinearOrder K]

/-- Cards made one after another from the texts that follow the number; each takes the next free number. -/
def newCards (io : NumIO K) : Int → List Str → Py (List (Surface K))
  | _, [] => .ok []
  | last, t :: ts => do
    let s ← classify io (intStr (last + 1) ++ t)
    let r ← newCards io (last + 1) ts
    .ok (s :: r)

/-- The description of the inside: the negative sides of all surfaces. The texts that `explode_macrobody` and
`__macro_rcc_cylinder_arbitrary` build piece by piece differ only in the closing text. -/
def insideText (close : Str) (ids : List Int) : Str := c!"(" ++ (ids.flatMap fun i => c!" -" ++ intStr i) ++ close

/-- The description of the outside: the positive side of one of the surfaces. -/
def outsideText (opening sep : Str) (ids : List Int) : Str := opening ++ join sep (ids.map intStr) ++ c!")"

/-- What `explode_macrobody` returns, with the new value of `last_free_surface_index`. -/
structure Exploded (K : Type) where
  inside : Str
  outside : Str
  surfs : List (Surface K)
  last : Int
  deriving DecidableEq, Repr

/-- The texts of the six planes for an RPP (MCNPInput.py 712-753). -/
def rppTexts (io : NumIO K) (x0 x1 y0 y1 z0 z1 : K) : List Str :=
  [c!" px " ++ io.render x1, c!" p -1.0 0 0 " ++ io.render (-1 * x0),
    c!" py " ++ io.render y1, c!" p 0 -1.0 0 " ++ io.render (-1 * y0),
    c!" pz " ++ io.render z1, c!" p 0 0 -1.0 " ++ io.render (-1 * z0)]

/-- The text of a general plane from `__make_new_plane` (MCNPInput.py 388-391) or lines 469-472 and 486-489. -/
def planeText (io : NumIO K) (a b c d : K) : Str :=
  c!" p " ++ io.render a ++ c!" " ++ io.render b ++ c!" " ++ io.render c ++ c!" " ++ io.render d

/-- The ten coefficients of the cylinder (MCNPInput.py 406-447) around the unit vector `(u, v, w)` through `(x, y, z)`. -/
def rccQuadric (u v w x y z r : K) : List K :=
  let g0 := 1 - u ^ 2
  let g1 := 1 - v ^ 2
  let g2 := 1 - w ^ 2
  let g3 := -2 * u * v
  let g4 := -2 * v * w
  let g5 := -2 * u * w
  [g0, g1, g2, g3, g4, g5, -y * g3 - z * g5 - 2 * x * g0, -x * g3 - z * g4 - 2 * y * g1, -x * g5 - y * g4 - 2 * z * g2,
    x * y * g3 + y * z * g4 + x * z * g5 + x ^ 2 * g0 + y ^ 2 * g1 + z ^ 2 * g2 - r ^ 2]

/-- The text of the cylinder (MCNPInput.py 452-455), which ends with a blank. -/
def quadricText (io : NumIO K) (cs : List K) : Str := c!" gq " ++ cs.flatMap fun x => io.render x ++ c!" "

/-- The texts of the three surfaces for an RCC with the unit vector `(u, v, w)` (MCNPInput.py 452-493). -/
def rccTexts (io : NumIO K) (u v w x y z a b c r : K) : List Str :=
  let d1 := u * x + v * y + w * z
  let d2 := u * (x + a) + v * (y + b) + w * (z + c)
  [quadricText io (rccQuadric u v w x y z r), planeText io (-1 * u) (-1 * v) (-1 * w) (-d1), planeText io u v w d2]

/-- The texts of the two planes across one edge of a BOX (MCNPInput.py 802-835) with the unit vector `(u, v, w)`. -/
def boxPair (io : NumIO K) (u v w x y z a b c : K) : List Str :=
  let d1 := u * x + v * y + w * z
  let d2 := u * (x + a) + v * (y + b) + w * (z + c)
  [planeText io u v w d2, planeText io (-1 * u) (-1 * v) (-1 * w) (-1 * d1)]

/-- `explode_macrobody` (MCNPInput.py 704-873) with `__macro_rcc_cylinder_arbitrary` (397-509). `sqrt` is the square root in `np.norm`.
Simplification: for a zero vector NumPy divides by zero and goes on with `nan`; here this is an error. -/
def explodeMacrobody (io : NumIO K) (sqrt : K → K) (last : Int) (s : Surface K) : Py (Exploded K) :=
  match s.type with
  | .macroRPP => do
    let x0 ← pyGet s.coeffs 0
    let x1 ← pyGet s.coeffs 1
    let y0 ← pyGet s.coeffs 2
    let y1 ← pyGet s.coeffs 3
    let z0 ← pyGet s.coeffs 4
    let z1 ← pyGet s.coeffs 5
    let l ← newCards io last (rppTexts io x0 x1 y0 y1 z0 z1)
    .ok ⟨insideText c!" )" (l.map Surface.id), outsideText c!"( " c!" : " (l.map Surface.id), l, last + 6⟩
  | .macroRCC => do
    let x ← pyGet s.coeffs 0
    let y ← pyGet s.coeffs 1
    let z ← pyGet s.coeffs 2
    let a ← pyGet s.coeffs 3
    let b ← pyGet s.coeffs 4
    let c ← pyGet s.coeffs 5
    let r ← pyGet s.coeffs 6
    let n := sqrt (a ^ 2 + b ^ 2 + c ^ 2)
    if n = 0 then .error .zeroDivision
    else do
      let l ← newCards io last (rccTexts io (a / n) (b / n) (c / n) x y z a b c r)
      .ok ⟨insideText c!")" (l.map Surface.id), outsideText c!"(" c!":" (l.map Surface.id), l, last + 3⟩
  | .macroBOX => do
    let x ← pyGet s.coeffs 0
    let y ← pyGet s.coeffs 1
    let z ← pyGet s.coeffs 2
    let a1 ← pyGet s.coeffs 3
    let b1 ← pyGet s.coeffs 4
    let c1 ← pyGet s.coeffs 5
    let a2 ← pyGet s.coeffs 6
    let b2 ← pyGet s.coeffs 7
    let c2 ← pyGet s.coeffs 8
    let a3 ← pyGet s.coeffs 9
    let b3 ← pyGet s.coeffs 10
    let c3 ← pyGet s.coeffs 11
    let n1 := sqrt (a1 ^ 2 + b1 ^ 2 + c1 ^ 2)
    let n2 := sqrt (a2 ^ 2 + b2 ^ 2 + c2 ^ 2)
    let n3 := sqrt (a3 ^ 2 + b3 ^ 2 + c3 ^ 2)
    if n1 = 0 ∨ n2 = 0 ∨ n3 = 0 then .error .zeroDivision
    else do
      let l ← newCards io last (boxPair io (a1 / n1) (b1 / n1) (c1 / n1) x y z a1 b1 c1 ++
        boxPair io (a2 / n2) (b2 / n2) (c2 / n2) x y z a2 b2 c2 ++ boxPair io (a3 / n3) (b3 / n3) (c3 / n3) x y z a3 b3 c3)
      .ok ⟨insideText c!")" (l.map Surface.id), outsideText c!"( " c!":" (l.map Surface.id), l, last + 6⟩
  | _ => .ok ⟨[], [], [], last⟩

end

/-- The text after an optional minus sign. -/
def dropMinus (w : Str) : Str :=
  match w with
  | '-' :: t => t
  | t => t

/-- The regular expression `^-?(id)(\.+[1-9])?$` of `__flatten_macrobodies` (MCNPInput.py 912-914). The words have no newline. -/
def refersTo (id : Int) (w : Str) : Bool :=
  let t := dropMinus w
  if (intStr id).isPrefixOf t then
    let rest := t.drop (intStr id).length
    rest.isEmpty ||
      (match rest with
      | '.' :: _ =>
        match rest.dropWhile (· == '.') with
        | [d] => isDigit d && d != '0'
        | _ => false
      | _ => false)
  else false

/-- The body of the loop over the words (MCNPInput.py 925-956): a reference to the body or to a facet is replaced. -/
def flattenWord {K : Type} (id : Int) (inside outside : Str) (news : List (Surface K)) (w : Str) : Py Str :=
  let r := if intStr id = w then outside else if '-' :: intStr id = w then inside else w
  if hasInfix (intStr id ++ c!".") w then do
    let t ← pyGet (splitOnChar '.' w) 1
    let k ← pyInt t
    let s ← pyGetI news (k - 1)
    .ok (if w.elem '-' then c!"-" ++ intStr s.id else intStr s.id)
  else .ok r

/-- The `while` loop on the words of a cell (MCNPInput.py 906-958); `none` if it has not ended within the given number of rounds. -/
def flattenWords {K : Type} (id : Int) (inside outside : Str) (news : List (Surface K)) : Nat → List Str → Option (Py (List Str))
  | 0, _ => none
  | fuel + 1, ws =>
    if ws.any (refersTo id) then
      match ws.mapM (flattenWord id inside outside news) with
      | .error e => some (.error e)
      | .ok ws => flattenWords id inside outside news fuel ws
    else some (.ok ws)

section
variable {K : Type} [Field K] [LinearOrder K]

/-- One cell (MCNPInput.py 905-961). The `while` loop ends in the second round (`flattenWords_ok` in Lemmas/FlattenDeck.lean); not ending is not
an exception of the code, and `exception` here stands for it. -/
def flattenCell (io : NumIO K) (cosDeg : K → K) (id : Int) (inside outside : Str) (news : List (Surface K)) (c : Cell K) : Py (Cell K) :=
  match flattenWords id inside outside news 3 c.text with
  | none => .error .exception
  | some (.error e) => .error e
  | some (.ok ws) => Cell.update io cosDeg { c with text := ws } (join c!" " ws)

/-- The loop over the surfaces (MCNPInput.py 885-961): cells, new surfaces and last number. Surfaces that are appended in the loop are visited
by Python too, but they are no macrobodies. -/
def flattenGo (io : NumIO K) (cosDeg sqrt : K → K) : List (Surface K) → List (Cell K) → Int → Py (List (Cell K) × List (Surface K) × Int)
  | [], cells, last => .ok (cells, [], last)
  | s :: ss, cells, last =>
    if s.isMacrobody then do
      let e ← explodeMacrobody io sqrt last s
      let news := match s.transform with
        | none => e.surfs
        | some t => e.surfs.map fun n => { n with transform := some t }
      let cells ← cells.mapM (flattenCell io cosDeg s.id e.inside e.outside news)
      let (cells, more, last) ← flattenGo io cosDeg sqrt ss cells e.last
      .ok (cells, news ++ more, last)
    else flattenGo io cosDeg sqrt ss cells last

/-- `__flatten_macrobodies` (MCNPInput.py 877-964): the new cells, surfaces and last number. -/
def flatten (io : NumIO K) (cosDeg sqrt : K → K) (cells : List (Cell K)) (surfs : List (Surface K)) (last : Int) :
    Py (List (Cell K) × List (Surface K) × Int) := do
  let (cells, more, last) ← flattenGo io cosDeg sqrt surfs cells last
  .ok (cells, (surfs ++ more).filter fun s => !s.isMacrobody, last)

end

end Csg
