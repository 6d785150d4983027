import Verif.Model.Cell
import Verif.Model.Dedupe
import Verif.Model.MaterialData
import Mathlib.Data.List.Sort

/-!
# `MaterialCard.py`, `MCNPMaterialCard.py`, `MaterialData.py` and `__reorganise_materials`
-/

namespace Csg

/-- `MaterialData.get_nucs` (MaterialData.py 3669-3680) of an element identifier such as 26000. `nucid / 100` is exact, since `nucid` is a multiple of 10000. -/
def getNucs (element : Int) : List Int :=
  (materialData.filter fun d => 0 < (d.nucid : Int) - element * 10000 ∧ (d.nucid : Int) - element * 10000 < element * 100).map
    fun d => (d.nucid : Int) / 10000

/-- `MaterialData.get_zz` (MaterialData.py 3656-3659) for a positive number. -/
def getZZ (nuclide : Int) : Int := nuclide / 1000

/-- `MaterialData.get_aa` (MaterialData.py 3662-3665) for a positive number. -/
def getAA (nuclide : Int) : Int := nuclide - 1000 * (nuclide / 1000)

/-- `MaterialData.atomic_mass` (MaterialData.py 3683-3694). -/
def atomicMass (element : Int) : ℚ :=
  ((materialData.filter fun d => 0 < (d.nucid : Int) - element * 10000 ∧ (d.nucid : Int) - element * 10000 < element * 100).map
    fun d => d.abundance / 100 * d.mass).foldl (· + ·) 0

/-- `natural_abund_map[nuclide * 10000]`. -/
def abundance (nuclide : Int) : Py ℚ :=
  match materialData.find? fun d => (d.nucid : Int) = nuclide * 10000 with
  | some d => .ok d.abundance
  | none => .error .keyError

/-- `colours` (MaterialCard.py 6-77). -/
def colours : List Str :=
  [c!"0 208 31", c!"0 0 255", c!"255 255 0", c!"0 255 0", c!"0 255 255", c!"255 164 0", c!"255 192 202", c!"159 31 239", c!"164 42 42", c!"111 128 144", c!"239 255 255", c!"222 184 134", c!"126 255 0", c!"255 0 255", c!"255 126 80", c!"255 248 220", c!"177 33 33", c!"255 214 0", c!"239 255 239", c!"239 230 139", c!"175 47 95", c!"218 111 213", c!"218 164 31", c!"221 159 221", c!"255 245 237", c!"159 82 44", c!"215 190 215", c!"255 98 70", c!"64 223 208", c!"245 222 179", c!"249 128 113", c!"95 158 159", c!"184 133 10", c!"84 107 46", c!"106 90 205", c!"255 139 0", c!"153 49 204", c!"143 187 143", c!"46 79 79", c!"255 19 146", c!"0 190 255", c!"249 235 214", c!"255 239 245", c!"172 215 230", c!"237 221 130", c!"255 182 193", c!"30 144 255", c!"255 159 121", c!"134 206 249", c!"255 255 223", c!"185 84 210", c!"175 196 222", c!"146 111 219", c!"255 69 0", c!"151 250 151", c!"174 237 237", c!"219 111 146", c!"223 255 255", c!"65 105 224", c!"187 143 143", c!"134 206 235", c!"0 255 126", c!"70 130 180", c!"255 0 0", c!"0 0 0", c!"0 0 255", c!"191 0 0", c!"0 255 0", c!"191 0 255", c!"255 255 0", c!"255 255 255"]

/-- `get_material_colour` (MaterialCard.py 81-84). Python's `%` is never negative for a positive divisor. -/
def materialColour (idx : Int) : Py Str := pyGetI colours (idx % 63)

/-- The fields of a material (MaterialCard.py 97-107). Dictionaries are lists of entries in the order of insertion. The colour is left out: it is only set for a
density above 0 at a time when the density is still 0 (MCNPInput.py 209-210). -/
structure Material (K : Type) where
  name : Str
  number : Str
  composition : List (Str × K)
  xsid : List (Str × Str)
  density : K
  deriving DecidableEq, Repr

section
variable {K : Type} [Field K]

/-- The loop in lines 56-72 of `MCNPMaterialCard.__process_string`. -/
def compositionGo (io : NumIO K) (comp : List (Str × K)) (xs : List (Str × Str)) : List Str → Py (List (Str × K) × List (Str × Str))
  | [] => .ok (comp, xs)
  | [_] => .error .indexError
  | a :: b :: tokens => do
    let nucid ← pyGet (splitOnChar '.' a) 0
    let xsid := ((splitOnChar '.' a)[1]?).getD []
    let frac ← fortranNumber io b
    let comp := match comp.lookup nucid with
      | some x => dictSet comp nucid (x + frac)
      | none => dictSet comp nucid frac
    compositionGo io comp (dictSet xs nucid xsid) tokens

/-- The words of a material card without the keywords (MCNPMaterialCard.py 39-51). -/
def materialTokens (text : Str) : List Str := (split (replaceChar '\n' [] text)).filter fun w => ¬ w.elem '='

/-- The constructor of `MCNPMaterialCard` (MCNPMaterialCard.py 27-73). -/
def readMaterial (io : NumIO K) (number text : Str) : Py (Material K) := do
  let tokens := materialTokens text
  if tokens.length % 2 ≠ 0 then .error .sysExit
  else do
    let (comp, xs) ← compositionGo io [] [] tokens
    .ok { name := c!"M" ++ number, number := number, composition := comp, xsid := xs, density := 0 }

variable [LinearOrder K]

/-- `normalise` (MaterialCard.py 121-136). -/
def Material.normalise (m : Material K) : Py (Material K) :=
  let sum := |(m.composition.map Prod.snd).foldl (· + ·) 0|
  if m.composition ≠ [] ∧ sum = 0 then .error .zeroDivision
  else .ok { m with composition := m.composition.map fun e => (e.1, e.2 / sum) }

/-- Lines 149-168 of `explode_elements`, for one element with its fraction. -/
def explodeGo (element : Int) (frac : K) (new : List (Str × K)) : List Int → Py (List (Str × K))
  | [] => .ok new
  | n :: ns => do
    let a ← abundance n
    let x := if frac < 0 then frac * (a : K) / 100 * (atomicMass element : K) / (getAA n : K) else frac * (a : K) / 100
    explodeGo element frac (dictSet new (intStr n) x) ns

/-- The loop in lines 143-168 of `explode_elements`: the keys to remove and the new nuclides. -/
def explodeAll (keys : List Str) (new : List (Str × K)) : List (Str × K) → Py (List Str × List (Str × K))
  | [] => .ok (keys, new)
  | (nuc, frac) :: comp => do
    let z ← pyInt nuc
    if z % 1000 = 0 then do
      let new ← explodeGo z frac new (getNucs z)
      explodeAll (keys ++ [nuc]) new comp
    else explodeAll keys new comp

/-- `explode_elements` (MaterialCard.py 140-173). -/
def Material.explode (m : Material K) : Py (Material K) := do
  let (keys, new) ← explodeAll [] [] m.composition
  .ok { m with
    composition := new.foldl (fun d e => dictSet d e.1 e.2) (m.composition.filter fun e => e.1 ∉ keys)
    xsid := new.foldl (fun d e => dictSet d e.1 []) m.xsid }

end

/-! ## `__reorganise_materials` -/

/-- `__next_free_int` (MCNPInput.py 306-313). The first argument bounds the number of rounds; the number of keys is enough, as one of the numbers up to the number of keys plus one is free. -/
def nextFreeGo (keys : List Str) : Nat → Nat → Nat
  | 0, idx => idx
  | fuel + 1, idx => if natStr idx ∈ keys then nextFreeGo keys fuel (idx + 1) else idx

def nextFreeInt (keys : List Str) : Str := natStr (nextFreeGo keys keys.length 1)

section
variable {K : Type} [Field K] [LinearOrder K]

/-- The dictionary `material_density` (MCNPInput.py 319-335). The material numbers are integers at this time; a string, which would only make `sorted` fail, is not covered. -/
def materialDensity (d : List (Int × List K)) : List (Cell K) → Py (List (Int × List K))
  | [] => .ok d
  | c :: cs =>
    match c.material with
    | .str _ => .error .typeError
    | .int z =>
      match d.lookup z with
      | some ds => materialDensity (if c.density ∈ ds then d else dictSet d z (ds ++ [c.density])) cs
      | none => materialDensity (dictSet d z [c.density]) cs

/-- Lines 354-375: a copy of the material for each further density. -/
def copyMaterials (io : NumIO K) (mat : Int) : List K → List (Str × Material K) → List (Cell K) → Py (List (Str × Material K) × List (Cell K))
  | [], mats, cells => .ok (mats, cells)
  | density :: ds, mats, cells => do
    match mats.lookup (intStr mat) with
    | none => .error .keyError
    | some m =>
      let number := nextFreeInt (mats.map Prod.fst)
      let name := c!"Copy of Material " ++ intStr mat ++ c!" with density " ++ io.render density
      let mats := dictSet mats number { m with density := density, number := number, name := name }
      let cells := cells.map fun c => if c.material = .int mat ∧ c.density = density then { c with material := .str number } else c
      copyMaterials io mat ds mats cells

/-- Lines 346-378, the loop over the material numbers. The density of the first cell becomes the density of the material in both branches. -/
def assignDensities (io : NumIO K) : List (Int × List K) → List (Str × Material K) → List (Cell K) → Py (List (Str × Material K) × List (Cell K))
  | [], mats, cells => .ok (mats, cells)
  | (mat, ds) :: rest, mats, cells => do
    match mats.lookup (intStr mat) with
    | none => .error .keyError
    | some m =>
      let d0 ← pyGet ds 0
      let (mats, cells) ← copyMaterials io mat (ds.drop 1) (dictSet mats (intStr mat) { m with density := d0 }) cells
      assignDensities io rest mats cells

/-- `__reorganise_materials` (MCNPInput.py 318-383): the new material list and cells. -/
def reorganiseMaterials (io : NumIO K) (mats : List (Str × Material K)) (cells : List (Cell K)) : Py (List (Str × Material K) × List (Cell K)) := do
  let md ← materialDensity [] cells
  let md := md.filter fun e => e.1 ≠ 0
  if md = [] then .ok (mats, cells)
  else do
    let (mats, cells) ← assignDensities io (md.insertionSort fun a b => a.1 ≤ b.1) mats cells
    let mats ← mats.mapM fun e => do
      let m ← e.2.normalise
      let m ← m.explode
      .ok (e.1, m)
    .ok (mats, cells)

end

end Csg
