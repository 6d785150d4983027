import Verif.Model.Fluka
import Verif.Model.OpenMCMaterial

/-!
# The material writers of MCNP, PHITS, Serpent, OpenMC and SCONE, the importances of PHITS and FLUKA and the material reader of Serpent
-/

namespace Csg

section
variable {K : Type}

/-- One nuclide of `write_mcnp_material` (MCNPMaterialCard.py 16-21). -/
def mcnpNuclide (io : NumIO K) (xsid : List (Str × Str)) (preserve : Bool) (e : Str × K) : Py Str := do
  let x ← (if preserve then (match xsid.lookup e.1 with | some x => .ok (c!"." ++ x) | none => .error .keyError) else .ok [] : Py Str)
  .ok (c!"     " ++ e.1 ++ x ++ c!" " ++ io.render e.2 ++ c!"\n")

/-- `write_mcnp_material` (MCNPMaterialCard.py 9-23). -/
def writeMcnpMaterial (io : NumIO K) (preserve comment : Bool) (m : Material K) : Py Str := do
  let ws ← m.composition.mapM (mcnpNuclide io m.xsid preserve)
  .ok ((if comment then c!"C Material " ++ m.name ++ c!"\n" else []) ++ c!"M" ++ m.number ++ ws.flatten)

/-- `write_serpent_material` (SerpentMaterialCard.py 7-23). The colour is never set, see `Material`. `sci` is the format `{:e}`. Simplification: a density that was never assigned is the integer 0 in
the code and is printed as `0`. -/
def writeSerpentMaterial (io : NumIO K) (sci : K → Str) (m : Material K) : Str :=
  c!"% " ++ m.name ++ c!"\n" ++ c!"mat " ++ m.number ++ c!" " ++ io.render m.density ++ c!"\n" ++
    m.composition.flatMap fun e => e.1 ++ c!" " ++ sci e.2 ++ c!" \n"

variable [Field K] [LinearOrder K]

/-- A nuclide element for OpenMC; `mass` says whether the fraction is in the attribute `wo` instead of `ao`. -/
structure OpenmcNuclide where
  name : Str
  mass : Bool
  frac : Str
  deriving DecidableEq, Repr

/-- A material element for OpenMC. -/
structure OpenmcMaterial where
  id : Str
  name : Str
  density : Str
  units : Str
  nuclides : List OpenmcNuclide
  deriving DecidableEq, Repr

/-- `write_openmc_material` (OpenMCMaterial.py 146-176). -/
def writeOpenmcMaterial (io : NumIO K) (m : Material K) : Py OpenmcMaterial := do
  let ns ← m.composition.mapM fun (e : Str × K) => (do
    let n ← zaidToName e.1
    .ok { name := n, mass := decide (e.2 < (0 : K)), frac := io.render |e.2| } : Py OpenmcNuclide)
  .ok { id := m.number, name := m.name, density := io.render |m.density|, units := if m.density < 0 then c!"g/cc" else c!"atom/b-cm", nuclides := ns }

/-- The sum in lines 19-21 of SCONEMaterialCard.py. -/
def sconeMolarMass (comp : List (Str × K)) : Py K :=
  comp.foldlM (fun s e => do let z ← pyInt e.1; .ok (s + e.2 * ((z % 1000 : Int) : K))) 0

/-- `adens` (SCONEMaterialCard.py 15-23). -/
def sconeDensity (m : Material K) : Py K :=
  if 0 < m.density then .ok m.density
  else do
    let mass ← sconeMolarMass m.composition
    if mass = 0 then .error .zeroDivision else .ok (-m.density * (602214 / 1000000) / mass)

/-- `write_scone_material` (SCONEMaterialCard.py 7-38). The colour is never set, see `Material`. -/
def writeSconeMaterial (sci : K → Str) (m : Material K) : Py Str := do
  let a ← sconeDensity m
  .ok (c!"! " ++ m.name ++ c!" \n" ++ c!"m" ++ m.number ++ c!" { \n" ++ c!"composition { \n" ++
    m.composition.flatMap (fun e => e.1 ++ c!".03 " ++ sci (e.2 * a) ++ c!"; \n") ++ c!"} \n" ++ c!"} \n")

/-- `__write_phits_importances` (PhitsInput.py 43-54). -/
def phitsImportances (io : NumIO K) (cells : List (Cell K)) : Str :=
  c!"[ I M P O R T A N C E ]\n" ++ c!"   reg       imp   \n" ++
    cells.flatMap fun c => c!"    " ++ intStr c.id ++ c!"        " ++ io.render c.importance ++ c!"\n"

/-- The largest and the smallest importance (FLUKAInput.py 262-269). -/
def flukaRange (cells : List (Cell K)) : K × K :=
  cells.foldl (fun r c => (if r.1 < c.importance then c.importance else r.1, if 0 < c.importance ∧ c.importance < r.2 then c.importance else r.2)) (1, 1000000000)

/-- `max_importance` after scaling (FLUKAInput.py 271-273). Both numbers are positive, so nothing is divided by 0. The warning (275-278) is left out. -/
def flukaScale (cells : List (Cell K)) : K :=
  (flukaRange cells).1 / ((flukaRange cells).2 * ((flukaRange cells).1 / 10000))

/-- The importance that is written (FLUKAInput.py 284-290). -/
def flukaBias (scale : K) (c : Cell K) : K :=
  let i := if c.importance = 0 then 1 / 10000 else c.importance / scale
  if 100000 < i then 100000 else i

/-- `__write_fluka_importances` (FLUKAInput.py 261-300). `sci4` is the format `{:.4e}`. -/
def flukaImportances (sci4 : K → Str) (cells : List (Cell K)) : Str :=
  cells.flatMap fun c => ljust 10 c!"BIASING" ++ rjust 10 c!"3.0" ++ rjust 10 c!"1.0" ++ rjust 10 (sci4 (flukaBias (flukaScale cells) c)) ++
    rjust 10 (c!"C" ++ intStr c.id) ++ rjust 10 [] ++ rjust 10 [] ++ rjust 10 c!"PRINT" ++ c!"\n"

/-! ## Reading Serpent materials -/

/-- The loop in lines 52-64 of SerpentMaterialCard.py. -/
def serpentGo (io : NumIO K) (comp : List (Str × K)) (xs : List (Str × Str)) : List Str → Py (List (Str × K) × List (Str × Str))
  | [] => .ok (comp, xs)
  | [_] => .error .indexError
  | a :: b :: tokens => do
    let nucid ← pyGet (splitOnChar '.' a) 0
    let xsid := ((splitOnChar '.' a)[1]?).getD []
    let frac ← fortranNumber io b
    serpentGo io (dictSet comp nucid frac) (dictSet xs nucid xsid) tokens

/-- The constructor of `SerpentMaterialCard` (SerpentMaterialCard.py 30-64). -/
def readSerpentMaterial (io : NumIO K) (number : Nat) (name : Str) (density : K) (text : Str) : Py (Material K) :=
  let tokens := split (replaceChar '\n' c!" " text)
  if tokens.length % 2 ≠ 0 then .error .exception
  else do
    let (comp, xs) ← serpentGo io [] [] tokens
    .ok { name := name, number := natStr number, composition := comp, xsid := xs, density := density }

/-- The lines after a material line up to the next one (SerpentInput.py 33-51), each cut at `%`, joined. A line without words makes `split()[0]` fail. -/
def serpentBlock : List Str → Py Str
  | [] => .ok []
  | l :: ls => do
    let w ← pyGet (split l) 0
    if w = c!"mat" then .ok []
    else do
      let t ← serpentBlock ls
      .ok ((if l.elem '%' then sliceTo l (findChar '%' l) else l) ++ t)

/-- `__get_material_card` (SerpentInput.py 20-57). -/
def getSerpentMaterial (io : NumIO K) (number : Nat) (l : Str) (rest : List Str) : Py (Material K) := do
  let tokens := split l
  let name ← pyGet tokens 1
  let d ← pyGet tokens 2
  let density ← io.float d
  let text ← serpentBlock rest
  readSerpentMaterial io number name density (c!" " ++ text)

/-- `re.match(" *mat /*", line)` (SerpentInput.py 69). -/
def isSerpentMaterial (l : Str) : Bool := (l.dropWhile (· = ' ')).take 4 == c!"mat "

/-- `__get_material_cards` (SerpentInput.py 60-74). The key is the number of the card. -/
def getSerpentMaterials (io : NumIO K) (number : Nat) : List Str → Py (List (Str × Material K))
  | [] => .ok []
  | l :: ls =>
    if isSerpentMaterial l then do
      let m ← getSerpentMaterial io number l ls
      let ms ← getSerpentMaterials io (number + 1) ls
      .ok ((natStr number, m) :: ms)
    else getSerpentMaterials io number ls

/-- `process` (SerpentInput.py 78-101): blank lines and comment lines are dropped, then the materials are read. -/
def processSerpent (io : NumIO K) (lines : List Str) : Py (List (Str × Material K)) :=
  getSerpentMaterials io 1 (lines.filter fun l => ¬ isspace l ∧ ¬ (strip l).take 1 = c!"%")

end

end Csg
