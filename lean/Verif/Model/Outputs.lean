import Verif.Model.MaterialWriters
import Verif.Model.OpenMCInput
import Verif.Model.Xml
import Verif.Model.Process
import Verif.Model.Scone
import Verif.Model.SurfaceWriters
import Mathlib.Data.List.Sort
import Mathlib.Control.Monad.Basic

/-!
# Whole output files and the main program (`__main__.py`)

A file is modelled by its complete text. If an exception is raised while it is written, the code leaves the first part of the file behind; this is not modelled.
-/

namespace Csg

/-- The result of a writer: an exception, or nothing if a loop has not ended within the given number of rounds, or a value. -/
abbrev W := OptionT (Except PyErr)

/-- What the writers take from Python and from its numbers: rounds for loops, number formats (`{:f}`, `{:e}`, `{:.4e}`, `{:.3e}`), the square root, the arcus tangent in degrees and the orders in which
sets of nuclides and of integers are visited. -/
structure Env (K : Type) where
  fuel : Nat
  io : NumIO K
  fixed : K → Str
  sci : K → Str
  sci4 : K → Str
  sci3 : K → Str
  sqrt : K → K
  degAtan : K → K
  orderStr : List Str → List Str
  orderInt : List Int → List Int

/-- The objects that all decks share after `from_input` (Input.py 75-82). -/
structure Shared (K : Type) where
  cells : List (Cell K)
  surfaces : List (Surface K)
  materials : List (Str × Material K)
  universes : List (UniverseCard K)

/-- The output codes. -/
inductive Code
  | mcnp
  | serpent
  | openmc
  | phits
  | fluka
  | scone
  deriving DecidableEq, Repr

/-- What is written for a code: a text file, or for OpenMC the two xml files. -/
inductive OutFile
  | text (s : Str)
  | xml (geometry materials : Str)
  deriving DecidableEq, Repr

section
variable {K : Type} [Field K] [LinearOrder K]

/-- The texts of a list of cards, one after the other. -/
def cards {α : Type} (f : α → Py (Option Str)) (l : List α) : W Str := do
  let ts ← l.mapM fun x => (OptionT.mk (f x) : W Str)
  pure ts.flatten

/-- The same for a writer that has no loop without bound. -/
def cards' {α : Type} (f : α → Py Str) (l : List α) : W Str := cards (fun x => (f x).map some) l

/-- `write_mcnp` (MCNPInput.py 1382-1411). The deck is a new one, so `preserve_xsid` is off (33). The keys are sorted by `sorted`. -/
def mcnpFile (e : Env K) (cells : List (Cell K)) (surfs : List (Surface K)) (mats : List (Str × Material K)) : W Str := do
  let cs ← cards (fun c => writeMcnpCell e.fuel e.io c true) cells
  let ss ← cards (writeMcnpSurface e.fuel e.io) surfs
  let ms ← cards' (fun m => writeMcnpMaterial e.io false true m.2) (mats.insertionSort fun a b => a.1 ≤ b.1)
  pure (c!"C cell definitions\n" ++ cs ++ c!"\n" ++ c!"C surface definitions\n" ++ ss ++ c!"\n" ++ c!"C material definitions\n" ++ ms)

/-- `write_serpent` (SerpentInput.py 104-131). -/
def serpentFile (e : Env K) (cells : List (Cell K)) (surfs : List (Surface K)) (mats : List (Str × Material K)) : W Str := do
  let ss ← cards' (serpentSurface e.io e.fixed) surfs
  let cs ← cards (fun c => (writeSerpentCell e.fuel e.io c).map (Option.map fun t => t.1 ++ t.2)) cells
  pure (c!"% --- surface definitions --- %\n" ++ ss ++ c!"% --- cell definitions --- %\n" ++ cs ++ c!"% --- material definitions --- %\n" ++
    mats.flatMap fun m => writeSerpentMaterial e.io e.sci m.2)

/-- `write_openmc` (OpenMCInput.py 47-59, 103-119). -/
def openmcFiles (e : Env K) (cells : List (Cell K)) (surfs : List (Surface K)) (mats : List (Str × Material K)) : W OutFile := do
  let ss ← (surfs.mapM (openmcSurface e.io) : Py (List OpenmcSurface))
  let cs ← (cells.mapM (writeOpenmcCell e.io) : Py (List OpenMCCellElem))
  let cs ← (OptionT.mk (match checkUnusedUniverses e.fuel cs with | none => .ok none | some r => r.map some) : W (List OpenMCCellElem))
  let ms ← (mats.mapM (fun m => writeOpenmcMaterial e.io m.2) : Py (List OpenmcMaterial))
  pure (.xml (geometryXml ss cs) (materialsXml ms))

/-- `write_phits` (PhitsInput.py 17-77). -/
def phitsFile (e : Env K) (cells : List (Cell K)) (surfs : List (Surface K)) (mats : List (Str × Material K)) : W Str := do
  let ss ← cards (writeMcnpSurface e.fuel e.io) surfs
  let cs ← cards (fun c => writeMcnpCell e.fuel e.io c false) cells
  let ms ← cards' (fun m => writeMcnpMaterial e.io true false m.2) mats
  pure (c!"[ T I T L E ]\nThis PHITS file was produced automatically by csg2csg \n\n[ P A R A M E T E R S ]\nicntl = 11\nmaxbch = 10\nmaxcas = 1000000\n" ++ c!"\n" ++
    c!"[ S U R F A C E ]\n" ++ ss ++ c!"\n" ++ c!"[ C E L L ]\n" ++ cs ++ c!"\n" ++ phitsImportances e.io cells ++ c!"\n" ++ c!"[ M A T E R I A L ]\n" ++ ms ++ c!"\n")

/-- `write_fluka` (FLUKAInput.py 233-258, 323-397): the text and the surfaces and materials afterwards. -/
def flukaFile (e : Env K) (cells : List (Cell K)) (surfs : List (Surface K)) (mats : List (Str × Material K)) :
    W (Str × List (Surface K) × List (Str × Material K)) := do
  let ss ← (surfs.mapM (flukaSurface e.io e.sqrt) : Py (List (Str × Surface K)))
  let cs ← cards' writeFlukaCell cells
  let (ms, mats) ← (OptionT.mk (writeFlukaMaterials e.fuel e.io e.sci3 (e.orderStr (mats.flatMap fun m => m.2.composition.map Prod.fst).dedup) mats) : W _)
  pure (flukaRuler ++ c!"TITLE\n input deck automatically created by csg2csg\n" ++ flukaRuler ++
    c!"* --- surface definitions --- *\n" ++ flukaRuler ++ c!"GEOBEGIN                                                              COMBNAME\n" ++ c!"    0    0\n" ++
    (ss.map Prod.fst).flatten ++ c!"END\n" ++ flukaRuler ++ c!"* --- cell definitions --- *\n" ++ cs ++ c!"END\n" ++ c!"GEOEND\n" ++ flukaRuler ++
    flukaImportances e.sci4 cells ++ flukaRuler ++ writeAssignmats cells ++ ms ++ flukaRuler ++ c!"STOP\n", ss.map Prod.snd, mats)

/-- The ids of the universes of the cells (Input.py 96-99). -/
def universeIds (cells : List (Cell K)) : Py (List Int) := do
  let us ← cells.mapM fun c => pyInt (optText c.uni)
  .ok us.dedup

/-- `write_scone` (SCONEInput.py 21-101): the text and the universes afterwards. -/
def sconeFile (e : Env K) (cells : List (Cell K)) (surfs : List (Surface K)) (mats : List (Str × Material K)) (unis : List (UniverseCard K)) :
    W (Str × List (UniverseCard K)) := do
  let ss ← cards' (sconeSurface e.io e.fixed e.sqrt e.degAtan) surfs
  let cs ← cards (writeSconeCell e.fuel) cells
  let ids ← (universeIds cells : Py (List Int))
  let unis ← (createUniverses (e.orderInt ids) unis cells : Py (List (UniverseCard K)))
  let us ← cards (writeSconeUniverse e.fuel e.io) unis
  let ms ← cards' (fun m => writeSconeMaterial e.sci m.2) mats
  pure (c!"geometry { \n" ++ c!"type geometryStd; \n" ++ c!"boundary (0 0 0 0 0 0); \n" ++ c!"graph {type shrunk;} \n" ++
    c!"! --- surface definitions --- !\n" ++ c!"surfaces { \n" ++ ss ++ c!"} \n" ++ c!"! --- cell definitions --- !\n" ++ c!"cells { \n" ++ cs ++ c!"} \n" ++
    c!"! --- universe definitions --- !\n" ++ c!"universes { \n" ++ us ++ c!"} \n" ++ c!"} \n" ++
    c!"nuclearData { \n" ++ c!"handles { \n" ++ c!"ce {type aceNeutronDatabase; " ++ c!"aceLibrary $SCONE_ACE; ures 0;} \n" ++ c!"} \n" ++
    c!"! --- material definitions --- !\n" ++ c!"materials { \n" ++ ms ++ c!"} \n" ++ c!"} \n", unis)

/-- The body of one branch in lines 99-134 of `__main__.py`: what is written and the shared objects afterwards. -/
def writeCode (e : Env K) (c : Code) (s : Shared K) : W (OutFile × Shared K) :=
  match c with
  | .mcnp => do let t ← mcnpFile e s.cells s.surfaces s.materials; pure (.text t, s)
  | .serpent => do let t ← serpentFile e s.cells s.surfaces s.materials; pure (.text t, s)
  | .openmc => do let t ← openmcFiles e s.cells s.surfaces s.materials; pure (t, s)
  | .phits => do let t ← phitsFile e s.cells s.surfaces s.materials; pure (.text t, s)
  | .fluka => do
    let (t, ss, ms) ← flukaFile e s.cells s.surfaces s.materials
    pure (.text t, { s with surfaces := ss, materials := ms })
  | .scone => do
    let (t, us) ← sconeFile e s.cells s.surfaces s.materials s.universes
    pure (.text t, { s with universes := us })

/-- The branches that a word of the list enters, in the order of the code (`__main__.py` 98-134). -/
def codesOf (w : Str) : List Code :=
  (if hasInfix c!"serpent" w then [.serpent] else []) ++ (if hasInfix c!"mcnp" w then [.mcnp] else []) ++ (if hasInfix c!"openmc" w then [.openmc] else []) ++
    (if hasInfix c!"phits" w then [.phits] else []) ++ (if hasInfix c!"fluka" w then [.fluka] else []) ++ (if hasInfix c!"scone" w then [.scone] else [])

/-- The codes that are written, in order (`__main__.py` 74-77, 98-134). `none` if there is no `-o`: then the value is the string `all`, which contains itself. -/
def selectCodes : Option (List Str) → List Code
  | none => [c!"mcnp", c!"serpent", c!"openmc", c!"phits", c!"fluka", c!"scone"].flatMap codesOf
  | some ws => (if c!"all" ∈ ws then [c!"mcnp", c!"serpent", c!"openmc", c!"phits", c!"fluka", c!"scone"] else ws).flatMap codesOf

/-- The loop in lines 98-134 of `__main__.py`: the files in the order in which they are written. -/
def writeCodes (e : Env K) : List Code → Shared K → W (List (Code × OutFile))
  | [], _ => pure []
  | c :: cs, s => do
    let (t, s) ← writeCode e c s
    let ts ← writeCodes e cs s
    pure ((c, t) :: ts)

/-- `main` after reading (`__main__.py` 74-134): the universe list of a deck that was read is empty (Input.py 24). -/
def mainWrite (e : Env K) (output : Option (List Str)) (d : Deck K) : W (List (Code × OutFile)) :=
  writeCodes e (selectCodes output) { cells := d.cells, surfaces := d.surfaces, materials := d.materials, universes := [] }

/-- `main` for an MCNP file (`__main__.py` 72-136), from the text of the file and the options `-q` and `-o`. The rest of the command line, the log and the directories are not modelled. -/
def convert (e : Env K) (cosDeg : K → K) (quick : Bool) (output : Option (List Str)) (text : Str) : W (List (Code × OutFile)) := do
  let d ← (OptionT.mk (match processDeck e.fuel e.io cosDeg e.sqrt quick (readText text) with | none => .ok none | some r => r.map some) : W (Deck K))
  mainWrite e output d

end

end Csg
