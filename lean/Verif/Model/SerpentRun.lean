import Verif.Model.Outputs

/-!
# Runs with a Serpent file as input (`__main__.py` with `-f serpent`)

The Serpent reader reads nothing but materials (SerpentInput.py 78-101), so the lists of cells, surfaces and universes stay empty, as they are made in Input.py 24-26. The numbers of the materials and their keys are
integers here (SerpentInput.py 55, 62, 72), whereas they are strings for an MCNP file; `Material.number` is the text of the integer. This makes a difference in two places, which have their own definitions below.
-/

namespace Csg

section
variable {K : Type} [Field K] [LinearOrder K]

/-- `write_mcnp` (MCNPInput.py 1382-1411) without cells and surfaces. The keys are the integers 1, 2, … in this order, so that `sorted` in line 1400 changes nothing. -/
def serpentMcnp (e : Env K) (mats : List (Str × Material K)) : W Str := do
  let ms ← cards' (fun m => writeMcnpMaterial e.io false true m.2) mats
  pure (c!"C cell definitions\n" ++ c!"\n" ++ c!"C surface definitions\n" ++ c!"\n" ++ c!"C material definitions\n" ++ ms)

/-- `write_fluka` (FLUKAInput.py 381-397) without cells and surfaces. The names of the nuclides are looked up and the elements written first (330-355); then `"M" + material.material_number` in
FLUKAMaterialCard.py 60 raises a TypeError for the first material, as its number is an integer. -/
def serpentFluka (e : Env K) (mats : List (Str × Material K)) : W Str := do
  let map ← (collapsedMap (e.orderStr (mats.flatMap fun m => m.2.composition.map Prod.fst).dedup) : Py _)
  let _ ← (elementLines [] map : Py _)
  if mats.isEmpty then do
    let (t, _) ← flukaFile e [] [] mats
    pure t
  else liftM (.error .typeError : Py Str)

/-- The body of one branch in lines 99-134 of `__main__.py`. No branch changes what the others write: FLUKA only returns if there are no materials, and without cells there are no universes. -/
def serpentWrite (e : Env K) (mats : List (Str × Material K)) : Code → W OutFile
  | .mcnp => do let t ← serpentMcnp e mats; pure (.text t)
  | .serpent => do let t ← serpentFile e [] [] mats; pure (.text t)
  | .openmc => openmcFiles e [] [] mats
  | .phits => do let t ← phitsFile e [] [] mats; pure (.text t)
  | .fluka => do let t ← serpentFluka e mats; pure (.text t)
  | .scone => do let (t, _) ← sconeFile e [] [] mats []; pure (.text t)

/-- `main` for a Serpent file (`__main__.py` 84-88, 98-136), from the text of the file and the option `-o`. -/
def convertSerpent (e : Env K) (output : Option (List Str)) (text : Str) : W (List (Code × OutFile)) := do
  let mats ← (processSerpent e.io (readText text) : Py _)
  (selectCodes output).mapM fun c => do
    let t ← serpentWrite e mats c
    pure (c, t)

/-- `main` (`__main__.py` 72-136) with the options `-f`, `-q` and `-o`; the formats are the codes (lines 39-44). For other formats than MCNP and Serpent a NotImplementedError is raised (lines 89-96), which is
an `exception` here. -/
def runMain (e : Env K) (cosDeg : K → K) (quick : Bool) (format : Code) (output : Option (List Str)) (text : Str) : W (List (Code × OutFile)) :=
  match format with
  | .mcnp => convert e cosDeg quick output text
  | .serpent => convertSerpent e output text
  | _ => liftM (.error .exception : Py (List (Code × OutFile)))

end

end Csg
