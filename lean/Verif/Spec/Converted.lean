import Verif.Spec.FlukaFile
import Verif.Spec.OpenmcFile
import Verif.Spec.Outputs
import Verif.Spec.PhitsFile
import Verif.Spec.Processing
import Verif.Spec.SconeFile
import Verif.Spec.SerpentFile

/-!
# Points in the cells of an input file and of the written files

For each code: which points belong to a cell of a file, from the cards or entries that the code reads. Nothing here refers to functions that write or process.
-/

namespace Csg.Spec

section
variable {K : Type} [Field K] [LinearOrder K]

/-- The point lies in the cell with this number of the MCNP deck as read: with macrobodies, facets, complements of cells and TR cards. -/
def InDeckCell (sqrt : K → K) (d : Deck K) (n : Int) (p : Point K) : Prop :=
  ∃ T, IsCellTruth (pointSense sqrt (placeBy d.transforms) d.surfaces p) T d.cells ∧ T n

/-- The truth value of a signed surface number, where `at_` gives the sense of a point with respect to the surfaces. -/
def signed (at_ : Nat → Side → Prop) (z : Int) : Prop := at_ z.natAbs (if 0 < z then .pos else .neg)

/-- The file is written for the code when the text of an MCNP file is converted: for this code alone, and in every run in which FLUKA was not written before, and for SCONE in which SCONE was not written before. -/
def Converts (e : Env K) (cosDeg : K → K) (quick : Bool) (text : Str) (c : Code) (f : OutFile) : Prop :=
  Returns (convert e cosDeg quick (some [codeName c]) text) [(c, f)] ∧
    ∀ output files i t, Returns (convert e cosDeg quick output text) files → files[i]? = some (c, t) → (∀ g ∈ files.take i, g.1 ≠ .fluka ∧ (c = .scone → g.1 ≠ .scone)) → t = f

/-! ## Serpent -/

/-- The sense of a point with respect to a surface of a Serpent file. -/
def serpentAt (sqrt : K → K) (read : Str → Option K) (cards : List (List Str)) (p : Point K) (n : Nat) (d : Side) : Prop :=
  ∃ kw ws ns, c!"surf" :: natStr n :: kw :: ws ∈ cards ∧ ws.map read = ns.map some ∧ serpentSide sqrt kw ns p = some d

/-- The name and the region of a cell card: behind the content, which is `fill` and a universe or one word. -/
def serpentRegion : List Str → Option (Str × List Str)
  | kw :: name :: _ :: content :: ws =>
    if kw = c!"cell" then
      if content = c!"fill" then match ws with
        | _ :: g => some (name, g)
        | [] => none
      else some (name, ws)
    else none
  | _ => none

/-- The cells of a Serpent file: names and regions. -/
def serpentRegions (cards : List (List Str)) : List (Option (Str × List Str)) := (cards.filter fun c => decide (c.head? = some c!"cell")).map serpentRegion

/-- The point lies in a region of a Serpent file. -/
def InSerpent (sqrt : K → K) (read : Str → Option K) (cards : List (List Str)) (region : List Str) (p : Point K) : Prop :=
  Holds (wordSense (signed (serpentAt sqrt read cards p))) (region.flatMap lexSerpent)

/-! ## OpenMC -/

/-- The sense of a point with respect to a surface of an OpenMC file. -/
def openmcAt (sqrt : K → K) (io : NumIO K) (ss : List OpenmcSurface) (p : Point K) (n : Nat) (d : Side) : Prop :=
  ∃ s ∈ ss, s.id = natStr n ∧ ∃ ns, (split s.coeffs).map io.parse = ns.map some ∧ openmcSide sqrt s.type ns p = some d

/-- The point lies in a cell of an OpenMC file. -/
def InOpenmc (sqrt : K → K) (io : NumIO K) (ss : List OpenmcSurface) (c : OpenMCCellElem) (p : Point K) : Prop :=
  Holds (wordSense (signed (openmcAt sqrt io ss p))) (lexOpenmc c.region)

/-! ## PHITS -/

/-- The sense of a point with respect to a surface card of a PHITS file. The number may have a mark for the boundary. -/
def phitsAt (sqrt : K → K) (io : NumIO K) (cards : List (List Str)) (p : Point K) (n : Nat) (d : Side) : Prop :=
  ∃ mark ∈ [[], c!"*", c!"+"], ∃ mn ns vals, (mark ++ natStr n) :: mn :: ns ∈ cards ∧ Reads io ns vals ∧ cardSide sqrt mn vals p = some d

/-- The number and the region of a cell card: behind the density, which only a cell with material has, and before the first word that begins with a letter. -/
def phitsRegion : List Str → Option (Str × List Str)
  | name :: m :: ws => some (name, (if m = c!"0" then ws else ws.drop 1).takeWhile fun w => !((w.head?.map Char.isAlpha).getD false))
  | _ => none

/-- The point lies in a region of a PHITS file. -/
def InPhits (sqrt : K → K) (io : NumIO K) (cards : List (List Str)) (region : List Str) (p : Point K) : Prop :=
  Holds (wordSense (signed (phitsAt sqrt io cards p))) (region.flatMap lexGeometry)

/-! ## FLUKA -/

/-- The sense of a point with respect to a body of a FLUKA file. -/
def flukaAt (io : NumIO K) (bodies : List (Str × Str × List Str)) (p : Point K) (name : Str) (d : Side) : Prop :=
  ∃ kw ws ns, (kw, name, ws) ∈ bodies ∧ Reads io ws ns ∧ flukaSide kw ns p = some d

/-- The point lies in a region of a FLUKA file: the name of a body stands for its inside. -/
def InFluka (io : NumIO K) (bodies : List (Str × Str × List Str)) (region : Str) (p : Point K) : Prop :=
  ∃ syms, lexFluka region = some syms ∧ Holds (fun name => flukaAt io bodies p name .neg) syms

/-! ## SCONE -/

/-- The sense of a point with respect to a surface of a SCONE file. -/
def sconeAt (tanSq : K → K) (read : Str → Option K) (items : List SconeItem) (p : Point K) (n : Nat) (d : Side) : Prop :=
  ∃ (name : Str) (es : List (List Str)) (ds : List (Str × List Str)), .dict name (es.map .value) ∈ items ∧ es.mapM sconeEntry = some ds ∧ ds.lookup c!"id" = some [natStr n] ∧ sconeSide read tanSq ds p = some d

/-- The words of the first value with this keyword. -/
def sconeValue (key : Str) : List SconeItem → Option (List Str)
  | [] => none
  | .value (k :: ws) :: is => if k = key then some ws else sconeValue key is
  | _ :: is => sconeValue key is

/-- The number and the region of a cell of a SCONE file. The region stands in brackets. -/
def sconeRegion : SconeItem → Option (Str × List Str)
  | .dict _ items =>
    match sconeValue c!"id" items, sconeValue c!"surfaces" items with
    | some [id], some (b :: ws) => if b = c!"[" ∧ ws.getLast? = some c!"]" then some (id, ws.dropLast) else none
    | _, _ => none
  | _ => none

/-- The point lies in a region of a SCONE file. -/
def InScone (tanSq : K → K) (read : Str → Option K) (items : List SconeItem) (region : List Str) (p : Point K) : Prop :=
  Holds (wordSense (signed (sconeAt tanSq read items p))) (region.flatMap lexScone)

end

end Csg.Spec
