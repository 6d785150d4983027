import Mathlib.Data.Rat.Floor
import Mathlib.Data.Int.Log
import Verif.Model.Material
import Verif.Model.SurfaceWriters

/-!
# Materials, assignments and importances for FLUKA (FLUKAInput.py, FLUKAMaterialCard.py)
-/

namespace Csg

/-- `"{:<n}".format(s)`. -/
def ljust (n : Nat) (s : Str) : Str := s ++ List.replicate (n - s.length) ' '

/-- `"{:>n}".format(s)`. -/
def rjust (n : Nat) (s : Str) : Str := List.replicate (n - s.length) ' ' ++ s

/-- `fluka_special_mats` (FLUKAInput.py 15-39). -/
def flukaSpecial : List Str :=
  [
    c!"HYDROGEN", c!"HELIUM", c!"BERYLLIU", c!"CARBON", c!"NITROGEN", c!"OXYGEN", c!"MAGNESIU", c!"ALUMINUM", c!"IRON", c!"COPPER", c!"SILVER",
    c!"SILICON", c!"GOLD", c!"MERCURY", c!"LEAD", c!"TANTALUM", c!"SODIUM", c!"ARGON", c!"CALCIUM", c!"TIN", c!"TUNGSTEN", c!"TITANIUM", c!"NICKEL"]

/-- `zz_to_remove` (FLUKAInput.py 41-65). -/
def zzToRemove : List Int :=
  [
    34000, 37000, 39000, 44000, 45000, 59000, 61000, 63000, 66000, 67000, 68000, 69000, 70000, 76000, 81000, 84000, 85000, 86000, 87000, 88000,
    89000, 91000, 93000]

/-- `zz_to_fluka` (FLUKAInput.py 121-217). -/
def zzToFluka : List (Int × Str) :=
  [
    (1000, c!"HYDROGEN"), (1001, c!"HYDROG-1"), (1002, c!"DEUTERIU"), (1003, c!"TRITIUM"), (2000, c!"HELIUM"), (2003, c!"HELIUM-3"),
    (2004, c!"HELIUM-4"), (3000, c!"LITHIUM"), (3006, c!"LITHIU-6"), (3007, c!"LITHIU-7"), (4000, c!"BERYLLIU"), (5000, c!"BORON"),
    (5010, c!"BORON-10"), (5011, c!"BORON-11"), (6000, c!"CARBON"), (7000, c!"NITROGEN"), (8000, c!"OXYGEN"), (9000, c!"FLUORINE"),
    (10000, c!"NEON"), (11000, c!"SODIUM"), (12000, c!"MAGNESIU"), (13000, c!"ALUMINUM"), (14000, c!"SILICON"), (15000, c!"PHOSPHO"),
    (16000, c!"SULFUR"), (17000, c!"CHLORINE"), (18000, c!"ARGON"), (18040, c!"ARGON-40"), (19000, c!"POTASSIU"), (20000, c!"CALCIUM"),
    (21000, c!"SCANDIUM"), (22000, c!"TITANIUM"), (23000, c!"VANADIUM"), (24000, c!"CHROMIUM"), (25000, c!"MANGANES"), (26000, c!"IRON"),
    (27000, c!"COBALT"), (28000, c!"NICKEL"), (29000, c!"COPPER"), (30000, c!"ZINC"), (31000, c!"GALLIUM"), (32000, c!"GERMANIU"),
    (33000, c!"ARSENIC"), (35000, c!"BROMINE"), (36000, c!"KRYPTON"), (38000, c!"STRONTIU"), (38090, c!"90-SR"), (40000, c!"ZIRCONIU"),
    (41000, c!"NIOBIUM"), (42000, c!"MOLYBDEN"), (43000, c!"99-TC"), (46000, c!"PALLADIU"), (47000, c!"SILVER"), (48000, c!"CADMIUM"),
    (49000, c!"INDIUM"), (50000, c!"TIN"), (51000, c!"ANTIMONY"), (53000, c!"IODINE"), (53129, c!"129-I"), (54000, c!"XENON"), (54124, c!"124-XE"),
    (54126, c!"126-XE"), (54128, c!"128-XE"), (54129, c!"129-XE"), (54130, c!"130-XE"), (54131, c!"131-XE"), (54132, c!"132-XE"),
    (54134, c!"134-XE"), (54135, c!"135-XE"), (54136, c!"136-XE"), (55000, c!"CESIUM"), (55135, c!"135-CS"), (55137, c!"137-CS"),
    (56000, c!"BARIUM"), (57000, c!"LANTHANU"), (58000, c!"CERIUM"), (60000, c!"NEODYMIU"), (62000, c!"SAMARIUM"), (64000, c!"GADOLINI"),
    (65000, c!"TERBIUM"), (71000, c!"LUTETIUM"), (72000, c!"HAFNIUM"), (73000, c!"TANTALUM"), (74000, c!"TUNGSTEN"), (75000, c!"RHENIUM"),
    (77000, c!"IRIDIUM"), (78000, c!"PLATINUM"), (79000, c!"GOLD"), (80000, c!"MERCURY"), (82000, c!"LEAD"), (83000, c!"BISMUTH"),
    (90230, c!"230-TH"), (90232, c!"232-TH"), (92233, c!"233-U"), (92234, c!"234-U"), (92235, c!"235-U"), (92238, c!"238-U"), (94239, c!"239-PU"),
    (95241, c!"241-AM"), (98000, c!"CALIFORN")]

section
variable {K : Type}

/-- The material of one cell (FLUKAInput.py 308-313). -/
def flukaMat [Zero K] [DecidableEq K] (c : Cell K) : Str :=
  if c.material ≠ .int 0 then c!"M" ++ c.material.text
  else if c.importance = 0 then c!"BLCKHOLE"
  else c!"VACUUM"

/-- The card of one cell (FLUKAInput.py 307-318). -/
def assignLine [Zero K] [DecidableEq K] (c : Cell K) : Str :=
  ljust 10 c!"ASSIGNMA" ++ rjust 10 (flukaMat c) ++ rjust 10 (c!"C" ++ intStr c.id) ++ c!"\n"

/-- `__write_ruler` (FLUKAInput.py 228-232). -/
def flukaRuler : Str := c!"*...+....1....+....2....+....3....+....4....+....5....+....6....+....7....+....8\n"

/-- `__write_fluka_assignmats` (FLUKAInput.py 303-320). -/
def writeAssignmats [Zero K] [DecidableEq K] (cells : List (Cell K)) : Str := flukaRuler ++ cells.flatMap assignLine

/-! ## Compositions -/

/-- The name of a nuclide (FLUKAInput.py 337-342); `none` for the nuclides that are left out. Simplification: `int(float(nuc) / 1000)` is exact division, rounded towards zero. -/
def flukaName (nuc : Str) : Py (Option Str) := do
  let z ← pyInt nuc
  match zzToFluka.lookup z with
  | some name => .ok (some name)
  | none =>
    let e := z.tdiv 1000 * 1000
    if e ∈ zzToRemove then .ok none
    else
      match zzToFluka.lookup e with
      | some name => .ok (some name)
      | none => .error .keyError

/-- The dictionary `collapsed_map` (FLUKAInput.py 334-342). `nucs` is `nuclide_set` in the order in which Python visits it. -/
def collapsedMap : List Str → Py (List (Str × Str))
  | [] => .ok []
  | nuc :: nucs => do
    let name ← flukaName nuc
    let rest ← collapsedMap nucs
    match name with
    | some name => .ok ((nuc, name) :: rest)
    | none => .ok rest

/-- `write_fluka_material_element` (FLUKAMaterialCard.py 15-34) with the default density. `natStr` and `.0` are the text of `float(int(int(zz) / 1000))` for a number that is not negative. -/
def elementLine (nuc name : Str) : Py Str := do
  let z ← pyInt nuc
  .ok (ljust 10 c!"MATERIAL" ++ rjust 10 (intStr (z.tdiv 1000) ++ c!".0") ++ rjust 10 [] ++ rjust 10 c!"1.0" ++ rjust 10 [] ++ rjust 10 [] ++ rjust 10 [] ++ rjust 10 name ++ c!"\n")

/-- The loop that writes the elements (FLUKAInput.py 346-352). -/
def elementLines (written : List Str) : List (Str × Str) → Py (List Str)
  | [] => .ok []
  | (nuc, name) :: rest =>
    if name ∉ flukaSpecial ∧ name ∉ written then do
      let l ← elementLine nuc name
      let ls ← elementLines (written ++ [name]) rest
      .ok (l :: ls)
    else elementLines written rest

/-- The new composition of a material (FLUKAInput.py 357-371). `names` is what the loop has put into `name_dict` so far. -/
def nameDict [Add K] (comp : List (Str × K)) (names : List (Str × K)) : List (Str × Str) → List (Str × K)
  | [] => names
  | (nuc, name) :: rest =>
    match comp.lookup nuc with
    | none => nameDict comp names rest
    | some x =>
      match names.lookup name with
      | some y => nameDict comp (dictSet names name (y + x)) rest
      | none => nameDict comp (dictSet names name x) rest

/-- `write_fluka_material` (FLUKAMaterialCard.py 37-54). -/
def flukaMaterialLine [Field K] [LinearOrder K] (io : NumIO K) (m : Material K) : Str :=
  ljust 10 c!"MATERIAL" ++ rjust 10 [] ++ rjust 10 [] ++ rjust 10 (io.render |m.density|) ++ rjust 10 [] ++ rjust 10 [] ++ rjust 10 [] ++
    rjust 10 (c!"M" ++ m.number) ++ c!"\n"

/-- The last `n` characters, `s[-n:]`, and the others, `s[:-n]`. -/
def takeLast (n : Nat) (s : Str) : Str := s.drop (s.length - n)
def dropLastN (n : Nat) (s : Str) : Str := s.take (s.length - n)

/-- The `while` loop of `write_fluka_compound` (FLUKAMaterialCard.py 70-90); `none` if it has not ended within `fuel` rounds. With less than 20 characters left, nothing is taken and
the loop goes on for ever. -/
def compoundGo (name : Str) : Nat → Str → Option (List Str)
  | _, [] => some []
  | 0, _ :: _ => none
  | fuel + 1, c :: cs =>
    let s := c :: cs
    let (part, s) :=
      if 60 ≤ s.length then (takeLast 60 s, dropLastN 60 s)
      else if s.length / 20 = 2 then (takeLast 40 s ++ rjust 20 [], dropLastN 40 s)
      else if s.length / 20 = 1 then (takeLast 20 s ++ rjust 40 [], dropLastN 20 s)
      else ([], s)
    (compoundGo name fuel s).map fun ls => (ljust 10 c!"COMPOUND" ++ part ++ name ++ c!"\n") :: ls

/-- `write_fluka_compound` (FLUKAMaterialCard.py 57-90): the lines. `sci` is `"{:> 9.3e}".format(float(frac))`. -/
def compoundLines (fuel : Nat) (sci : K → Str) (m : Material K) : Option (List Str) :=
  compoundGo (rjust 10 (c!"M" ++ m.number)) fuel (m.composition.flatMap fun e => sci e.2 ++ rjust 10 e.1)

end

/-- The text of `m / 1000` times the power `e` of ten, `m < 10000`. -/
def putE (neg : Bool) (m : Nat) (e : Int) : Str :=
  (if neg then c!"-" else c!" ") ++ natStr (m / 1000) ++ c!"." ++ natStr (m / 100 % 10) ++ natStr (m / 10 % 10) ++ natStr (m % 10) ++ c!"e" ++
    (if e < 0 then c!"-" else c!"+") ++ (List.replicate (2 - (natStr e.natAbs).length) '0' ++ natStr e.natAbs)

/-- `"{:> 9.3e}".format(q)` for a rational number: a sign or a blank, one digit, three decimals, rounded half to even, and an exponent of at least two digits. -/
def formatE (q : ℚ) : Str :=
  if q = 0 then putE false 0 0
  else
    let e := Int.log 10 |q|
    let m := (roundEven (|q| / (10 : ℚ) ^ e * 1000)).toNat
    if m = 10000 then putE (decide (q < 0)) 1000 (e + 1) else putE (decide (q < 0)) m e

section
variable {K : Type} [Field K] [LinearOrder K]

/-- `__write_fluka_materials` (FLUKAInput.py 323-379): the text and the materials afterwards, whose compositions have FLUKA names. `nucs` is `nuclide_set` in the order in which Python
visits it. `none` if a COMPOUND card does not end within `fuel` rounds. -/
def writeFlukaMaterials (fuel : Nat) (io : NumIO K) (sci : K → Str) (nucs : List Str) (mats : List (Str × Material K)) : Py (Option (Str × List (Str × Material K))) := do
  let map ← collapsedMap nucs
  let elems ← elementLines [] map
  let mats := mats.map fun e => (e.1, { e.2 with composition := nameDict e.2.composition [] map })
  .ok (do
    let blocks ← mats.mapM fun e => do
      let ls ← compoundLines fuel sci e.2
      some (flukaMaterialLine io e.2 ++ ls.flatten)
    some (c!"* --- material definitions --- *\n" ++ flukaRuler ++ elems.flatten ++ blocks.flatten, mats))

end

end Csg
