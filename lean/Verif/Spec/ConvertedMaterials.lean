import Verif.Spec.Converted
import Verif.Spec.Substance

/-!
# Materials in the cells of an input file and of the written files

For each code: what a file says about the material of a cell, from the cards or entries that the code reads.
-/

namespace Csg.Spec

section
variable {K : Type} [Field K]

/-- The cell is filled as on its card, unless it is filled with a universe: with nothing, or with the material of the deck that it names, with its density. The two arguments say what this means for a file:
the cell is void, and the cell has a material with this density and composition. -/
def MadeOf (d : Deck K) (c : Cell K) (void : Prop) (has : K → List (Str × K) → Prop) : Prop :=
  c.fill = none → (c.material = .int 0 → void) ∧
    ∀ z, z ≠ 0 → c.material = .int z → ∃ m comp, d.materials.lookup (intStr z) = some m ∧ SameSubstance m.composition comp ∧ has c.density comp

/-! ## Serpent -/

/-- The name and the content of a cell card of a cell without universe. -/
def serpentFilling : List Str → Option (Str × Str)
  | kw :: name :: _ :: content :: _ => if kw = c!"cell" ∧ content ≠ c!"fill" then some (name, content) else none
  | _ => none

/-- The fillings of all cells. -/
def serpentFillings (cards : List (List Str)) : List (Option (Str × Str)) := (cards.filter fun c => decide (c.head? = some c!"cell")).map serpentFilling

/-- There is one material with this name, and it has this density and this composition; fractions are rounded by `approx`. -/
def SerpentHas (io : NumIO K) (approx : K → K) (cards : List (List Str)) (name : Str) (density : K) (comp : List (Str × K)) : Prop :=
  ∃ dw fs, (cards.filter fun c => decide (c.take 2 = [c!"mat", name])) = [[c!"mat", name, dw] ++ (comp.zip fs).flatMap (fun e => [e.1.1, e.2])] ∧ io.parse dw = some density ∧
    List.Forall₂ (fun e f => io.parse f = some (approx e.2)) comp fs

/-! ## OpenMC -/

/-- The cell has a material with this density and composition. Numbers of materials are unique. -/
def OpenmcHas [LinearOrder K] (io : NumIO K) (ms : List OpenmcMaterial) (x : OpenMCCellElem) (density : K) (comp : List (Str × K)) : Prop :=
  ∃ y ∈ ms, x.material = some y.id ∧ DensityMeans io density y ∧ ∃ l, comp = compositionOf l ∧ List.Forall₂ (NuclideMeans io) l y.nuclides

/-! ## PHITS -/

/-- The number, the material and the density of a cell card. -/
def phitsFilling : List Str → Option (Str × Str × Option Str)
  | name :: m :: ws => some (name, m, if m = c!"0" then none else ws.head?)
  | _ => none

/-- There is one material card with this name, and it has this composition; nuclides carry the name of a library. -/
def PhitsHas (io : NumIO K) (cards : List (List Str)) (name : Str) (comp : List (Str × K)) : Prop :=
  ∃ ns : List (Str × Str), (cards.filter fun c => decide (c.head? = some (c!"M" ++ name))) = [(c!"M" ++ name) :: ns.flatMap (fun n => [n.1, n.2])] ∧
    List.Forall₂ (fun e n => (∃ x, n.1 = e.1 ++ c!"." ++ x) ∧ io.parse n.2 = some e.2) comp ns

/-! ## FLUKA -/

/-- There is one material with this name. If the density is one of mass, as FLUKA takes it, it is this density. The components are the FLUKA materials of the nuclides, each once with the sum of the
fractions that belong to it, as printed. -/
def FlukaHas [LinearOrder K] (io : NumIO K) (sci : K → Str) (cards : List Str) (name : Str) (density : K) (comp : List (Str × K)) : Prop :=
  (∃ first, (cards.filter fun l => decide (field l 0 = c!"MATERIAL" ∧ field l 7 = name)) = [first] ∧ (density ≤ 0 → io.parse (field first 3) = some (-density))) ∧
    ∃ (l : List (Nat × K)) (names : List Str), comp = l.map (fun p => (natStr p.1, p.2)) ∧ names.Nodup ∧ (∀ n, n ∈ names ↔ ∃ p ∈ l, properName p.1 = some n) ∧
      ((cards.filter fun l => decide (field l 0 = c!"COMPOUND" ∧ field l 7 = name)).flatMap compoundPairs).Perm (names.map fun n => ((sci (fractionOf l n)).filter (· ≠ ' '), n))

/-! ## SCONE -/

/-- The number and the material of a cell of a SCONE file. -/
def sconeMaterialOf : SconeItem → Option (Str × Str)
  | .dict _ items =>
    match sconeValue c!"id" items, sconeValue c!"material" items with
    | some [id], some [m] => some (id, m)
    | _, _ => none
  | _ => none

/-- The name of an entry. -/
def sconeName : SconeItem → Option Str
  | .dict name _ => some name
  | _ => none

/-- There is one material with this name, and it lists the nuclides with numbers of atoms in units of 10²⁴/cm³, which have the ratios of the composition and give this density, with the
Avogadro constant as the program has it. -/
def SconeHas [LinearOrder K] (sci : K → Str) (items : List SconeItem) (name : Str) (density : K) (comp : List (Str × K)) : Prop :=
  ∃ (l : List (Nuc K)) (N : Nuc K → K), (items.filter fun i => decide (sconeName i = some name)) =
      [.dict name [.dict c!"composition" (l.map fun p => .value [natStr (1000 * p.1 + p.2.1) ++ c!".03", sci (N p)])]] ∧
    comp = compositionOf l ∧ (∀ p ∈ l, ∀ q ∈ l, N p * q.2.2 = N q * p.2.2) ∧ (0 < density → (l.map N).sum = density) ∧
    (density ≤ 0 → (l.map fun p => N p * (p.2.1 : K)).sum = -density * (602214 / 1000000))

end

end Csg.Spec
