import Verif.Model.SerpentRun
import Verif.Spec.MaterialText
import Verif.Spec.Outputs
import Verif.Spec.SerpentMaterials

/-!
# Serpent files as input
-/

namespace Csg.Spec

section
variable {K : Type} [Field K] [LinearOrder K]

/-- The text of a Serpent file: lines of other cards, then the material cards. -/
def SerpentText (io : NumIO K) (text : Str) (ms : List (SerpentCard K)) : Prop :=
  ∃ before gs, readText text = before ++ gs.flatten ∧ (∀ l ∈ before, (split l).head? ≠ some c!"mat") ∧ List.Forall₂ (SerpentLines io) gs ms

/-- The material that a card describes. Other codes name materials by numbers. -/
def cardMaterial (m : SerpentCard K) (i : Nat) : Material K :=
  { name := m.name, number := natStr i, composition := m.nuclides, xsid := (m.nuclides.map Prod.fst).zip m.libraries, density := m.density }

/-- The materials of the cards, numbered from 1. -/
def cardMaterials (ms : List (SerpentCard K)) : List (Str × Material K) := (ms.zipIdx 1).map fun p => (natStr p.2, cardMaterial p.1 p.2)

/-- The file is written for the code when the text of a Serpent file is converted: for this code alone, and in every run that finishes. -/
def ConvertsSerpent (e : Env K) (text : Str) (c : Code) (f : OutFile) : Prop :=
  ∀ cosDeg quick, Returns (runMain e cosDeg quick .serpent (some [codeName c]) text) [(c, f)] ∧
    ∀ output files t, Returns (runMain e cosDeg quick .serpent output text) files → (c, t) ∈ files → t = f

/-- The nuclides are given as decimal numbers. -/
def DecimalCard (m : SerpentCard K) : Prop := ∀ e ∈ m.nuclides, e.1 ≠ [] ∧ ∀ c ∈ e.1, isDigit c = true

end

end Csg.Spec
