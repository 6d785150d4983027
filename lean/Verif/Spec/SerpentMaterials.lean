import Verif.Model.Material
import Verif.Spec.Material

/-!
# Materials of a Serpent input, as in the Serpent manual
-/

namespace Csg.Spec

/-- The words of lines; a percent sign begins a comment. -/
def serpentWords (ls : List Str) : List Str := ls.flatMap fun l => split (l.takeWhile (· ≠ '%'))

/-- White space stands before a comment. -/
def Separated (l : Str) : Prop := ∀ a c b, l = a ++ c :: '%' :: b → '%' ∉ a ++ [c] → isSpace c = true

/-- The library of a nuclide, which stands behind the dot. -/
def libraryOf (w : Str) : Str := ((w.dropWhile (· ≠ '.')).drop 1).takeWhile (· ≠ '.')

/-- What a material card says. -/
structure SerpentCard (K : Type) where
  name : Str
  density : K
  nuclides : List (Str × K)
  libraries : List Str

section
variable {K : Type}

/-- The lines of a material card: `mat`, the name, the density and possibly more on the first line, then nuclides and fractions up to the next card. -/
def SerpentLines (io : NumIO K) (g : List Str) (m : SerpentCard K) : Prop :=
  ∃ k t first more d rest entries, g = first :: more ∧ first = List.replicate k ' ' ++ c!"mat " ++ t ∧ split first = c!"mat" :: m.name :: d :: rest ∧ io.parse d = some m.density ∧
    (∀ l ∈ more, (split l).head? ≠ some c!"mat" ∧ (∃ t, l = t ++ c!"\n") ∧ Separated l) ∧
    serpentWords more = entryWords entries ∧ (m.nuclides.map Prod.fst).Nodup ∧
    List.Forall₂ (fun e p => nuclideOf e.1 = p.1 ∧ fortranNumber io e.2 = .ok p.2) entries m.nuclides ∧ m.libraries = entries.map fun e => libraryOf e.1

end

end Csg.Spec
