import Verif.Spec.ConvertibleFile

/-!
# Files with a geometry that can be read, though cards may be missing
-/

namespace Csg.Spec

section
variable {K : Type} [Field K] [LinearOrder K]

/-- The numbers of the surfaces are distinct and positive, macrobodies are as the manual allows, and each word of a geometry names a surface of the file, a facet, or a cell, which may be missing. Nothing is said on materials,
TR cards, universes and cells that are named. -/
structure ReadableGeometry (sqrt : K → K) (f : InputFile K) : Prop where
  numbers : (f.surfaces.map (·.number)).Nodup ∧ ∀ s ∈ f.surfaces, 0 < s.number
  bodies : ∀ s ∈ f.surfaces, ∀ ty, bodyType s.mn = some ty → ProperBody ty s.values ∧ Roots sqrt ty s.values
  words : ∀ c ∈ f.cells, ∀ w, Sym.atom w ∈ lexGeometry c.geometry → KnownEntry f w

end

end Csg.Spec
