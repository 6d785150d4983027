import Verif.Model.MaterialWriters
import Verif.Spec.Elements
import Verif.Spec.SurfaceCodes

/-!
# Materials for OpenMC and SCONE
-/

namespace Csg.Spec

section
variable {K : Type} [Field K] [LinearOrder K]

/-- A nuclide with atomic number, mass number and fraction. -/
abbrev Nuc (K : Type) := Nat × Nat × K

/-- The composition as the program keeps it. -/
def compositionOf (l : List (Nuc K)) : List (Str × K) := l.map fun p => (natStr (1000 * p.1 + p.2.1), p.2.2)

/-- OpenMC takes `ao` for atom fractions and `wo` for mass fractions, both positive. In MCNP a negative fraction is one of mass. -/
def NuclideMeans (io : NumIO K) (p : Nuc K) (n : OpenmcNuclide) : Prop :=
  n.name = symbol p.1 ++ natStr p.2.1 ∧ ∃ x, io.parse n.frac = some x ∧ 0 ≤ x ∧ p.2.2 = if n.mass then -x else x

/-- OpenMC takes a density with its unit. In MCNP a negative density is one of mass in g/cm³, a positive one counts atoms in units of 10²⁴/cm³. -/
def DensityMeans (io : NumIO K) (d : K) (m : OpenmcMaterial) : Prop :=
  ∃ x, io.parse m.density = some x ∧ 0 ≤ x ∧ ((m.units = c!"g/cc" ∧ d = -x) ∨ (m.units = c!"atom/b-cm" ∧ d = x))

/-- The words of a SCONE material: its name and a dictionary of nuclides at a temperature with their densities. -/
def sconeMaterialWords (number : Str) (es : List (Str × Str)) : List Str :=
  [c!"m" ++ number, c!"{", c!"composition", c!"{"] ++ es.flatMap (fun e => [e.1 ++ c!".03", e.2, c!";"]) ++ [c!"}", c!"}"]

end

end Csg.Spec
