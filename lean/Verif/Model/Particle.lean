import Verif.Model.Py

/-!
# `ParticleNames.py` and `MCNPParticleNames.py`
-/

namespace Csg

/-- `ParticleNames` (ParticleNames.py 10-23). -/
inductive Particle
  | neutron | photon | electron | positron | proton | deuteron | triton | alpha | pionPlus | pionNeut | pionNeg | helion | muonNeg
  deriving DecidableEq, Repr

/-- `particleToGeneric` (ParticleNames.py 26-52). -/
def particleToGeneric : Particle → Str
  | .neutron => c!"Neutron"
  | .photon => c!"Photon"
  | .electron => c!"Electron"
  | .positron => c!"Positron"
  | .proton => c!"Proton"
  | .deuteron => c!"Deuteron"
  | .triton => c!"Triton"
  | .alpha => c!"Alpha"
  | .pionPlus => c!"Positive Pion"
  | .pionNeut => c!"Neutral Pion"
  | .pionNeg => c!"Negative Pion"
  | .helion => c!"Helion"
  | .muonNeg => c!"Negative Muon"

/-- `particleToMCNP` (MCNPParticleNames.py 6-32). -/
def particleToMCNP : Particle → Str
  | .neutron => c!"n"
  | .photon => c!"p"
  | .electron => c!"e"
  | .positron => c!"f"
  | .proton => c!"h"
  | .deuteron => c!"d"
  | .triton => c!"t"
  | .alpha => c!"a"
  | .pionPlus => c!"/"
  | .pionNeut => c!"z"
  | .pionNeg => c!"*"
  | .helion => c!"s"
  | .muonNeg => c!"|"

/-- `mcnpToParticle` (MCNPParticleNames.py 35-61); `None` for an unknown symbol. -/
def mcnpToParticle (s : Str) : Option Particle :=
  if s = c!"n" then some .neutron
  else if s = c!"p" then some .photon
  else if s = c!"e" then some .electron
  else if s = c!"f" then some .positron
  else if s = c!"h" then some .proton
  else if s = c!"d" then some .deuteron
  else if s = c!"t" then some .triton
  else if s = c!"a" then some .alpha
  else if s = c!"/" then some .pionPlus
  else if s = c!"z" then some .pionNeut
  else if s = c!"*" then some .pionNeg
  else if s = c!"s" then some .helion
  else if s = c!"|" then some .muonNeg
  else none

end Csg
