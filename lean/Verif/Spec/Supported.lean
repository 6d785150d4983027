import Verif.Spec.Mnemonic

/-!
# Mnemonics of surfaces
-/

namespace Csg.Spec

/-- The mnemonics that the program is made for. -/
def supportedMnemonics : List Str :=
  [c!"p", c!"px", c!"py", c!"pz", c!"s", c!"so", c!"sx", c!"sy", c!"sz", c!"cx", c!"cy", c!"cz", c!"c/x", c!"c/y", c!"c/z", c!"kx", c!"ky", c!"kz", c!"k/x", c!"k/y", c!"k/z",
    c!"tx", c!"ty", c!"tz", c!"gq", c!"sq", c!"x", c!"y", c!"z", c!"rpp", c!"box", c!"sph", c!"rcc"]

/-- The mnemonics of surfaces that are given by points. -/
def pointMnemonics : List Str := [c!"x", c!"y", c!"z"]

/-- Macrobodies of MCNP that the program is not made for. -/
def otherMacrobodies : List Str := [c!"rhp", c!"hex", c!"rec", c!"trc", c!"ell", c!"wed", c!"arb"]

/-- A card that leaves no surface: no number, no type, no numbers. -/
def Lost {K : Type} (s : Surface K) : Prop := s.id = 0 ∧ s.type = .unset ∧ s.coeffs = [] ∧ s.transform = none

/-- The surface has the number and the transformation of the card, and a type. -/
def Taken {K : Type} (n : Int) (tr : Option Str) (s : Surface K) : Prop := s.id = n ∧ s.transform = tr ∧ s.type ≠ .unset

end Csg.Spec
