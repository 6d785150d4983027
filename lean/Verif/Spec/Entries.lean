import Verif.Spec.Supported

/-!
# Numbers of entries on surface cards
-/

namespace Csg.Spec

/-- The numbers of entries that the MCNP manual gives for each mnemonic, without those of surfaces given by points (`x`, `y`, `z`). Cones may have a further entry that selects a sheet. -/
def entryCounts : List (Str × List Nat) :=
  [(c!"p", [4, 9]), (c!"px", [1]), (c!"py", [1]), (c!"pz", [1]), (c!"so", [1]), (c!"s", [4]), (c!"sx", [2]), (c!"sy", [2]), (c!"sz", [2]), (c!"c/x", [3]), (c!"c/y", [3]), (c!"c/z", [3]),
    (c!"cx", [1]), (c!"cy", [1]), (c!"cz", [1]), (c!"k/x", [4, 5]), (c!"k/y", [4, 5]), (c!"k/z", [4, 5]), (c!"kx", [2, 3]), (c!"ky", [2, 3]), (c!"kz", [2, 3]), (c!"sq", [10]), (c!"gq", [10]),
    (c!"tx", [6]), (c!"ty", [6]), (c!"tz", [6]), (c!"box", [12]), (c!"rpp", [6]), (c!"sph", [4]), (c!"rcc", [7])]

end Csg.Spec
