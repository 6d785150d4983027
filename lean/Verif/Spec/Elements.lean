import Verif.Model.Py

/-!
# Chemical symbols
-/

namespace Csg.Spec

/-- The chemical symbols in the order of the atomic numbers, from hydrogen on. -/
def symbols : List Str :=
  [c!"H", c!"He", c!"Li", c!"Be", c!"B", c!"C", c!"N", c!"O", c!"F", c!"Ne", c!"Na", c!"Mg", c!"Al", c!"Si", c!"P", c!"S", c!"Cl", c!"Ar", c!"K", c!"Ca",
    c!"Sc", c!"Ti", c!"V", c!"Cr", c!"Mn", c!"Fe", c!"Co", c!"Ni", c!"Cu", c!"Zn", c!"Ga", c!"Ge", c!"As", c!"Se", c!"Br", c!"Kr", c!"Rb", c!"Sr", c!"Y",
    c!"Zr", c!"Nb", c!"Mo", c!"Tc", c!"Ru", c!"Rh", c!"Pd", c!"Ag", c!"Cd", c!"In", c!"Sn", c!"Sb", c!"Te", c!"I", c!"Xe", c!"Cs", c!"Ba", c!"La", c!"Ce",
    c!"Pr", c!"Nd", c!"Pm", c!"Sm", c!"Eu", c!"Gd", c!"Tb", c!"Dy", c!"Ho", c!"Er", c!"Tm", c!"Yb", c!"Lu", c!"Hf", c!"Ta", c!"W", c!"Re", c!"Os", c!"Ir",
    c!"Pt", c!"Au", c!"Hg", c!"Tl", c!"Pb", c!"Bi", c!"Po", c!"At", c!"Rn", c!"Fr", c!"Ra", c!"Ac", c!"Th", c!"Pa", c!"U", c!"Np", c!"Pu", c!"Am", c!"Cm",
    c!"Bk", c!"Cf", c!"Es", c!"Fm", c!"Md", c!"No", c!"Lr", c!"Rf", c!"Db", c!"Sg", c!"Bh", c!"Hs", c!"Mt", c!"Ds", c!"Rg", c!"Cn", c!"Nh", c!"Fl",
    c!"Mc", c!"Lv", c!"Ts", c!"Og"]

/-- The chemical symbol of the element with atomic number `z`. -/
def symbol (z : Nat) : Str := symbols.getD (z - 1) []

end Csg.Spec
