import Verif.Model.Material

/-!
# `OpenMCMaterial.py`
-/

namespace Csg

/-- `name_zaid` (OpenMCMaterial.py 6-125). -/
def nameZaid : List (Int × Str) :=
  [
    (1, c!"H"), (2, c!"He"), (3, c!"Li"), (4, c!"Be"), (5, c!"B"), (6, c!"C"), (7, c!"N"), (8, c!"O"), (9, c!"F"), (10, c!"Ne"), (11, c!"Na"), (12,
    c!"Mg"), (13, c!"Al"), (14, c!"Si"), (15, c!"P"), (16, c!"S"), (17, c!"Cl"), (18, c!"Ar"), (19, c!"K"), (20, c!"Ca"), (21, c!"Sc"), (22, c!"Ti"),
    (23, c!"V"), (24, c!"Cr"), (25, c!"Mn"), (26, c!"Fe"), (27, c!"Co"), (28, c!"Ni"), (29, c!"Cu"), (30, c!"Zn"), (31, c!"Ga"), (32, c!"Ge"), (33,
    c!"As"), (34, c!"Se"), (35, c!"Br"), (36, c!"Kr"), (37, c!"Rb"), (38, c!"Sr"), (39, c!"Y"), (40, c!"Zr"), (41, c!"Nb"), (42, c!"Mo"), (43,
    c!"Tc"), (44, c!"Ru"), (45, c!"Rh"), (46, c!"Pd"), (47, c!"Ag"), (48, c!"Cd"), (49, c!"In"), (50, c!"Sn"), (51, c!"Sb"), (52, c!"Te"), (53,
    c!"I"), (54, c!"Xe"), (55, c!"Cs"), (56, c!"Ba"), (57, c!"La"), (58, c!"Ce"), (59, c!"Pr"), (60, c!"Nd"), (61, c!"Pm"), (62, c!"Sm"), (63,
    c!"Eu"), (64, c!"Gd"), (65, c!"Tb"), (66, c!"Dy"), (67, c!"Ho"), (68, c!"Er"), (69, c!"Tm"), (70, c!"Yb"), (71, c!"Lu"), (72, c!"Hf"), (73,
    c!"Ta"), (74, c!"W"), (75, c!"Re"), (76, c!"Os"), (77, c!"Ir"), (78, c!"Pt"), (79, c!"Au"), (80, c!"Hg"), (81, c!"Tl"), (82, c!"Pb"), (83,
    c!"Bi"), (84, c!"Po"), (85, c!"At"), (86, c!"Rn"), (87, c!"Fr"), (88, c!"Ra"), (89, c!"Ac"), (90, c!"Th"), (91, c!"Pa"), (92, c!"U"), (93,
    c!"Np"), (94, c!"Pu"), (95, c!"Am"), (96, c!"Cm"), (97, c!"Bk"), (98, c!"Cf"), (99, c!"Es"), (100, c!"Fm"), (101, c!"Md"), (102, c!"No"), (103,
    c!"Lr"), (104, c!"Rf"), (105, c!"Db"), (106, c!"Sg"), (107, c!"Bh"), (108, c!"Hs"), (109, c!"Mt"), (110, c!"Ds"), (111, c!"Rg"), (112, c!"Cn"),
    (113, c!"Nh"), (114, c!"Fl"), (115, c!"Mc"), (116, c!"Lv"), (117, c!"Ts"), (118, c!"Og")]

/-- `zaid_to_name` (OpenMCMaterial.py 128-143). `int` of a single character or a slice; an empty slice is a `ValueError`. -/
def zaidToName (s : Str) : Py Str := do
  let (zz, aa) ← (if s.length ≤ 4 then do
      let c ← pyGet s 0
      let zz ← pyInt [c]
      let aa ← pyInt (s.drop 2)
      .ok (zz, aa)
    else if 5 < s.length then do
      let zz ← pyInt (s.take 3)
      let aa ← pyInt (s.drop 3)
      .ok (zz, aa)
    else do
      let zz ← pyInt (s.take 2)
      let aa ← pyInt (s.drop 2)
      .ok (zz, aa) : Py (Int × Int))
  match nameZaid.lookup zz with
  | some name => .ok (name ++ intStr aa)
  | none => .error .keyError

end Csg
