import Verif.Model.Surface

/-!
# `MCNPInput.__generate_bounding_coordinates`
-/

namespace Csg

variable {K : Type} [Field K] [LinearOrder K]

/-- Element `i` of `bounding_coordinates` after one surface (MCNPInput.py 1031-1042): lower limits have even indices. -/
def boundStep (i : Nat) (old new : K) : K :=
  if i % 2 = 0 then (if new < old then new else old) else (if old < new then new else old)

/-- One round of the loop (MCNPInput.py 1029-1042). The log message is left out. -/
def boundSurface (acc : List K) (s : Surface K) : Py (List K) := do
  let box ← s.boundingBox
  let b0 ← pyGet box 0
  let a0 ← pyGet acc 0
  let b1 ← pyGet box 1
  let a1 ← pyGet acc 1
  let b2 ← pyGet box 2
  let a2 ← pyGet acc 2
  let b3 ← pyGet box 3
  let a3 ← pyGet acc 3
  let b4 ← pyGet box 4
  let a4 ← pyGet acc 4
  let b5 ← pyGet box 5
  let a5 ← pyGet acc 5
  .ok [boundStep 0 a0 b0, boundStep 1 a1 b1, boundStep 2 a2 b2, boundStep 3 a3 b3, boundStep 4 a4 b4,
    boundStep 5 a5 b5]

/-- The loop over the surface list (MCNPInput.py 1026-1042), from the accumulated box. -/
def boundGo (acc : List K) : List (Surface K) → Py (List K)
  | [] => .ok acc
  | s :: l => do
    let acc ← boundSurface acc s
    boundGo acc l

/-- `__generate_bounding_coordinates` (MCNPInput.py 1025-1057), started from the `[0, 0, 0, 0, 0, 0]` of the constructor
(Input.py 35). -/
def boundingCoordinates (l : List (Surface K)) : Py (List K) := boundGo [0, 0, 0, 0, 0, 0] l

end Csg
