import Verif.Model.CellWriters

/-!
# Universes

A universe is the set of the cells with its number. A cell may be filled with a universe.
-/

namespace Csg.Spec

/-- The cell belongs to the universe. -/
def InUniverse (e : OpenMCCellElem) (u : Int) : Prop := parseInt e.uni = some u

/-- The cell is filled with the universe. -/
def FilledWith (e : OpenMCCellElem) (f : Int) : Prop := ∃ s t, e.filled = some (s, t) ∧ parseInt s = some f

/-- The universe is part of the geometry: it is universe 0, or it fills a cell of a universe that is part of the geometry. -/
inductive Reachable (es : List OpenMCCellElem) : Int → Prop
  | root : Reachable es 0
  | fill {e : OpenMCCellElem} {u f : Int} : e ∈ es → InUniverse e u → Reachable es u → FilledWith e f → Reachable es f

/-- All universes and fills are numbers. -/
def Numbered (es : List OpenMCCellElem) : Prop := ∀ e ∈ es, (∃ u, InUniverse e u) ∧ ∀ s t, e.filled = some (s, t) → ∃ f, parseInt s = some f

/-- The numbers in a description: words of digits, possibly after a minus. -/
def descriptionNumbers (text : List Str) : List Int := text.filterMap fun w => if '+' ∈ w then none else parseInt w

/-- The cell is in universe 0 and lies on the positive side of a single surface, as the outside of a model does. -/
def outerSide {K : Type} (c : Cell K) : Option Int :=
  if parseInt (c.uni.getD c!"0") = some 0 then
    match descriptionNumbers c.text with
    | [s] => if 0 < s then some s else none
    | _ => none
  else none

end Csg.Spec
