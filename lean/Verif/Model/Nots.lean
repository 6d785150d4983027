import Verif.Model.Cell

/-!
# Expansion of cell complements (`MCNPInput.py` 967-1022, `Input.py` 42-46)
-/

namespace Csg

/-- `re.findall("#(\d+)", s)[0]`: the digits of the first match. -/
def hashDigits : Str → Option Str
  | [] => none
  | c :: s =>
    if c = '#' ∧ (spanDigits s).1 ≠ [] then some (spanDigits s).1 else hashDigits s

section
variable {K : Type}

/-- `find_cell` (Input.py 42-46). -/
def findCell (cells : List (Cell K)) (id : Str) : Option (Cell K) := cells.find? fun c => decide (intStr c.id = id)

/-- `__nots_remaining` (MCNPInput.py 967-972). -/
def notsRemaining (is : List Item) : Bool :=
  is.any fun i => match i with
    | .op _ => false
    | .str s => (hashDigits s).isSome

/-- The search loop of `__split_nots` (MCNPInput.py 982-988): the entries before the first string with a `#`, that string and the
entries after it. -/
def findHash : List Item → Option (List Item × Str × List Item)
  | [] => none
  | .op o :: is => (findHash is).map fun (a, s, b) => (.op o :: a, s, b)
  | .str t :: is => if t.elem '#' then some ([], t, is) else (findHash is).map fun (a, s, b) => (.str t :: a, s, b)

/-- `__split_nots` (MCNPInput.py 975-1012). It is only called if an entry with `#` remains; without one, position 0 would be used. A
missing cell is an `AttributeError`. -/
def splitNots (cells : List (Cell K)) (is : List Item) : Py (List Item) :=
  match findHash is with
  | none => .ok is
  | some (a, s, b) =>
    match hashDigits s with
    | none => .ok is
    | some id =>
      match findCell cells id with
      | none => .error .attributeError
      | some d => .ok (a ++ (.op .not :: .str c!"(" :: d.interpreted ++ [.str c!")"]) ++ b)

/-- The `while` loop of `__explode_nots` (MCNPInput.py 1020-1021) on the cell in position `i`; `none` if it has not ended within the
given number of rounds. -/
def explodeCell : Nat → List (Cell K) → Nat → Option (Py (List (Cell K)))
  | 0, _, _ => none
  | fuel + 1, cells, i =>
    match cells[i]? with
    | none => some (.error .indexError)
    | some c =>
      if notsRemaining c.interpreted then
        match splitNots cells c.interpreted with
        | .error e => some (.error e)
        | .ok is => explodeCell fuel (cells.set i { c with interpreted := is }) i
      else some (.ok cells)

/-- The `for` loop of `__explode_nots` (MCNPInput.py 1018-1022) from position `i` on, for `n` cells. -/
def explodeFrom (fuel : Nat) : Nat → List (Cell K) → Nat → Option (Py (List (Cell K)))
  | 0, cells, _ => some (.ok cells)
  | n + 1, cells, i =>
    match explodeCell fuel cells i with
    | none => none
    | some (.error e) => some (.error e)
    | some (.ok cells) => explodeFrom fuel n cells (i + 1)

/-- `__explode_nots` (MCNPInput.py 1018-1022). -/
def explodeNots (fuel : Nat) (cells : List (Cell K)) : Option (Py (List (Cell K))) := explodeFrom fuel cells.length cells 0

end

end Csg
