import Verif.Model.Py

/-!
# `MCNPFormatter.py`
-/

namespace Csg

/-- `strip_dollar_comments` (MCNPFormatter.py 5-10). -/
def stripDollar (s : Str) : Str :=
  let pos := findChar '$' s
  if pos = -1 then s else sliceTo s pos

/-- The `while True` loop of `mcnp_line_formatter` (MCNPFormatter.py 44-66). The result is `none` when
the fuel is used up: the loop has not ended after that many rounds. -/
def fmtLoop : Nat → Str → Str → Option Str
  | 0, _, _ => none
  | fuel + 1, new, tmp =>
    if tmp.length ≤ 72 then
      some (if isspace tmp then new else new ++ tmp)
    else
      let pos := rfindChar ' ' (tmp.take 72)
      let new' := new ++ sliceTo tmp pos ++ c!"\n"
      let tmp' := sliceFrom tmp pos
      if isspace tmp' then some new'
      else fmtLoop fuel (new' ++ c!"     ") tmp'

/-- `mcnp_line_formatter` (MCNPFormatter.py 36-66). -/
def lineFormatter (fuel : Nat) (s : Str) : Option Str :=
  if s.length < 72 then some s else fmtLoop fuel [] s

end Csg
