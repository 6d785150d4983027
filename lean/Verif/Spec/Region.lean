import Verif.Model.Py

/-!
# Region expressions

Symbols, grammar and truth value of region expressions, as in the cell cards of MCNP and of the codes that
are written. Complement binds tighter than intersection (juxtaposition), intersection tighter than union.
-/

namespace Csg.Spec

/-- The symbols of a region expression over atoms `A`. -/
inductive Sym (A : Type)
  | lp | rp | un | no
  | atom (a : A)
  deriving DecidableEq, Repr

/-- Region expressions. -/
inductive Reg (A : Type)
  | atom (a : A)
  | compl (r : Reg A)
  | inter (r s : Reg A)
  | union (r s : Reg A)
  deriving DecidableEq, Repr

/-- The levels of the grammar. -/
inductive Level
  | factor | term | expr
  deriving DecidableEq

/-- `Derives l w r`: the symbols `w` are an expression of level `l` with syntax tree `r`. -/
inductive Derives {A : Type} : Level → List (Sym A) → Reg A → Prop
  | atom (a : A) : Derives .factor [.atom a] (.atom a)
  | paren {w r} : Derives .expr w r → Derives .factor (.lp :: (w ++ [.rp])) r
  | compl {w r} : Derives .factor w r → Derives .factor (.no :: w) (.compl r)
  | single {w r} : Derives .factor w r → Derives .term w r
  | inter {w r w' r'} : Derives .term w r → Derives .factor w' r' → Derives .term (w ++ w') (.inter r r')
  | one {w r} : Derives .term w r → Derives .expr w r
  | union {w r w' r'} : Derives .expr w r → Derives .term w' r' → Derives .expr (w ++ .un :: w') (.union r r')

/-- The truth value of an expression, given the truth values of its atoms. -/
def Reg.holds {A : Type} (σ : A → Prop) : Reg A → Prop
  | .atom a => σ a
  | .compl r => ¬ r.holds σ
  | .inter r s => r.holds σ ∧ s.holds σ
  | .union r s => r.holds σ ∨ s.holds σ

/-- The symbols form a region expression. -/
def Legal {A : Type} (w : List (Sym A)) : Prop := ∃ r, Derives .expr w r

/-- The symbols form a region expression that is true for the given truth values of the atoms. By `derives_unique` (Lemmas/Region.lean)
the expression is determined by the symbols. -/
def Holds {A : Type} (σ : A → Prop) (w : List (Sym A)) : Prop := ∃ r, Derives .expr w r ∧ r.holds σ

end Csg.Spec
