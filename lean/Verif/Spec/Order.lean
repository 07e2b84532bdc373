import Verif.Compiler.Ast
/-!
# Orders that respect references

Nothing here refers to the sorting code.
-/
namespace Hampi.Compiler.Spec

/-- One step of the reference relation: `k` is defined and needs `r`. -/
def Needs (needs : List (Text × List Text)) (k r : Text) : Prop := ∃ rs, (k, rs) ∈ needs ∧ r ∈ rs

/-- One or more steps. -/
inductive Reaches (needs : List (Text × List Text)) : Text → Text → Prop
  | one {a b : Text} (h : Needs needs a b) : Reaches needs a b
  | more {a b c : Text} (h : Needs needs a b) (t : Reaches needs b c) : Reaches needs a c

/-- `k` is on a reference cycle, or needs, directly or not, something that is. -/
def Cyclic (needs : List (Text × List Text)) (k : Text) : Prop :=
  Reaches needs k k ∨ ∃ c, Reaches needs k c ∧ Reaches needs c c

/-- `a` comes before `b` in `l`. -/
def Before (l : List Text) (a b : Text) : Prop := ∃ x y z, l = x ++ a :: (y ++ b :: z)

end Hampi.Compiler.Spec
