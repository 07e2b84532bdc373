import Verif.Compiler.Resolve
/-!
# Resolved definitions that stand on their own

The type names that occur in resolved definitions. Nothing here refers to the code of the resolver,
only to its results.
-/
namespace Hampi.Compiler

mutual

/-- The names of types in a resolved type. -/
def RType.names : RType → List Text
  | .base _ => []
  | .choice root none => rcomponentsNames root
  | .choice root (some adds) => rcomponentsNames root ++ rcomponentsNames adds
  | .sequence _ cs => rseqNames cs
  | .sequenceOf ty _ => ty.names
  | .reference r => [r]
  | .set _ types => types.map fun e => e.2.2

/-- Those in the alternatives of a CHOICE. -/
def rcomponentsNames : List RComponent → List Text
  | [] => []
  | .mk _ ty :: cs => ty.names ++ rcomponentsNames cs

/-- Those in the components of a SEQUENCE. -/
def rseqNames : List RSeqComponent → List Text
  | [] => []
  | .mk _ ty _ _ :: cs => ty.names ++ rseqNames cs

end

/-- Those in a field of an object. -/
def RField.names : RField → List Text
  | .type none => []
  | .type (some t) => t.names
  | .fixedTypeValue t _ => t.names

/-- Those in an object. -/
def RObject.names (o : RObject) : List Text := o.fields.flatMap fun f => f.2.names

/-- Those in an object set. -/
def RObjectSet.names (s : RObjectSet) : List Text :=
  s.elements.flatMap RObject.names ++ s.table.flatMap fun e => e.2.names

/-- Those in a definition. -/
def RDef.names : RDef → List Text
  | .type t => t.names
  | .value _ => []
  | .objectSet s => s.names
  | .object o => o.names

namespace Spec

/-- `r` is the name of a resolved type. -/
def IsType (R : Resolver) (r : Text) : Prop := ∃ t, get R.resolved r = some (.type t)

/-- Every type named in a resolved definition is itself a resolved type: nothing dangles. -/
def Closed (R : Resolver) : Prop :=
  ∀ k d, get R.resolved k = some d → ∀ r ∈ d.names, IsType R r

end Spec
end Hampi.Compiler
