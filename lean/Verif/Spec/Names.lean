import Verif.Spec.Rust
/-!
# The names in a generated file

Definitions give their names to types, and the constructed types inside them are named after the path to them.
`allNames` lists the names that a schema asks for, with repetitions. A simple type inside another type is
numbered (`NumberedName`).
-/
namespace Hampi.Compiler.Spec
open Hampi.Derive

/-- The names for the type of a component that would be called `name`: none if it has a name already or is a
simple type. `inner`: the names for the types inside it. -/
def ownNames (name : Text) (ty : RType) (inner : List Text) : List Text :=
  match ty with
  | .base _ | .reference _ => []
  | _ => name :: inner

mutual

/-- The names for the constructed types inside a type that is called `name`. -/
def innerNames (name : Text) : RType → List Text
  | .base _ | .reference _ | .set _ _ => []
  | .sequenceOf ty _ => ownNames (name ++ "_Entry".toList) ty (innerNames (name ++ "_Entry".toList) ty)
  | .sequence _ cs => fieldNames name cs
  | .choice root none => alternativeNames name root
  | .choice root (some adds) => alternativeNames name root ++ alternativeNames name adds

@[inherit_doc innerNames]
def fieldNames (name : Text) : List RSeqComponent → List Text
  | [] => []
  | .mk id ty _ _ :: cs =>
      ownNames (name ++ typeIdent id) ty (innerNames (name ++ typeIdent id) ty) ++ fieldNames name cs

@[inherit_doc innerNames]
def alternativeNames (name : Text) : List RComponent → List Text
  | [] => []
  | .mk id ty :: cs => ownNames (name ++ id) ty (innerNames (name ++ id) ty) ++ alternativeNames name cs

end

/-- All names of a schema. -/
def allNames (ts : List (Text × RType)) : List Text := ts.flatMap fun p => p.1 :: innerNames p.1 p.2

/-- The Rust name of a simple type inside another type: the kind of type and a number. -/
def NumberedName (x : Text) : Prop := ∃ (b : RBase) (n : Nat), x = typeIdent (b.label ++ ' ' :: (toString n).toList)

mutual

/-- In every SEQUENCE the fields have different names, and no optional one is called `data`; in every CHOICE and
every open type the variants have different names. -/
def MembersDiffer (sp : Spelling) : RType → Prop
  | .base _ | .reference _ => True
  | .set _ types => (types.map fun e => typeIdent e.1).Nodup
  | .sequenceOf ty _ => MembersDiffer sp ty
  | .sequence _ cs => (cs.map fun | .mk id _ _ _ => valueIdent sp id).Nodup ∧
      (∀ c ∈ cs, ∀ id ty key, c = .mk id ty true key → valueIdent sp id ≠ "data".toList) ∧ FieldsDiffer sp cs
  | .choice root none => (root.map fun | .mk id _ => typeIdent id).Nodup ∧ AlternativesDiffer sp root
  | .choice root (some adds) =>
      ((root ++ adds).map fun | .mk id _ => typeIdent id).Nodup ∧ AlternativesDiffer sp root ∧ AlternativesDiffer sp adds

/-- Inside all fields. -/
def FieldsDiffer (sp : Spelling) : List RSeqComponent → Prop
  | [] => True
  | .mk _ ty _ _ :: cs => MembersDiffer sp ty ∧ FieldsDiffer sp cs

/-- Inside all alternatives. -/
def AlternativesDiffer (sp : Spelling) : List RComponent → Prop
  | [] => True
  | .mk _ ty :: cs => MembersDiffer sp ty ∧ AlternativesDiffer sp cs

end

end Hampi.Compiler.Spec
