import Verif.Compiler.Constraints
/-!
# Parsed definitions and modules (asn-compiler/src/parser/asn/structs)

`HashMap`s are association lists. Whatever is proved for all lists holds for every iteration order.
-/
namespace Hampi.Compiler

/-- `HashMap::get`, `BTreeMap::get`. -/
def get {α : Type} (m : List (Text × α)) (k : Text) : Option α := (m.find? (·.1 == k)).map (·.2)

/-- `ObjectClassFieldSpec` (structs/types/ioc.rs:7-32), without `resolved` (used by nothing). -/
inductive ClassField where
  | type (id : Text) (optional : Bool) (default_ : Option AsnType) (withSyntax : Option Text)
  | fixedTypeValue (id : Text) (ty : AsnType) (unique optional : Bool) (default_ : Option Text)
      (withSyntax : Option Text)

/-- `Asn1ObjectFieldSpec` (structs/types/ioc.rs:100-109). -/
inductive ObjectField where
  | type (ty : Option AsnType)
  | fixedTypeValue (ty : AsnType) (value : Option Text)

/-- `Asn1ObjectValue` (structs/types/ioc.rs:126-132). -/
inductive ObjectValue where
  | fields (fs : List (Text × ObjectField))
  | input (s : Text)

/-- `ObjectSetElement` (structs/types/ioc.rs:171-176). -/
inductive SetElement where
  | setRef (r : Text)
  | objectRef (r : Text)
  | object (v : ObjectValue)

/-- `Asn1AssignmentKind` (structs/defs.rs:84-91) with `Asn1ObjectClass`, `Asn1Object`, `Asn1ObjectSet`
(structs/types/ioc.rs:50-53, 86-90, 146-156). -/
inductive Assignment where
  | value (ty : AsnType) (value : Text)
  | type (ty : AsnType)
  | class (fields : List (Text × ClassField))
  | objectSet (cls : Text) (root additional : List SetElement)
  | object (cls : Text) (value : ObjectValue)

/-! ## `dependent_references` -/

/-- `str::trim_matches` with a set of characters. -/
def trimMatches (p : Char → Bool) (t : Text) : Text := ((t.dropWhile p).reverse.dropWhile p).reverse

/-- `c.is_whitespace()` for the characters that occur (tokens contain no other white space). -/
def isBlank (c : Char) : Bool := c.isWhitespace

/-- `.trim_matches(|c| matches!(c, '{' | '}')).trim()` (resolver/asn/types/constraints.rs:42-45). -/
def trimBraces (t : Text) : Text := trimMatches isBlank (trimMatches (fun c => c == '{' || c == '}') t)

/-- `get_set_reference` (resolver/asn/types/constraints.rs:20-59, 164-177, 220-235, 268-276): the
three `is_..` functions are constant. -/
def Constraint.setReference : Constraint → Out Err Text
  | .subtype (.mk [[.single v]] _) => .ok (trimBraces v)
  | .subtype _ => .err .resolve
  | .tableSimple s => .ok (trimBraces s)
  | .tableRelation t _ => .ok (trimBraces t)
  | .contents _ => .err .resolve

/-- `get_comp_reference` (resolver/asn/types/constraints.rs:61-71). -/
def Constraint.compReference : Constraint → Option Text
  | .tableRelation _ c => some (trimMatches (fun c => c == '@' || c == '.') c)
  | _ => none

/-- A value that does not parse as a number (resolver/asn/types/constraints.rs:388-399). -/
def valueRef (t : Text) : List Text := if (parseI128 t).isSome then [] else [trimMatches isBlank t]

mutual

/-- `Asn1Type::dependent_references` (structs/types/mod.rs:37-54). -/
def AsnType.refs : AsnType → List Text
  | .mk k none => k.refs
  | .mk k (some cs) => k.refs ++ constraintsRefs cs

/-- `dependent_references` of references and constructed types (structs/types/mod.rs:38-42, 105-117,
130-138; structs/types/constructed.rs). The size of a SEQUENCE OF is left out
(structs/types/constructed.rs:111-113). -/
def Kind.refs : Kind → List Text
  | .reference r => [r]
  | .classField c _ => [c]
  | .parameterized t ps => t :: ps.map ActualParam.text
  | .choice root none => componentsRefs root
  | .choice root (some adds) => componentsRefs root ++ choiceGroupsRefs adds
  | .sequence root adds _ => seqComponentsRefs root ++ seqGroupsRefs adds
  | .sequenceOf _ ty => ty.refs
  | _ => []

/-- The components of a CHOICE. -/
def componentsRefs : List Component → List Text
  | [] => []
  | .mk _ ty :: cs => ty.refs ++ componentsRefs cs

/-- The extension additions of a CHOICE. -/
def choiceGroupsRefs : List ChoiceGroup → List Text
  | [] => []
  | .mk _ cs :: gs => componentsRefs cs ++ choiceGroupsRefs gs

/-- The components of a SEQUENCE. -/
def seqComponentsRefs : List SeqComponent → List Text
  | [] => []
  | .mk _ ty _ _ :: cs => ty.refs ++ seqComponentsRefs cs

/-- The extension additions of a SEQUENCE. -/
def seqGroupsRefs : List SeqGroup → List Text
  | [] => []
  | .mk _ cs :: gs => seqComponentsRefs cs ++ seqGroupsRefs gs

/-- The constraints of a type (structs/types/mod.rs:45-50). -/
def constraintsRefs : List Constraint → List Text
  | [] => []
  | c :: cs => c.refs ++ constraintsRefs cs

/-- `Asn1Constraint::dependent_references` (resolver/asn/types/constraints.rs:75-81); the `unwrap` of
a table constraint's set reference does not fail. -/
def Constraint.refs : Constraint → List Text
  | .subtype e => e.refs
  | .tableSimple s => [trimBraces s]
  | .tableRelation t _ => [trimBraces t]
  | .contents _ => []

/-- `ElementSet::dependent_references` (resolver/asn/types/constraints.rs:203-216). -/
def ElementSet.refs : ElementSet → List Text
  | .mk root none => unionRefs root
  | .mk root (some add) => unionRefs root ++ unionRefs add

/-- `UnionSet::dependent_references` (resolver/asn/types/constraints.rs:406-414). -/
def unionRefs : List (List Elements) → List Text
  | [] => []
  | i :: is => interRefs i ++ unionRefs is

/-- `IntersectionSet::dependent_references` (resolver/asn/types/constraints.rs:261-268). -/
def interRefs : List Elements → List Text
  | [] => []
  | e :: es => e.refs ++ interRefs es

/-- `dependent_references` of `Elements` and `SubtypeElements`
(resolver/asn/types/constraints.rs:290-296, 377-403). -/
def Elements.refs : Elements → List Text
  | .single v => if (parseI128 v).isSome then [] else [trimBraces v]
  | .contained ty => ty.refs
  | .range lo _ hi _ => valueRef lo ++ valueRef hi
  | .size e => e.refs
  | .alphabet _ => []
  | .set e => e.refs

end

/-- `Asn1ObjectFieldSpec::dependent_references` (structs/types/ioc.rs:112-123). -/
def ObjectField.refs : ObjectField → List Text
  | .type (some ty) => ty.refs
  | .type none => []
  | .fixedTypeValue ty _ => ty.refs

/-- `Asn1ObjectValue::dependent_references` (structs/types/ioc.rs:135-143). -/
def ObjectValue.refs : ObjectValue → List Text
  | .fields fs => fs.flatMap fun p => p.2.refs
  | .input _ => []

/-- `ObjectSetElement::dependent_references` (structs/types/ioc.rs:179-184). -/
def SetElement.refs : SetElement → List Text
  | .setRef r => [r]
  | .objectRef r => [r]
  | .object v => v.refs

/-- `Asn1ObjectClass::dependent_references` (structs/types/ioc.rs:56-65). -/
def ClassField.refs : ClassField → List Text
  | .fixedTypeValue _ ty .. => ty.refs
  | .type .. => []

/-- `Asn1AssignmentKind::dependent_references` (structs/defs.rs:104-112, structs/types/ioc.rs:93-97,
159-168). -/
def Assignment.refs : Assignment → List Text
  | .value ty _ => ty.refs
  | .type ty => ty.refs
  | .class fs => fs.flatMap fun p => p.2.refs
  | .objectSet cls root add => cls :: (root.flatMap SetElement.refs ++ add.flatMap SetElement.refs)
  | .object cls _ => [cls]

end Hampi.Compiler
