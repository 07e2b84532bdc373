import Verif.Compiler.Tokenizer
/-!
# Parsed ASN.1 (asn-compiler/src/parser/asn/structs)

What the parser hands to the resolver. Texts are lists of characters, as in the tokenizer model.
`HashMap`s are association lists.
-/
namespace Hampi.Compiler

/-- Rust `String`. -/
abbrev Text := List Char

/-- `NamedValue` (structs/types/base.rs:3-7). -/
inductive NamedValue where
  | number (s : Text)
  | valueRef (s : Text)
deriving Repr, DecidableEq

/-- `EnumValue` (structs/types/base.rs:15-19). -/
structure EnumValue where
  name : Text
  value : Option NamedValue
deriving Repr, DecidableEq

/-- `ActualParam` (structs/types/mod.rs:69-73). -/
inductive ActualParam where
  | set (s : Text)
  | single (s : Text)
deriving Repr, DecidableEq

/-- `ActualParam::param_string` (structs/types/mod.rs:83-87). -/
def ActualParam.text : ActualParam → Text
  | .set s => s
  | .single s => s

mutual

/-- `Asn1Type` (structs/types/mod.rs:31-35). -/
inductive AsnType where
  | mk (kind : Kind) (constraints : Option (List Constraint))

/-- `Asn1TypeKind` with `Asn1BuiltinType`, `Asn1TypeReference`, `Asn1ConstructedType`
(structs/types/mod.rs:14-29, 61-66, 90-100, 118-126) in one type. -/
inductive Kind where
  | integer (named : Option (List (Text × NamedValue)))
  | enumerated (root : List EnumValue) (marker : Option Nat) (ext : List EnumValue)
  | bitString (named : Option (List (Text × NamedValue)))
  | boolean
  | null
  | octetString
  | objectIdentifier
  | relativeOid
  | characterString (strType : Text)
  | reference (name : Text)
  | classField (classref fieldref : Text)
  | parameterized (typeref : Text) (params : List ActualParam)
  | choice (root : List Component) (additions : Option (List ChoiceGroup))
  | sequence (root : List SeqComponent) (additions : List SeqGroup) (extensible : Bool)
  | sequenceOf (size : Option Constraint) (ty : AsnType)
  | set
  | setOf

/-- `Component` (structs/types/constructed.rs:6-10). -/
inductive Component where
  | mk (id : Text) (ty : AsnType)

/-- `ChoiceAdditionGroup` (structs/types/constructed.rs:46-50). -/
inductive ChoiceGroup where
  | mk (version : Option Text) (components : List Component)

/-- `SeqComponent` with its `Component` (structs/types/constructed.rs:18-23). -/
inductive SeqComponent where
  | mk (id : Text) (ty : AsnType) (optional : Bool) (default_ : Option Text)

/-- `SeqAdditionGroup` (structs/types/constructed.rs:31-35). -/
inductive SeqGroup where
  | mk (version : Option Text) (components : List SeqComponent)

/-- `Asn1Constraint` with `TableConstraint` and `ObjectSet` (structs/types/constraints.rs:45-67). -/
inductive Constraint where
  | subtype (e : ElementSet)
  | tableSimple (set : Text)
  | tableRelation (table component : Text)
  | contents (containing : Text)

/-- `ElementSet` (structs/types/constraints.rs:37-43): a union of intersections, and the union after
an extension marker. -/
inductive ElementSet where
  | mk (root : List (List Elements)) (additional : Option (List (List Elements)))

/-- `Elements` with `SubtypeElements` (structs/types/constraints.rs:7-27). -/
inductive Elements where
  | single (value : Text)
  | contained (ty : AsnType)
  | range (lower : Text) (lowerInclusive : Bool) (upper : Text) (upperInclusive : Bool)
  | size (e : ElementSet)
  | alphabet (e : ElementSet)
  | set (e : ElementSet)

end

end Hampi.Compiler
