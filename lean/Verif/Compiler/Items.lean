import Verif.Compiler.Generate
import Verif.Compiler.Resolve
/-!
# The items the generator writes (asn-compiler/src/generator)

The generator turns resolved types into Rust items, as tokens; the model keeps each item as data: its
name, the names of the types it mentions and the attributes. The `use` lines in front
(generator/int.rs:133-144), `#[derive(Debug, AperCodec)]`, the implementation tokens of a CHOICE that
are built and dropped (types/constructed/choice.rs:58-62) and the final run of rustfmt are left out.
`Ident::new` panics on a text that is not an identifier, and `capitalize_first` on a first character of
more than one octet. These panics are left out; C145 (Props/Idents.lean) shows that names always start with
an ASCII letter and consist of letters, digits and hyphens.
-/
namespace Hampi.Compiler

/-- A field of a generated `struct` (types/constructed/seq.rs:43-69). -/
structure FieldItem where
  ident : Text
  ty : Text
  optionalIdx : Option Nat
  keyField : Bool
deriving Repr, DecidableEq

/-- A variant of a generated CHOICE (types/constructed/choice.rs:79-111). -/
structure VariantItem where
  ident : Text
  ty : Text
  key : Nat
  extended : Bool
deriving Repr, DecidableEq

/-- A variant of a generated open type (types/int.rs:109-126). The key is the text written there. -/
structure OpenItem where
  ident : Text
  ty : Text
  key : Text
deriving Repr, DecidableEq

/-- A generated Rust item, with its `#[asn(..)]` attributes. -/
inductive Item where
  /-- `pub struct ident(pub T);`, the attributes as in `RBase.attrs`, and the constants of its `impl`. -/
  | newtype (ident : Text) (attrs : Option Ty) (consts : List (Text × Int))
  | struct (ident : Text) (ext : Bool) (optionalFields : Option Nat) (fields : List FieldItem)
  | vec (ident : Text) (lb ub : Option Int) (ext : Bool) (elem : Text)
  | choice (ident : Text) (lb ub : Int) (ext : Bool) (variants : List VariantItem)
  /-- `tagged`: with `#[asn(type = "OPEN")]`. -/
  | openEnum (ident : Text) (tagged : Bool) (variants : List OpenItem)
  | alias (ident target : Text)

/-- The name an item defines. -/
def Item.ident : Item → Text
  | .newtype i .. | .struct i .. | .vec i .. | .choice i .. | .openEnum i .. | .alias i _ => i

/-- `capitalize_first` (generator/int.rs:147-157). -/
def capitalizeFirst : Text → Text
  | [] => []
  | c :: cs => c.toUpper :: cs

/-- `to_type_ident` (generator/int.rs:68-73). -/
def typeIdent (name : Text) : Text :=
  (capitalizeFirst name).map fun c => if c = '-' ∨ c = ' ' then '_' else c

/-- `to_value_ident` (generator/int.rs:79-85). -/
def valueIdent (sp : Spelling) (name : Text) : Text :=
  let val := sp.snake (capitalizeFirst name)
  if val = "type".toList then "typ".toList else val

/-- `counter` and `aux_items` of the generator (generator/int.rs:14-26). -/
structure Gen where
  counter : Nat
  aux : List Item

/-- `Generator::new` (generator/int.rs:29-36). -/
def Gen.new : Gen := ⟨1, []⟩

/-- `aux_items.push`. -/
def Gen.push (g : Gen) (i : Item) : Gen := { g with aux := g.aux ++ [i] }

/-- `get_unique_name` (generator/int.rs:127-131): the name. -/
def Gen.uniqueName (g : Gen) (name : Text) : Text := name ++ ' ' :: (toString (g.counter + 1)).toList

/-- `get_unique_name` (generator/int.rs:127-131): the new state. -/
def Gen.next (g : Gen) : Gen := { g with counter := g.counter + 1 }

/-- The constants of an enumeration (types/base/enumerated.rs:43-56); `to_suffixed_literal`
(generator/int.rs:107-125) casts the number. -/
def RBase.consts (sp : Spelling) : RBase → List (Text × Int)
  | .enumerated bits signed _ root _ => root.map fun p => (sp.shouty p.1, (innerWidth bits signed).cast p.2)
  | _ => []

/-- `generate_for_base_type` (types/base/mod.rs:26-41). -/
def genBase (sp : Spelling) (name : Text) (b : RBase) : Out Err Item :=
  b.attrs.bind fun t => .ok (.newtype (typeIdent name) t (b.consts sp))

/-- The argument of `get_unique_name` in `generate_ident_and_aux_type` of each base type
(types/base/*.rs). -/
def RBase.label : RBase → Text
  | .integer .. => "INTEGER".toList
  | .enumerated .. => "ENUMERATED".toList
  | .bitString .. => "BIT STRING".toList
  | .boolean => "BOOLEAN".toList
  | .octetString _ => "OCTET STRING".toList
  | .characterString .. => "CharacterString".toList
  | .objectIdentifier => "OBJECT IDENTIFIER".toList
  | .null => "NULL".toList

/-- `generate_name_maybe_aux_type` (types/int.rs:27-44), with
`generate_ident_and_aux_type_for_constucted` (types/constructed/mod.rs:55-81) and
`generate_ident_and_aux_types_for_set` (types/int.rs:84-107): the name of the type of a component, and
the item for it if it is not a reference. `input` is always given (the calls without it,
types/int.rs:113, are for references). `gen` generates the item. -/
def withIdent (sp : Spelling) (ty : RType) (input : Text) (gen : Text → Gen → Out Err (Item × Gen))
    (g : Gen) : Out Err (Text × Gen) :=
  match ty with
  | .reference r => .ok (typeIdent r, g)
  | .base b =>
      (genBase sp (g.uniqueName b.label) b).bind fun i =>
        .ok (typeIdent (g.uniqueName b.label), g.next.push i)
  | _ => (gen input g).bind fun p => .ok (typeIdent input, p.2.push p.1)

/-- `generate_aux_types` (types/int.rs:109-126). -/
def openItems (types : List (Text × Text × Text)) : List OpenItem :=
  types.map fun e => ⟨typeIdent e.1, typeIdent e.2.2, e.2.1⟩

/-- `optional_fields` as it is written: left out when 0 (types/constructed/seq.rs:74-78). -/
def optionalAttr (n : Nat) : Option Nat := if n > 0 then some n else none

mutual

/-- `generate_for_type` (types/int.rs:12-25) with `generate_sequence` (types/constructed/seq.rs:13-90),
`generate_choice` (types/constructed/choice.rs:21-135), `generate_sequence_of`
(types/constructed/seqof.rs:13-51), `generate_type_alias_for_reference` (types/int.rs:53-64). A set is
only ever the type of a component, where it gets its attribute (types/int.rs:96-102; the other path,
types/int.rs:68-82, is not taken). `root_tokens.len() - 1` panics on no alternatives
(types/constructed/choice.rs:116). -/
def genItem (sp : Spelling) (name : Text) : RType → Gen → Out Err (Item × Gen)
  | .base b, g => (genBase sp name b).bind fun i => .ok (i, g)
  | .reference r, g => .ok (.alias (typeIdent name) (typeIdent r), g)
  | .set _ types, g => .ok (.openEnum (typeIdent name) true (openItems types), g)
  | .sequenceOf ty size, g =>
      (withIdent sp ty (name ++ "_Entry".toList) (fun nm => genItem sp nm ty) g).bind fun p =>
        .ok (.vec (typeIdent name) (boundsOf size).1 (boundsOf size).2 (extensibleOf size) p.1, p.2)
  | .sequence ext cs, g =>
      (genFields sp name 0 cs g).bind fun p =>
        .ok (.struct (typeIdent name) ext (optionalAttr p.1.2) p.1.1, p.2)
  | .choice root none, g =>
      (genVariants sp name false 0 root g).bind fun p =>
        if p.1.length = 0 then .panic
        else .ok (.choice (typeIdent name) 0 ((p.1.length - 1 : Nat) : Int) false p.1, p.2)
  | .choice root (some adds), g =>
      (genVariants sp name false 0 root g).bind fun p =>
        (genVariants sp name true 0 adds p.2).bind fun q =>
          if p.1.length = 0 then .panic
          else .ok (.choice (typeIdent name) 0 ((p.1.length - 1 : Nat) : Int) true (p.1 ++ q.1), q.2)

/-- The loop of `generate_sequence` (types/constructed/seq.rs:34-70): the fields and the final
`optional_fields`. -/
def genFields (sp : Spelling) (name : Text) :
    Nat → List RSeqComponent → Gen → Out Err ((List FieldItem × Nat) × Gen)
  | n, [], g => .ok (([], n), g)
  | n, .mk id ty optional keyField :: cs, g =>
      (withIdent sp ty (name ++ typeIdent id) (fun nm => genItem sp nm ty) g).bind fun p =>
        (genFields sp name (if optional then n + 1 else n) cs p.2).bind fun q =>
          .ok ((⟨valueIdent sp id, p.1, if optional then some n else none, keyField⟩ :: q.1.1, q.1.2), q.2)

/-- `get_component_tokens` (types/constructed/choice.rs:204-226) from the given key on. -/
def genVariants (sp : Spelling) (name : Text) (extended : Bool) :
    Nat → List RComponent → Gen → Out Err (List VariantItem × Gen)
  | _, [], g => .ok ([], g)
  | i, .mk id ty :: cs, g =>
      (withIdent sp ty (name ++ id) (fun nm => genItem sp nm ty) g).bind fun p =>
        (genVariants sp name extended (i + 1) cs p.2).bind fun q =>
          .ok (⟨typeIdent id, p.1, i, extended⟩ :: q.1, q.2)

end

/-- `get_resolved_types` (resolver/int.rs:101-109). -/
def resolvedTypes (defs : List (Text × RDef)) : List (Text × RType) :=
  defs.filterMap fun d => match d.2 with
    | .type t => some (d.1, t)
    | _ => none

/-- The loop of `Generator::generate` (generator/int.rs:47-52). -/
def genAll (sp : Spelling) : List (Text × RType) → Gen → Out Err (List Item × Gen)
  | [], g => .ok ([], g)
  | (k, t) :: ts, g =>
      (genItem sp k t g).bind fun p => (genAll sp ts p.2).bind fun q => .ok (p.1 :: q.1, q.2)

/-- `Generator::generate` (generator/int.rs:40-66). -/
def generate (sp : Spelling) (R : Resolver) : Out Err (List Item) :=
  (genAll sp (resolvedTypes R.resolved) .new).bind fun p => .ok (p.1 ++ p.2.aux)

end Hampi.Compiler
