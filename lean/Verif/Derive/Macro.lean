import Verif.Derive.Model
import Verif.Compiler.Constraints
/-!
# The derive macro (codecs_derive/src)

What `#[derive(AperCodec)]` does with the Rust item it is given. The item is kept as the macro sees it through
the crate syn. The result is the implementation that is emitted, kept as data (`Impl`): which runtime functions
it calls with which arguments. `.err` is a `compile_error!`, `.panic` a panic of the macro, which the Rust
compiler reports as an error as well. Left out: the messages and the place they point to.
-/
namespace Hampi.Derive
open Hampi.Compiler (Text Out parseI128)

/-- `syn::Lit`. An integer literal is kept as its value, without suffix; a negative one is left out. -/
inductive Lit where
  | str (s : Text)
  | int (n : Nat)
  | bool (b : Bool)
  | other
deriving Repr, DecidableEq

/-- `syn::NestedMeta`: `path = lit`, or something else. -/
inductive Nested where
  | nameValue (path : Text) (lit : Lit)
  | other
deriving Repr, DecidableEq

/-- The result of `attr.parse_meta()`: a list in parentheses, something else, or an error. -/
inductive Meta where
  | list (nested : List Nested)
  | other
  | malformed
deriving Repr, DecidableEq

/-- `syn::Attribute`: `#[path(..)]`. A doc comment is an attribute `#[doc = ".."]`. -/
structure Attr where
  path : Text
  body : Meta
deriving Repr, DecidableEq

/-- `syn::Type`: a path with its first segment, the arguments of that segment in angle brackets (an empty list
also stands for no brackets) and whether there are more segments; or something else. `colon`: with `::` in
front. An argument that is not a type is `.other`. -/
inductive RustTy where
  | path (colon : Bool) (first : Text) (args : List RustTy) (more : Bool)
  | other

/-- The type called `x`. -/
def RustTy.name (x : Text) : RustTy := .path false x [] false

/-- `x<y>`. -/
def RustTy.app (x y : Text) : RustTy := .path false x [.name y] false

/-- `syn::Field` of a struct with named fields. -/
structure FieldSyn where
  attrs : List Attr
  ident : Text
  ty : RustTy

/-- `syn::Fields` of a variant. -/
inductive VariantFields where
  | unit
  | tuple (tys : List RustTy)
  | named

/-- `syn::Variant`. -/
structure VariantSyn where
  attrs : List Attr
  ident : Text
  fields : VariantFields

/-- `syn::Data`. The macro does not look at the attributes of the fields of a tuple. -/
inductive Data where
  | unit
  | tuple (tys : List RustTy)
  | named (fields : List FieldSyn)
  | enum (variants : List VariantSyn)
  | union

/-- `syn::DeriveInput`. -/
structure Input where
  attrs : List Attr
  ident : Text
  data : Data

/-! ## Attributes -/

/-- `TyCodecParams` (attrs.rs:6-36). Of `attr` only whether there is one. -/
structure TyParams where
  ty : Option Text := none
  lb : Option Text := none
  ub : Option Text := none
  ext : Option Bool := none
  szLb : Option Text := none
  szUb : Option Text := none
  szExt : Option Bool := none
  optionalFields : Option Nat := none
  attr : Bool := false
deriving Repr, DecidableEq

/-- The body of the inner loop of `parse_ty_meta_as_codec_params` (attrs.rs:60-173): `none` is an error. -/
def TyParams.add (p : TyParams) : Nested → Option TyParams
  | .nameValue path lit =>
      if path = "lb".toList then match lit with | .str s => some { p with lb := some s } | _ => none
      else if path = "ub".toList then match lit with | .str s => some { p with ub := some s } | _ => none
      else if path = "type".toList then match lit with | .str s => some { p with ty := some s } | _ => none
      else if path = "extensible".toList then
        match lit with | .bool b => some { p with ext := some b } | _ => none
      else if path = "sz_extensible".toList then
        match lit with | .bool b => some { p with szExt := some b } | _ => none
      else if path = "sz_lb".toList then match lit with | .str s => some { p with szLb := some s } | _ => none
      else if path = "sz_ub".toList then match lit with | .str s => some { p with szUb := some s } | _ => none
      else if path = "optional_fields".toList then
        match lit with | .int n => some { p with optionalFields := some n } | _ => none
      else none
  | .other => none

/-- `FieldVarCodecParams` (attrs.rs:196-213). -/
structure FieldParams where
  key : Option Nat := none
  extended : Option Bool := none
  optionalIdx : Option Nat := none
  keyField : Option Bool := none
deriving Repr, DecidableEq

/-- The body of the inner loop of `parse_fld_meta_as_codec_params` (attrs.rs:234-291): `none` is an error. -/
def FieldParams.add (p : FieldParams) : Nested → Option FieldParams
  | .nameValue path lit =>
      if path = "key".toList then match lit with | .int n => some { p with key := some n } | _ => none
      else if path = "extended".toList then
        match lit with | .bool b => some { p with extended := some b } | _ => none
      else if path = "optional_idx".toList then
        match lit with | .int n => some { p with optionalIdx := some n } | _ => none
      else if path = "key_field".toList then
        match lit with | .bool b => some { p with keyField := some b } | _ => none
      else none
  | .other => none

/-- The inner loop of both functions: an error does not stop it, and what came before it is kept. -/
def addAll {P : Type} (add : P → Nested → Option P) : List Nested → P × Bool → P × Bool
  | [], s => s
  | x :: xs, (p, bad) =>
      match add p x with
      | some p' => addAll add xs (p', bad)
      | none => addAll add xs (p, true)

/-- The outer loop of both functions (attrs.rs:48-182, 222-300); `see` notes that there is an attribute. -/
def readAttrs {P : Type} (add : P → Nested → Option P) (see : P → P) : List Attr → P × Bool → P × Bool
  | [], s => s
  | a :: as, (p, bad) =>
      if a.path = "asn".toList then
        match a.body with
        | .list l => readAttrs add see as (addAll add l (see p, bad))
        | _ => readAttrs add see as (see p, true)
      else readAttrs add see as (p, true)

/-- `parse_ty_meta_as_codec_params` (attrs.rs:42-191). -/
def tyParams (attrs : List Attr) : Out Unit TyParams :=
  let r := readAttrs TyParams.add (fun p => { p with attr := true }) attrs ({}, false)
  if r.2 then .err () else .ok r.1

/-- `parse_fld_meta_as_codec_params` (attrs.rs:216-309). -/
def fieldParams (attrs : List Attr) : Out Unit FieldParams :=
  let r := readAttrs FieldParams.add id attrs ({}, false)
  if r.2 then .err () else .ok r.1

/-- `.value().parse::<i128>().unwrap()` of an attribute that may be absent (utils.rs:24-43). -/
def boundOf : Option Text → Out Unit (Option Int)
  | none => .ok none
  | some s =>
      match parseI128 s with
      | some v => .ok (some v)
      | none => .panic

/-- `get_bounds_extensible_from_lb_ub_ext` (utils.rs:19-56); aper/charstring.rs:67-108 does the same. -/
def bounds (lb ub : Option Text) (ext : Option Bool) : Out Unit (Option Int × Option Int × Bool) :=
  (boundOf lb).bind fun l => (boundOf ub).bind fun u => .ok (l, u, ext.getD false)

/-! ## The emitted implementations -/

/-- How a field is decoded (aper/seq.rs:88-136): the type is the identifier in front of `::decode`. -/
inductive FieldImpl where
  | required (ident ty : Text) (key : Bool)
  | optional (ident ty : Text) (idx : Nat)
deriving Repr, DecidableEq

/-- A variant that takes part in the codec (aper/choice.rs:80-95, aper/open.rs:91-106). -/
structure VariantImpl where
  ident : Text
  ty : RustTy
  key : Nat
  extended : Option Bool

/-- The emitted `impl AperCodec`. The tokens of an absent `extensible` or `extended` are none at all, so that
the call lacks an argument. -/
inductive Impl where
  | boolean
  | null
  | objectIdentifier
  | integer (inner : RustTy) (lb ub : Option Int) (ext : Bool)
  | enumerated (inner : RustTy) (lb ub : Option Int) (ext : Bool)
  | bitstring (lb ub : Option Int) (ext : Bool)
  | octetstring (lb ub : Option Int) (ext : Bool)
  | charstring (kind : CharKind) (lb ub : Option Int) (ext : Bool)
  | sequence (ext : Option Bool) (optionalFields : Nat) (fields : List FieldImpl)
  | sequenceOf (lb ub : Option Int) (ext : Bool) (elem : Option Text)
  | choice (lb ub : Int) (ext : Option Bool) (variants : List VariantImpl)
  | openType (variants : List VariantImpl)

/-- The type in a tuple struct with one field (aper/integer.rs:13-29 and the like in enumerated.rs, bitstring.rs,
octetstring.rs, charstring.rs, seqof.rs). -/
def single : Data → Out Unit RustTy
  | .tuple [ty] => .ok ty
  | _ => .err ()

/-- `get_field_type` (aper/seq.rs:189-226): the type, and whether the field is optional. -/
def fieldType : RustTy → Option Text × Bool
  | .path colon x args more =>
      if colon = false ∧ more = false ∧ x = "Option".toList then
        (match args with
          | .path _ y _ _ :: _ => some y
          | _ => none, true)
      else (some x, false)
  | .other => (none, false)

/-- The body of the loop of `generate_seq_field_codec_tokens_using_attrs` (aper/seq.rs:74-169). -/
def fieldImpl (f : FieldSyn) : Out Unit FieldImpl :=
  (fieldParams f.attrs).bind fun p =>
    match fieldType f.ty with
    | (none, _) => .err ()
    | (some y, true) =>
        match p.optionalIdx with
        | none => .err ()
        | some i => .ok (.optional f.ident y i)
    | (some y, false) => .ok (.required f.ident y (p.keyField.getD false))

/-- The results for a list if there is no error in any (`errors.split_first_mut()`). -/
def allOk {α β : Type} (f : α → Out Unit β) : List α → Out Unit (List β)
  | [] => .ok []
  | x :: xs => (f x).bind fun y => (allOk f xs).bind fun ys => .ok (y :: ys)

/-- `generate_seq_field_codec_tokens_using_attrs` (aper/seq.rs:56-182): nothing for an item that is not a struct
with named fields. -/
def seqFields : Data → Out Unit (List FieldImpl)
  | .named fs => allOk fieldImpl fs
  | _ => .ok []

/-- The body of the loop over the variants (aper/choice.rs:68-104, aper/open.rs:79-113): a variant that is not
a tuple is passed over. -/
def variantImpl (v : VariantSyn) : Out Unit (Option VariantImpl) :=
  (fieldParams v.attrs).bind fun p =>
    match p.key with
    | none => .err ()
    | some k =>
        match v.fields with
        | .tuple [ty] => .ok (some ⟨v.ident, ty, k, p.extended⟩)
        | .tuple _ => .err ()
        | _ => .ok none

/-- `generate_choice_variant_decode_tokens_using_attrs` (aper/choice.rs:56-116) and
`generate_open_type_variant_tokens_using_attrs` (aper/open.rs:70-125): nothing for an item that is not an enum. -/
def variants : Data → Out Unit (List VariantImpl)
  | .enum vs => (allOk variantImpl vs).bind fun l => .ok (l.filterMap id)
  | _ => .ok []

/-- `params.lb.as_ref().unwrap().value().parse::<i128>().unwrap()` (aper/choice.rs:14-15). -/
def choiceBound : Option Text → Out Unit Int
  | none => .panic
  | some s =>
      match parseI128 s with
      | some v => .ok v
      | none => .panic

/-- `generate_codec` (aper/mod.rs:18-42) with the functions it calls (aper/*.rs). -/
def generateCodec (i : Input) (ty : Text) (p : TyParams) : Out Unit Impl :=
  if ty = "BOOLEAN".toList then .ok .boolean
  else if ty = "CHOICE".toList then
    (choiceBound p.lb).bind fun lb => (choiceBound p.ub).bind fun ub =>
      (variants i.data).bind fun vs => .ok (.choice lb ub p.ext vs)
  else if ty = "INTEGER".toList then
    (single i.data).bind fun inner => (bounds p.lb p.ub p.ext).bind fun b => .ok (.integer inner b.1 b.2.1 b.2.2)
  else if ty = "ENUMERATED".toList then
    (single i.data).bind fun inner => (bounds p.lb p.ub p.ext).bind fun b => .ok (.enumerated inner b.1 b.2.1 b.2.2)
  else if ty = "BITSTRING".toList then
    (single i.data).bind fun _ => (bounds p.szLb p.szUb p.szExt).bind fun b => .ok (.bitstring b.1 b.2.1 b.2.2)
  else if ty = "OCTET-STRING".toList then
    (single i.data).bind fun _ => (bounds p.szLb p.szUb p.szExt).bind fun b => .ok (.octetstring b.1 b.2.1 b.2.2)
  else if ty = "UTF8String".toList then
    (single i.data).bind fun _ => (bounds p.szLb p.szUb p.szExt).bind fun b => .ok (.charstring .utf8 b.1 b.2.1 b.2.2)
  else if ty = "PrintableString".toList then
    (single i.data).bind fun _ => (bounds p.szLb p.szUb p.szExt).bind fun b =>
      .ok (.charstring .printable b.1 b.2.1 b.2.2)
  else if ty = "VisibleString".toList then
    (single i.data).bind fun _ => (bounds p.szLb p.szUb p.szExt).bind fun b =>
      .ok (.charstring .visible b.1 b.2.1 b.2.2)
  else if ty = "NULL".toList then .ok .null
  else if ty = "SEQUENCE".toList then
    (seqFields i.data).bind fun fs => .ok (.sequence p.ext (p.optionalFields.getD 0) fs)
  else if ty = "OPEN".toList then (variants i.data).bind fun vs => .ok (.openType vs)
  else if ty = "SEQUENCE-OF".toList then
    (single i.data).bind fun inner => (bounds p.szLb p.szUb p.szExt).bind fun b =>
      .ok (.sequenceOf b.1 b.2.1 b.2.2 (match inner with
        | .path _ _ (.path _ y _ _ :: _) _ => some y
        | _ => none))
  else if ty = "OBJECT-IDENTIFIER".toList then .ok .objectIdentifier
  else .err ()

/-- `derive` (lib.rs:16-41). -/
def derive (i : Input) : Out Unit Impl :=
  (tyParams i.attrs).bind fun p =>
    if p.attr then
      match p.ty with
      | none => .err ()
      | some ty => generateCodec i ty p
    else .err ()

end Hampi.Derive
