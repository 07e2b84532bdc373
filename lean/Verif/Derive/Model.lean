import Verif.Codec.Encode
import Verif.Codec.Decode
/-!
# Derived codecs (codecs_derive/src/aper/*.rs)

`#[derive(AperCodec)]` turns the `#[asn(..)]` attributes of a Rust type into an implementation of
`AperCodec`. `Ty` is a Rust type with its attributes; `Ty.Val` are its Rust values; `Ty.encode` and
`Ty.decode` are the generated functions, which only call the runtime functions modelled in
`Verif/Codec`. What the macro does with attributes, and its compile errors, is modelled in
`Verif/Derive/Macro.lean`: a `Ty` stands for attributes the macro accepts. Recursive Rust types are not in the universe (the
compiler of /repo does not generate them, see `Verif/Compiler`).
-/
namespace Hampi

/-- The integer types the compiler puts in a generated newtype
(asn-compiler/src/resolver/asn/types/base/integer.rs:10-66, resolver/asn/structs/types/base.rs). -/
inductive Width where
  | i8 | i16 | i32 | i64 | u8 | u16 | u32 | u64
deriving Repr, DecidableEq

/-- Number of bits. -/
def Width.bits : Width → Nat
  | .i8 | .u8 => 8
  | .i16 | .u16 => 16
  | .i32 | .u32 => 32
  | .i64 | .u64 => 64

/-- Signedness. -/
def Width.signed : Width → Bool
  | .i8 | .i16 | .i32 | .i64 => true
  | _ => false

/-- `v` is a value of the Rust type. -/
def Width.Fits (w : Width) (v : Int) : Prop :=
  if w.signed then -(2 ^ (w.bits - 1)) ≤ v ∧ v < 2 ^ (w.bits - 1) else 0 ≤ v ∧ v < 2 ^ w.bits

instance (w : Width) (v : Int) : Decidable (w.Fits v) := by
  unfold Width.Fits; exact inferInstance

/-- `v as <width>` for an `i128` (codecs_derive/src/aper/integer.rs:45, enumerated.rs:46). -/
def Width.cast (w : Width) (v : Int) : Int :=
  if w.signed then signExtend w.bits (v % 2 ^ w.bits).toNat else v % 2 ^ w.bits

/-- Character string types (codecs_derive/src/aper/charstring.rs:14-34). -/
inductive CharKind where
  | utf8 | printable | visible
deriving Repr, DecidableEq

mutual

/-- A Rust type with its `#[asn(..)]` attributes (dispatch: codecs_derive/src/aper/mod.rs:20-43). -/
inductive Ty where
  | boolean
  | null
  | integer (w : Width) (lb ub : Option Int) (ext : Bool)
  | enumerated (w : Width) (lb ub : Option Int) (ext : Bool)
  | bitstring (lb ub : Option Int) (ext : Bool)
  | octetstring (lb ub : Option Int) (ext : Bool)
  | charstring (kind : CharKind) (lb ub : Option Int) (ext : Bool)
  | objectIdentifier
  | sequence (ext : Bool) (optionalFields : Nat) (fields : Fields)
  | sequenceOf (lb ub : Option Int) (ext : Bool) (elem : Ty)
  | choice (lb ub : Int) (ext : Bool) (alts : Alts)
  | openType (alts : Alts)

/-- The fields of a `struct`: `key_field` for required fields, `optional_idx` for `Option` fields
(a key attribute on an `Option` field is ignored, codecs_derive/src/aper/seq.rs:90-110). -/
inductive Fields where
  | nil
  | required (keyField : Bool) (ty : Ty) (rest : Fields)
  | optional (idx : Nat) (ty : Ty) (rest : Fields)

/-- The variants of an `enum`: `key` and `extended`. -/
inductive Alts where
  | nil
  | cons (key : Int) (extended : Bool) (ty : Ty) (rest : Alts)

end

mutual

/-- The values of the Rust type. Integers are unbounded here; `Width.Fits` is part of
well-formedness. -/
def Ty.Val : Ty → Type
  | .boolean => Bool
  | .null => Unit
  | .integer .. => Int
  | .enumerated .. => Int
  | .bitstring .. => List Bool
  | .octetstring .. => List UInt8
  | .charstring .. => String
  | .objectIdentifier => List UInt8
  | .sequence _ _ fs => fs.Val
  | .sequenceOf _ _ _ e => List e.Val
  | .choice _ _ _ as => as.Val
  | .openType as => as.Val

/-- A struct value: its fields in order. -/
def Fields.Val : Fields → Type
  | .nil => Unit
  | .required _ t rest => t.Val × rest.Val
  | .optional _ t rest => Option t.Val × rest.Val

/-- An enum value: one of the variants. -/
def Alts.Val : Alts → Type
  | .nil => Empty
  | .cons _ _ t rest => t.Val ⊕ rest.Val

end

/-! ## Encoding -/

/-- The key of the variant a value belongs to. -/
def Alts.keyOf : (as : Alts) → as.Val → Int
  | .cons k _ _ _, .inl _ => k
  | .cons _ _ _ rest, .inr v => rest.keyOf v

/-- The `extended` attribute of the variant a value belongs to. -/
def Alts.extendedOf : (as : Alts) → as.Val → Bool
  | .cons _ x _ _, .inl _ => x
  | .cons _ _ _ rest, .inr v => rest.extendedOf v

/-- `bitmap.set(idx, true)` for every optional field that is present
(codecs_derive/src/aper/seq.rs:126-137); `none` is the panic of `set` beyond the end. -/
def Fields.mark : (fs : Fields) → fs.Val → List Bool → Option (List Bool)
  | .nil, _, bm => some bm
  | .required _ _ rest, v, bm => rest.mark v.2 bm
  | .optional i _ rest, (some _, v), bm =>
      if i < bm.length then rest.mark v (bm.set i true) else none
  | .optional _ _ rest, (none, v), bm => rest.mark v bm

/-- The header part of the encoder of a struct (codecs_derive/src/aper/seq.rs:40-44). -/
def encodeHeader (fs : Fields) (v : fs.Val) (ext : Bool) (optionalFields : Nat) : M Unit :=
  match fs.mark v (List.replicate optionalFields false) with
  | some bm => encodeSequenceHeader ext bm false
  | none => M.panic

/-- `let _ = f(data);`: an `Err` is dropped, its effect on the buffer stays
(codecs_derive/src/aper/seqof.rs:63). -/
def M.ignoreErr (m : M Unit) : M Unit := fun s =>
  match m s with
  | .ok _ t => .ok () t
  | .err t => .ok () t
  | .panic => .panic

/-- `for elem in &self.0 { elem.encode(data)?; }` (codecs_derive/src/aper/seqof.rs:65-67). -/
def encodeAll {α : Type} (enc : α → M Unit) : List α → M Unit
  | [] => pure ()
  | x :: xs => do
    enc x
    encodeAll enc xs

/-- The encoder of an open type once its variant's encoder is known
(codecs_derive/src/aper/open.rs:21-29): encode into a fresh buffer, write the length in octets, append
the octets. An `Err` of the variant leaves `data` as it was. -/
def encodeOpen (payload : M Unit) : M Unit := fun s =>
  match payload Codec.new with
  | .err _ => .err s
  | .panic => .panic
  | .ok _ inner =>
    match lengthInBytes inner with
    | .ok n inner => (encodeLength none none false n >>= fun _ => appendAligned inner) s
    | .err _ => .err s
    | .panic => .panic

/-- The character string encoders (codecs_derive/src/aper/charstring.rs:122-126). -/
def encodeCharstring : CharKind → Option Int → Option Int → Bool → String → Bool → M Unit
  | .utf8 => encodeUtf8String
  | .printable => encodePrintableString
  | .visible => encodeVisibleString

/-- The character string decoders (codecs_derive/src/aper/charstring.rs:115-120). -/
def decodeCharstring : CharKind → Option Int → Option Int → Bool → M String
  | .utf8 => decodeUtf8String
  | .printable => decodePrintableString
  | .visible => decodeVisibleString

mutual

/-- The generated `encode`: boolean.rs:25-29, null.rs:25-29, integer.rs:48-52, enumerated.rs:50-54,
bitstring.rs:49-53, octetstring.rs:49-53, charstring.rs:122-126, oid.rs:25-29, seq.rs:37-49,
seqof.rs:60-69, choice.rs:43-49 and 86-91, open.rs:19-29 and 53-57 (all in
codecs_derive/src/aper). -/
def Ty.encode : (t : Ty) → t.Val → M Unit
  | .boolean, v => encodeBool v
  | .null, _ => pure ()
  | .integer _ lb ub ext, v => encodeInteger lb ub ext v false
  | .enumerated _ lb ub ext, v => encodeEnumerated lb ub ext v false
  | .bitstring lb ub ext, v => encodeBitstring lb ub ext v false
  | .octetstring lb ub ext, v => encodeOctetstring lb ub ext v false
  | .charstring k lb ub ext, v => encodeCharstring k lb ub ext v false
  | .objectIdentifier, _ => M.fail
  | .sequence ext n fs, v => encodeHeader fs v ext n >>= fun _ => fs.encode v
  | .sequenceOf lb ub ext e, v =>
      M.ignoreErr (encodeLength lb ub ext (List.length v)) >>= fun _ => encodeAll e.encode v
  | .choice lb ub ext as, v =>
      encodeChoiceIdx lb ub ext (as.keyOf v) (as.extendedOf v) >>= fun _ => as.encode v
  | .openType as, v => encodeOpen (as.encode v)

/-- The fields of a struct, absent ones skipped (codecs_derive/src/aper/seq.rs:112-124). -/
def Fields.encode : (fs : Fields) → fs.Val → M Unit
  | .nil, _ => pure ()
  | .required _ t rest, v => t.encode v.1 >>= fun _ => rest.encode v.2
  | .optional _ t rest, v =>
      (match v.1 with
        | some x => t.encode x
        | none => pure ()) >>= fun _ => rest.encode v.2

/-- `v.encode(data)` for the variant at hand (choice.rs:89, open.rs:101). -/
def Alts.encode : (as : Alts) → as.Val → M Unit
  | .cons _ _ t _, .inl v => t.encode v
  | .cons _ _ _ rest, .inr v => rest.encode v

end

/-! ## Decoding -/

/-- `value.0 as i128` for a key field (codecs_derive/src/aper/seq.rs:104): the fields whose first
component is an integer or a boolean; others do not compile and are left alone here. -/
def Ty.keyValue : (t : Ty) → t.Val → Option Int
  | .integer .., v => some v
  | .enumerated .., v => some v
  | .boolean, v => some (if (show Bool from v) then 1 else 0)
  | _, _ => none

/-- `data.set_key(value.0 as i128)` (codecs_derive/src/aper/seq.rs:104). -/
def setKeyFrom (keyField : Bool) (t : Ty) (v : t.Val) : M Unit :=
  match keyField, t.keyValue v with
  | true, some k => setKey k
  | _, _ => pure ()

/-- `bitmap[idx]` (codecs_derive/src/aper/seq.rs:80-81); panics out of range. -/
def present (bitmap : List Bool) (idx : Nat) : M Bool :=
  match bitmap[idx]? with
  | some b => pure b
  | none => M.panic

/-- `n` turns of the loop of codecs_derive/src/aper/seqof.rs:48-54. -/
def decodeTimes {α : Type} (dec : M α) : Nat → M (List α)
  | 0 => pure []
  | n + 1 => do
    let x ← dec
    let xs ← decodeTimes dec n
    pure (x :: xs)

/-- The loop of codecs_derive/src/aper/seqof.rs:48-54. The test comes after the first element, so
with `length = 0` it goes on until an element fails or the counter overflows (panic after 2^64
elements). -/
def decodeLoop {α : Type} (dec : M α) (length : Nat) : M (List α) :=
  if length = 0 then decodeTimes dec (2 ^ 64) >>= fun _ => M.panic
  else decodeTimes dec length

/-- `data.get_key()` (codecs_derive/src/aper/open.rs:44-48); `Err` when there is none. -/
def requireKey : M Int := fun s =>
  match s.key with
  | some k => .ok k s
  | none => .err s

mutual

/-- The generated `decode`: boolean.rs:18-23, null.rs:19-23, integer.rs:42-46, enumerated.rs:42-48,
bitstring.rs:42-47, octetstring.rs:42-47, charstring.rs:115-120, oid.rs:19-23, seq.rs:30-35,
seqof.rs:43-58, choice.rs:29-41, open.rs:36-51 (all in codecs_derive/src/aper). -/
def Ty.decode : (t : Ty) → M t.Val
  | .boolean => decodeBool
  | .null => pure ()
  | .integer w lb ub ext => decodeInteger lb ub ext >>= fun d => pure (w.cast d.1)
  | .enumerated w lb ub ext => decodeEnumerated lb ub ext >>= fun d => pure (w.cast d.1)
  | .bitstring lb ub ext => decodeBitstring lb ub ext
  | .octetstring lb ub ext => decodeOctetstring lb ub ext
  | .charstring k lb ub ext => decodeCharstring k lb ub ext
  | .objectIdentifier => M.fail
  | .sequence ext n fs => decodeSequenceHeader ext n >>= fun h => fs.decode h.1
  | .sequenceOf lb ub ext e => decodeLength lb ub ext >>= fun n => decodeLoop e.decode n
  | .choice lb ub ext as =>
      decodeChoiceIdx lb ub ext >>= fun r => if !r.2 then as.decode r.1 else M.fail
  | .openType as =>
      decodeLength none none false >>= fun _ => requireKey >>= fun k => as.decode k

/-- The fields of a struct (codecs_derive/src/aper/seq.rs:66-110). -/
def Fields.decode : (fs : Fields) → (bitmap : List Bool) → M fs.Val
  | .nil, _ => pure ()
  | .required k t rest, bm =>
      t.decode >>= fun v => setKeyFrom k t v >>= fun _ => rest.decode bm >>= fun vs => pure (v, vs)
  | .optional i t rest, bm =>
      present bm i >>= fun b =>
        (if b then t.decode >>= fun x => pure (some x) else pure none) >>= fun v =>
          rest.decode bm >>= fun vs => pure (v, vs)

/-- `match key { .. }`: the first variant with that key (choice.rs:83-85, open.rs:97-99); `Err` if
there is none (choice.rs:36, open.rs:51). -/
def Alts.decode : (as : Alts) → (key : Int) → M as.Val
  | .nil, _ => M.fail
  | .cons k _ t rest, key =>
      if key = k then t.decode >>= fun v => pure (.inl v)
      else rest.decode key >>= fun v => pure (.inr v)

end

end Hampi
