import Verif.Compiler.Resolved
import Verif.Derive.Model
/-!
# The generator (asn-compiler/src/generator)

The output of the generator is a list of Rust items with `#[asn(..)]` attributes; the model keeps the
items as data (`Item`) instead of tokens. `snake` stands for `to_snake_case` and `shouty` for
`to_shouty_snake_case` of the crate heck.
-/
namespace Hampi.Compiler

/-- The spelling functions of the crate heck. -/
structure Spelling where
  snake : Text → Text
  shouty : Text → Text

/-- `Generator::to_inner_type` (generator/int.rs:87-105). -/
def innerWidth (bits : Nat) (signed : Bool) : Width :=
  if signed then
    if bits = 8 then .i8 else if bits = 16 then .i16 else if bits = 32 then .i32 else .i64
  else
    if bits = 8 then .u8 else if bits = 16 then .u16 else if bits = 32 then .u32 else .u64

/-- `get_min_max_constraints` (generator/asn/types/base/integer.rs:76-84), which become `lb` and
`ub`. -/
def boundsOf : Option ValueSet → Option Int × Option Int
  | none => (none, none)
  | some vs => (vs.root.min, vs.root.max)

/-- `has_extension` (resolver/asn/structs/types/constraints.rs:58-62) of a constraint that may be
absent. -/
def extensibleOf : Option ValueSet → Bool
  | none => false
  | some vs => vs.additional.isSome

/-- The character string types the derive macro knows (codecs_derive/src/aper/mod.rs:26-29). -/
def charKindOf (t : Text) : Option CharKind :=
  if t = "UTF8String".toList then some .utf8
  else if t = "PrintableString".toList then some .printable
  else if t = "VisibleString".toList then some .visible
  else none

/-- The attributes of a generated newtype: generator/asn/types/base/integer.rs:12-62,
enumerated.rs:12-41, bitstring.rs:12-33, octetstring.rs:12-33, charstring.rs:12-35, boolean.rs:11-22,
null.rs:11-22, oid.rs:11-22 and types/constraints.rs:9-27. An enumeration without numbered root
values underflows (enumerated.rs:26). A character string type the derive macro does not know is
`none`: the generated code does not compile. -/
def RBase.attrs : RBase → Out Err (Option Ty)
  | .integer bits signed cs =>
      .ok (some (.integer (innerWidth bits signed) (boundsOf cs).1 (boundsOf cs).2 (extensibleOf cs)))
  | .enumerated bits signed ext root _ =>
      match root with
      | [] => .panic
      | _ :: rest =>
          .ok (some (.enumerated (innerWidth bits signed) (some 0) (some rest.length) ext))
  | .bitString size _ => .ok (some (.bitstring (boundsOf size).1 (boundsOf size).2 (extensibleOf size)))
  | .octetString size =>
      .ok (some (.octetstring (boundsOf size).1 (boundsOf size).2 (extensibleOf size)))
  | .characterString st size =>
      .ok ((charKindOf st).map fun k =>
        .charstring k (boundsOf size).1 (boundsOf size).2 (extensibleOf size))
  | .boolean => .ok (some .boolean)
  | .null => .ok (some .null)
  | .objectIdentifier => .ok (some .objectIdentifier)

/-- Resolving a base type and generating its attributes, one after the other as in
`resolve_modules` and `generate` (compiler.rs:69-89). -/
def baseTy (env : Text → Option Int) (ty : AsnType) : Out Err (Option Ty) :=
  (resolveBase env ty).bind RBase.attrs

end Hampi.Compiler
