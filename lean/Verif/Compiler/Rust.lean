import Verif.Compiler.Items
import Verif.Derive.Macro
/-!
# The tokens of the generated items (asn-compiler/src/generator)

`Renders i r`: the tokens the generator writes for the item `i` (Compiler/Items.lean) are, as the crate syn
reads them, the Rust item `r`. It is a relation because an `Item` does not say everything: which character
string type the derive macro does not know, and whether a size constraint without bounds was written. Left out
are the keys of an open type that are not natural numbers, the constants, `pub` and `#[derive(..)]`, which
rustc does not show to the macro.
-/
namespace Hampi.Compiler
open Hampi.Derive

/-- An item of a Rust file: one with `#[derive(AperCodec)]`, or `pub type ident = target;`. -/
inductive RustItem where
  | derived (i : Input)
  | alias (ident target : Text)

/-- The name an item defines. -/
def RustItem.ident : RustItem → Text
  | .derived i => i.ident
  | .alias x _ => x

/-- `#[asn(..)]`. -/
def asnAttr (l : List Nested) : List Attr := [⟨"asn".toList, .list l⟩]

/-- `type = ".."`. -/
def typeAttr (ty : Text) : Nested := .nameValue "type".toList (.str ty)

/-- `, name = ".."` for a bound, which may be absent (types/base/integer.rs:23-46, types/constraints.rs:17-24). -/
def boundAttr (name : Text) : Option Int → List Nested
  | none => []
  | some v => [.nameValue name (.str (showInt v))]

/-- `get_ty_size_constraints_attrs` (types/constraints.rs:9-27), if there is a size (types/base/bitstring.rs:21-24,
octetstring.rs:21-24, charstring.rs:23-26, types/constructed/seqof.rs:28-35). -/
inductive SizeAttrs : Option Int → Option Int → Bool → List Nested → Prop
  | none : SizeAttrs none none false []
  | size {lb ub ext} : SizeAttrs lb ub ext
      (.nameValue "sz_extensible".toList (.bool ext) :: (boundAttr "sz_lb".toList lb ++ boundAttr "sz_ub".toList ub))

/-- `, extensible = true`, or nothing (types/base/integer.rs:48-52, enumerated.rs:23-25). -/
def extensibleAttr (ext : Bool) : List Nested :=
  if ext then [.nameValue "extensible".toList (.bool true)] else []

/-- `to_inner_type` (generator/int.rs:87-105): the Rust type. -/
def widthName : Width → Text
  | .i8 => "i8".toList
  | .i16 => "i16".toList
  | .i32 => "i32".toList
  | .i64 => "i64".toList
  | .u8 => "u8".toList
  | .u16 => "u16".toList
  | .u32 => "u32".toList
  | .u64 => "u64".toList

/-- The name of a character string type. -/
def kindName : CharKind → Text
  | .utf8 => "UTF8String".toList
  | .printable => "PrintableString".toList
  | .visible => "VisibleString".toList

/-- `BitVec<u8, Msb0>` (types/base/bitstring.rs:29). -/
def bitVecTy : RustTy := .path false "BitVec".toList [.name "u8".toList, .name "Msb0".toList] false

/-- The attributes and the data of a newtype (types/base/*.rs). -/
inductive RendersType : Ty → List Nested → Data → Prop
  /-- types/base/boolean.rs:17-21 -/
  | boolean : RendersType .boolean [typeAttr "BOOLEAN".toList] (.tuple [.name "bool".toList])
  /-- types/base/null.rs:17-21 -/
  | null : RendersType .null [typeAttr "NULL".toList] .unit
  /-- types/base/oid.rs:17-21 -/
  | objectIdentifier : RendersType .objectIdentifier [typeAttr "OBJECT-IDENTIFIER".toList] .unit
  /-- types/base/integer.rs:37-58 -/
  | integer {w lb ub ext} : RendersType (.integer w lb ub ext)
      (typeAttr "INTEGER".toList :: (boundAttr "lb".toList lb ++ (boundAttr "ub".toList ub ++ extensibleAttr ext)))
      (.tuple [.name (widthName w)])
  /-- types/base/enumerated.rs:22-33; `lb` is always 0. -/
  | enumerated {w lb ub ext} : RendersType (.enumerated w lb ub ext)
      (typeAttr "ENUMERATED".toList :: (extensibleAttr ext ++ (boundAttr "lb".toList lb ++ boundAttr "ub".toList ub)))
      (.tuple [.name (widthName w)])
  /-- types/base/bitstring.rs:19-30 -/
  | bitstring {lb ub ext l} : SizeAttrs lb ub ext l →
      RendersType (.bitstring lb ub ext) (typeAttr "BITSTRING".toList :: l) (.tuple [bitVecTy])
  /-- types/base/octetstring.rs:19-30 -/
  | octetstring {lb ub ext l} : SizeAttrs lb ub ext l →
      RendersType (.octetstring lb ub ext) (typeAttr "OCTET-STRING".toList :: l)
        (.tuple [.app "Vec".toList "u8".toList])
  /-- types/base/charstring.rs:18-32 -/
  | charstring {k lb ub ext l} : SizeAttrs lb ub ext l →
      RendersType (.charstring k lb ub ext) (typeAttr (kindName k) :: l) (.tuple [.name "String".toList])

/-- A field of a `struct` (types/constructed/seq.rs:43-69). The tokens of the optional index end in a comma, and
another comma is put in front of `key_field = true`: if both are there, two commas follow each other. -/
def fieldSyn (f : FieldItem) : FieldSyn :=
  { attrs := match f.optionalIdx, f.keyField with
      | none, false => []
      | none, true => asnAttr [.nameValue "key_field".toList (.bool true)]
      | some i, false => asnAttr [.nameValue "optional_idx".toList (.int i)]
      | some _, true => [⟨"asn".toList, .malformed⟩]
    ident := f.ident
    ty := match f.optionalIdx with
      | none => .name f.ty
      | some _ => .app "Option".toList f.ty }

/-- A variant of a CHOICE (types/constructed/choice.rs:79-111). -/
def variantSyn (v : VariantItem) : VariantSyn :=
  { attrs := asnAttr [.nameValue "key".toList (.int v.key), .nameValue "extended".toList (.bool v.extended)]
    ident := v.ident
    fields := .tuple [.name v.ty] }

/-- The variants of an open type (types/int.rs:109-126). -/
inductive RendersOpen : List OpenItem → List VariantSyn → Prop
  | nil : RendersOpen [] []
  | cons {id y vs l} {k : Nat} : RendersOpen vs l →
      RendersOpen (⟨id, y, (toString k).toList⟩ :: vs)
        (⟨asnAttr [.nameValue "key".toList (.int k)], id, .tuple [.name y]⟩ :: l)

/-- `, optional_fields = ..`, or nothing (types/constructed/seq.rs:74-78). -/
def optionalFieldsAttr : Option Nat → List Nested
  | none => []
  | some n => [.nameValue "optional_fields".toList (.int n)]

/-- The tokens for an item, as syn reads them. -/
inductive Renders : Item → RustItem → Prop
  | newtype {x t cs l d} : RendersType t l d → Renders (.newtype x (some t) cs) (.derived ⟨asnAttr l, x, d⟩)
  /-- types/base/charstring.rs:18-32 -/
  | unknownText {x cs st lb ub ext l} : charKindOf st = none → SizeAttrs lb ub ext l →
      Renders (.newtype x none cs) (.derived ⟨asnAttr (typeAttr st :: l), x, .tuple [.name "String".toList]⟩)
  /-- types/constructed/seq.rs:72-86 -/
  | struct {x ext n fs} : Renders (.struct x ext n fs)
      (.derived ⟨asnAttr (typeAttr "SEQUENCE".toList :: .nameValue "extensible".toList (.bool ext) ::
        optionalFieldsAttr n), x, .named (fs.map fieldSyn)⟩)
  /-- types/constructed/seqof.rs:27-47 -/
  | vec {x lb ub ext y l} : SizeAttrs lb ub ext l → Renders (.vec x lb ub ext y)
      (.derived ⟨asnAttr (typeAttr "SEQUENCE-OF".toList :: l), x, .tuple [.app "Vec".toList y]⟩)
  /-- types/constructed/choice.rs:113-134 -/
  | choice {x lb ub ext vs} : Renders (.choice x lb ub ext vs)
      (.derived ⟨asnAttr [typeAttr "CHOICE".toList, .nameValue "lb".toList (.str (showInt lb)),
        .nameValue "ub".toList (.str (showInt ub)), .nameValue "extensible".toList (.bool ext)], x,
        .enum (vs.map variantSyn)⟩)
  /-- types/int.rs:96-102 -/
  | openEnum {x vs l} : RendersOpen vs l →
      Renders (.openEnum x true vs) (.derived ⟨asnAttr [typeAttr "OPEN".toList], x, .enum l⟩)
  /-- types/int.rs:76-81 -/
  | plainEnum {x vs l} : RendersOpen vs l → Renders (.openEnum x false vs) (.derived ⟨[], x, .enum l⟩)
  /-- types/int.rs:61-63 -/
  | alias {x y} : Renders (.alias x y) (.alias x y)

end Hampi.Compiler
