import Verif.Compiler.Rust
import Verif.Spec.Derived
/-!
# What a Rust file with derived codecs means

`Codes file x t`: in the Rust file, the derive macro gives the type called `x` the codec that `t` describes.
The macro must accept the type; the calls it emits must be complete; and the data must have the Rust type that
the codec works on. `NamesFit file` is what rustc demands of the names in the file. Not considered is what else
rustc may object to in the emitted code, for example that a key field has no number in it.
-/
namespace Hampi.Compiler.Spec
open Hampi.Derive

/-- The integer type of this width. -/
def intType : Width → RustTy
  | .i8 => .name "i8".toList
  | .i16 => .name "i16".toList
  | .i32 => .name "i32".toList
  | .i64 => .name "i64".toList
  | .u8 => .name "u8".toList
  | .u16 => .name "u16".toList
  | .u32 => .name "u32".toList
  | .u64 => .name "u64".toList

/-- `BitVec<u8, Msb0>`: the bits of an octet from the most significant one. -/
def bitsType : RustTy := .path false "BitVec".toList [.name "u8".toList, .name "Msb0".toList] false

mutual

/-- The codec of the type called `x`. -/
inductive Codes (file : List RustItem) : Text → Ty → Prop
  | alias {x y t} : RustItem.alias x y ∈ file → Codes file y t → Codes file x t
  | boolean {i} : .derived i ∈ file → i.data = .tuple [.name "bool".toList] → derive i = .ok .boolean →
      Codes file i.ident .boolean
  | null {i} : .derived i ∈ file → i.data = .unit → derive i = .ok .null → Codes file i.ident .null
  | objectIdentifier {i} : .derived i ∈ file → i.data = .unit → derive i = .ok .objectIdentifier →
      Codes file i.ident .objectIdentifier
  | integer {i w lb ub ext} : .derived i ∈ file → i.data = .tuple [intType w] →
      derive i = .ok (.integer (intType w) lb ub ext) → Codes file i.ident (.integer w lb ub ext)
  | enumerated {i w lb ub ext} : .derived i ∈ file → i.data = .tuple [intType w] →
      derive i = .ok (.enumerated (intType w) lb ub ext) → Codes file i.ident (.enumerated w lb ub ext)
  | bitstring {i lb ub ext} : .derived i ∈ file → i.data = .tuple [bitsType] →
      derive i = .ok (.bitstring lb ub ext) → Codes file i.ident (.bitstring lb ub ext)
  | octetstring {i lb ub ext} : .derived i ∈ file → i.data = .tuple [.app "Vec".toList "u8".toList] →
      derive i = .ok (.octetstring lb ub ext) → Codes file i.ident (.octetstring lb ub ext)
  | charstring {i k lb ub ext} : .derived i ∈ file → i.data = .tuple [.name "String".toList] →
      derive i = .ok (.charstring k lb ub ext) → Codes file i.ident (.charstring k lb ub ext)
  | sequence {i ext n l fs ts} : .derived i ∈ file → i.data = .named l →
      derive i = .ok (.sequence (some ext) n fs) → CodesFields file l fs ts →
      Codes file i.ident (.sequence ext n ts)
  | sequenceOf {i lb ub ext y t} : .derived i ∈ file → i.data = .tuple [.app "Vec".toList y] →
      derive i = .ok (.sequenceOf lb ub ext (some y)) → Codes file y t → Codes file i.ident (.sequenceOf lb ub ext t)
  | choice {i lb ub ext l vs as} : .derived i ∈ file → i.data = .enum l →
      derive i = .ok (.choice lb ub (some ext) vs) → CodesAlts file l vs as →
      Codes file i.ident (.choice lb ub ext as)
  | openType {i l vs as} : .derived i ∈ file → i.data = .enum l → derive i = .ok (.openType vs) →
      CodesOpen file l vs as → Codes file i.ident (.openType as)

/-- Field by field: what is encoded and decoded, and the Rust type of the field. -/
inductive CodesFields (file : List RustItem) : List FieldSyn → List FieldImpl → Fields → Prop
  | nil : CodesFields file [] [] .nil
  | required {attrs x y key l fs t ts} : Codes file y t → CodesFields file l fs ts →
      CodesFields file (⟨attrs, x, .name y⟩ :: l) (.required x y key :: fs) (.required key t ts)
  | optional {attrs x y i l fs t ts} : Codes file y t → CodesFields file l fs ts →
      CodesFields file (⟨attrs, x, .app "Option".toList y⟩ :: l) (.optional x y i :: fs) (.optional i t ts)

/-- Variant by variant: `match self` must name them all. -/
inductive CodesAlts (file : List RustItem) : List VariantSyn → List VariantImpl → Alts → Prop
  | nil : CodesAlts file [] [] .nil
  | cons {attrs x y l k ext vs t as} : Codes file y t → CodesAlts file l vs as →
      CodesAlts file (⟨attrs, x, .tuple [.name y]⟩ :: l) (⟨x, .name y, k, some ext⟩ :: vs) (.cons k ext t as)

/-- In an open type there are no additions. -/
inductive CodesOpen (file : List RustItem) : List VariantSyn → List VariantImpl → Alts → Prop
  | nil : CodesOpen file [] [] .nil
  | cons {attrs x y l k ext vs t as} : Codes file y t → CodesOpen file l vs as →
      CodesOpen file (⟨attrs, x, .tuple [.name y]⟩ :: l) (⟨x, .name y, k, ext⟩ :: vs) (.cons k false t as)

end

/-- The names from outside that the file and the emitted code use without a path. -/
def usedNames : List String :=
  ["Option", "Some", "None", "Result", "Ok", "Err", "Vec", "String", "BitVec", "Msb0", "AperCodec"]

/-- What rustc demands of the names: no two items define the same name, none takes a name that is used for
something else, the fields and the variants of an item have different names, and no optional field is called as
the buffer is in the emitted code: `let data = self.data.as_ref().unwrap(); data.encode(data)?;`. -/
structure NamesFit (file : List RustItem) : Prop where
  items : (file.map RustItem.ident).Nodup
  used : ∀ r ∈ file, ∀ s ∈ usedNames, r.ident ≠ s.toList
  fields : ∀ i l, .derived i ∈ file → i.data = .named l → (l.map FieldSyn.ident).Nodup
  variants : ∀ i l, .derived i ∈ file → i.data = .enum l → (l.map VariantSyn.ident).Nodup
  buffer : ∀ i l, .derived i ∈ file → i.data = .named l → ∀ f ∈ l, ∀ y, f.ty = .app "Option".toList y →
    f.ident ≠ "data".toList

/-- The bound is a number of the Rust type `i128`. -/
def Bound128 : Option Int → Prop
  | none => True
  | some v => fits128 v

mutual

/-- Every bound is a number of the Rust type `i128`. -/
def Bounds128 : Ty → Prop
  | .integer _ lb ub _ | .enumerated _ lb ub _ | .bitstring lb ub _ | .octetstring lb ub _ | .charstring _ lb ub _ =>
      Bound128 lb ∧ Bound128 ub
  | .sequence _ _ fs => FieldBounds128 fs
  | .sequenceOf lb ub _ t => Bound128 lb ∧ Bound128 ub ∧ Bounds128 t
  | .choice lb ub _ as => fits128 lb ∧ fits128 ub ∧ AltBounds128 as
  | .openType as => AltBounds128 as
  | .boolean | .null | .objectIdentifier => True

/-- In all fields. -/
def FieldBounds128 : Fields → Prop
  | .nil => True
  | .required _ t fs | .optional _ t fs => Bounds128 t ∧ FieldBounds128 fs

/-- In all alternatives. -/
def AltBounds128 : Alts → Prop
  | .nil => True
  | .cons _ _ t as => Bounds128 t ∧ AltBounds128 as

end

/-- The entries that may stand in `#[asn(..)]` in front of an item. -/
inductive ItemEntry : Nested → Prop
  | type (s : Text) : ItemEntry (.nameValue "type".toList (.str s))
  | lb (s : Text) : ItemEntry (.nameValue "lb".toList (.str s))
  | ub (s : Text) : ItemEntry (.nameValue "ub".toList (.str s))
  | szLb (s : Text) : ItemEntry (.nameValue "sz_lb".toList (.str s))
  | szUb (s : Text) : ItemEntry (.nameValue "sz_ub".toList (.str s))
  | extensible (b : Bool) : ItemEntry (.nameValue "extensible".toList (.bool b))
  | szExtensible (b : Bool) : ItemEntry (.nameValue "sz_extensible".toList (.bool b))
  | optionalFields (n : Nat) : ItemEntry (.nameValue "optional_fields".toList (.int n))

/-- The entries that may stand in `#[asn(..)]` in front of a field or a variant. -/
inductive MemberEntry : Nested → Prop
  | key (n : Nat) : MemberEntry (.nameValue "key".toList (.int n))
  | extended (b : Bool) : MemberEntry (.nameValue "extended".toList (.bool b))
  | optionalIdx (n : Nat) : MemberEntry (.nameValue "optional_idx".toList (.int n))
  | keyField (b : Bool) : MemberEntry (.nameValue "key_field".toList (.bool b))

/-- Every attribute is `#[asn(..)]` with entries of this sort. -/
def OnlyEntries (P : Nested → Prop) (attrs : List Attr) : Prop :=
  ∀ a ∈ attrs, a.path = "asn".toList ∧ ∃ l, a.body = .list l ∧ ∀ e ∈ l, P e

/-- The entry stands in one of the attributes. -/
def HasEntry (e : Nested) (attrs : List Attr) : Prop := ∃ a ∈ attrs, ∃ l, a.body = .list l ∧ e ∈ l

/-- The types for which there is a codec. -/
def codecTypes : List String :=
  ["BOOLEAN", "CHOICE", "INTEGER", "ENUMERATED", "BITSTRING", "OCTET-STRING", "UTF8String", "PrintableString",
   "VisibleString", "NULL", "SEQUENCE", "OPEN", "SEQUENCE-OF", "OBJECT-IDENTIFIER"]

end Hampi.Compiler.Spec
