import Verif.Spec.Rust
import Verif.Spec.Constraints
import Verif.Lemmas.Resolve
/-!
# What the derive macro makes of an item

`Emits i impl`: from the Rust item `i`, written by hand or generated, the macro makes the implementation `impl`.
Of entries with the same name the last counts (`Last`).
-/
namespace Hampi.Compiler.Spec
open Hampi.Derive
open _root_.Hampi.Spec (Numeral)

/-- All entries in the attributes, in their order. -/
def entries : List Attr → List Nested
  | [] => []
  | a :: as => (match a.body with | .list l => l | _ => []) ++ entries as

/-- `name = lit` stands in the attributes, and no `name = ..` after it. -/
def Last (attrs : List Attr) (name : String) (lit : Lit) : Prop :=
  ∃ before after, entries attrs = before ++ .nameValue name.toList lit :: after ∧
    ∀ l, .nameValue name.toList l ∉ after

/-- The text given to `name`, if any. -/
def SaysText (attrs : List Attr) (name : String) (o : Option Text) : Prop :=
  ∀ s, o = some s ↔ Last attrs name (.str s)

/-- The number given to `name`, if any. -/
def SaysNumber (attrs : List Attr) (name : String) (o : Option Nat) : Prop :=
  ∀ n, o = some n ↔ Last attrs name (.int n)

/-- `true` or `false`, as given to `name`, if any. -/
def SaysFlag (attrs : List Attr) (name : String) (o : Option Bool) : Prop :=
  ∀ b, o = some b ↔ Last attrs name (.bool b)

/-- The bound given to `name` as a numeral in quotes. -/
def SaysBound (attrs : List Attr) (name : String) (v : Int) : Prop :=
  ∃ s, Last attrs name (.str s) ∧ Numeral s v ∧ fits128 v

/-- The same, if there is any. -/
def SaysMaybeBound (attrs : List Attr) (name : String) : Option Int → Prop
  | some v => SaysBound attrs name v
  | none => ∀ s, ¬ Last attrs name (.str s)

/-- What is given to `name`, `false` if nothing is. -/
def SaysOrFalse (attrs : List Attr) (name : String) (b : Bool) : Prop :=
  ∃ o, SaysFlag attrs name o ∧ b = o.getD false

/-- A field of a struct. A type is an `Option` if it is spelt just so; then it needs its index. -/
inductive EmitsField (f : FieldSyn) : FieldImpl → Prop
  | optional {y y' args more rest k} : OnlyEntries MemberEntry f.attrs →
      f.ty = .path false "Option".toList (.path y' y args more :: rest) false →
      Last f.attrs "optional_idx" (.int k) → EmitsField f (.optional f.ident y k)
  | required {c x args more key} : OnlyEntries MemberEntry f.attrs → f.ty = .path c x args more →
      ¬ (c = false ∧ x = "Option".toList ∧ more = false) → SaysOrFalse f.attrs "key_field" key →
      EmitsField f (.required f.ident x key)

/-- A variant of an enum, if it takes part: it needs a key, and one that is no tuple is passed over. -/
inductive EmitsVariant (v : VariantSyn) : Option VariantImpl → Prop
  | tuple {ty k e} : OnlyEntries MemberEntry v.attrs → Last v.attrs "key" (.int k) → v.fields = .tuple [ty] →
      SaysFlag v.attrs "extended" e → EmitsVariant v (some ⟨v.ident, ty, k, e⟩)
  | passed {k} : OnlyEntries MemberEntry v.attrs → Last v.attrs "key" (.int k) →
      (∀ tys, v.fields ≠ .tuple tys) → EmitsVariant v none

/-- The fields: none of anything that is no struct with named fields. -/
inductive EmitsFields : Data → List FieldImpl → Prop
  | named {l fs} : All2 EmitsField l fs → EmitsFields (.named l) fs
  | others {d} : (∀ l, d ≠ .named l) → EmitsFields d []

/-- The variants: none of anything that is no enum. -/
inductive EmitsVariants : Data → List VariantImpl → Prop
  | enum {l vs} : All2 EmitsVariant l vs → EmitsVariants (.enum l) (vs.filterMap id)
  | others {d} : (∀ l, d ≠ .enum l) → EmitsVariants d []

/-- The character string types. -/
inductive CharType : String → CharKind → Prop
  | utf8 : CharType "UTF8String" .utf8
  | printable : CharType "PrintableString" .printable
  | visible : CharType "VisibleString" .visible

/-- The identifier in the angle brackets of `Vec<..>`. -/
inductive Element : RustTy → Option Text → Prop
  | one {c v c' y args more rest m} : Element (.path c v (.path c' y args more :: rest) m) (some y)
  | none {ty} : (∀ c v c' y args more rest m, ty ≠ .path c v (.path c' y args more :: rest) m) → Element ty none

/-- What is made of the data `d` for the type `s`. -/
inductive EmitsBody (attrs : List Attr) (d : Data) : String → Impl → Prop
  | boolean : EmitsBody attrs d "BOOLEAN" .boolean
  | null : EmitsBody attrs d "NULL" .null
  | objectIdentifier : EmitsBody attrs d "OBJECT-IDENTIFIER" .objectIdentifier
  | integer {ty lb ub ext} : d = .tuple [ty] → SaysMaybeBound attrs "lb" lb → SaysMaybeBound attrs "ub" ub →
      SaysOrFalse attrs "extensible" ext → EmitsBody attrs d "INTEGER" (.integer ty lb ub ext)
  | enumerated {ty lb ub ext} : d = .tuple [ty] → SaysMaybeBound attrs "lb" lb → SaysMaybeBound attrs "ub" ub →
      SaysOrFalse attrs "extensible" ext → EmitsBody attrs d "ENUMERATED" (.enumerated ty lb ub ext)
  | bits {ty lb ub ext} : d = .tuple [ty] → SaysMaybeBound attrs "sz_lb" lb → SaysMaybeBound attrs "sz_ub" ub →
      SaysOrFalse attrs "sz_extensible" ext → EmitsBody attrs d "BITSTRING" (.bitstring lb ub ext)
  | octets {ty lb ub ext} : d = .tuple [ty] → SaysMaybeBound attrs "sz_lb" lb → SaysMaybeBound attrs "sz_ub" ub →
      SaysOrFalse attrs "sz_extensible" ext → EmitsBody attrs d "OCTET-STRING" (.octetstring lb ub ext)
  | chars {s k ty lb ub ext} : CharType s k → d = .tuple [ty] → SaysMaybeBound attrs "sz_lb" lb →
      SaysMaybeBound attrs "sz_ub" ub → SaysOrFalse attrs "sz_extensible" ext →
      EmitsBody attrs d s (.charstring k lb ub ext)
  | sequenceOf {ty y lb ub ext} : d = .tuple [ty] → Element ty y → SaysMaybeBound attrs "sz_lb" lb →
      SaysMaybeBound attrs "sz_ub" ub → SaysOrFalse attrs "sz_extensible" ext →
      EmitsBody attrs d "SEQUENCE-OF" (.sequenceOf lb ub ext y)
  | choice {lb ub ext vs} : SaysBound attrs "lb" lb → SaysBound attrs "ub" ub → SaysFlag attrs "extensible" ext →
      EmitsVariants d vs → EmitsBody attrs d "CHOICE" (.choice lb ub ext vs)
  | openType {vs} : EmitsVariants d vs → EmitsBody attrs d "OPEN" (.openType vs)
  | sequence {ext o fs} : SaysFlag attrs "extensible" ext → SaysNumber attrs "optional_fields" o →
      EmitsFields d fs → EmitsBody attrs d "SEQUENCE" (.sequence ext (o.getD 0) fs)

/-- What the macro makes of the item. -/
def Emits (i : Input) (impl : Impl) : Prop :=
  OnlyEntries ItemEntry i.attrs ∧ ∃ s : String, Last i.attrs "type" (.str s.toList) ∧ EmitsBody i.attrs i.data s impl

/-- The bound given to `name`, if any, is a numeral that fits. -/
def BoundFine (attrs : List Attr) (name : String) : Prop := ∃ b, SaysMaybeBound attrs name b

/-- When the macro panics: a bound that is no numeral or too great, or a CHOICE that lacks one. -/
def MacroPanics (i : Input) : Prop :=
  OnlyEntries ItemEntry i.attrs ∧ ∃ s : String, Last i.attrs "type" (.str s.toList) ∧
    ((s ∈ ["INTEGER", "ENUMERATED"] ∧ (∃ ty, i.data = .tuple [ty]) ∧
        ¬ (BoundFine i.attrs "lb" ∧ BoundFine i.attrs "ub")) ∨
      (s ∈ ["BITSTRING", "OCTET-STRING", "UTF8String", "PrintableString", "VisibleString", "SEQUENCE-OF"] ∧
        (∃ ty, i.data = .tuple [ty]) ∧ ¬ (BoundFine i.attrs "sz_lb" ∧ BoundFine i.attrs "sz_ub")) ∨
      (s = "CHOICE" ∧ ¬ ((∃ v, SaysBound i.attrs "lb" v) ∧ ∃ v, SaysBound i.attrs "ub" v)))

end Hampi.Compiler.Spec
