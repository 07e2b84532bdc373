import Verif.Derive.Model
import Verif.Spec.Roundtrip
/-!
# Well-formed types and values of the derived universe

`Ty.Wf` says that the attributes make sense and that the value is one the type permits; `Ty.KeysOk`
that each open type holds the alternative announced by the key in force; `Ty.flow` is the syntactic
check on where open types may appear.
-/
namespace Hampi

open Spec (SizeBounds Within)

/-! ## Sizes -/

/-- The length of a list or string is one the encoder can express: within the bounds, and below 16K
when the upper bound is not below 64K. -/
def SizeOk (lb ub : Option Int) (n : Nat) : Prop :=
  SizeBounds lb ub ∧ Within lb ub n ∧ ((∃ u, ub = some u ∧ u < 65536) ∨ n < 16384)

/-- Does reading a length with these bounds start at an octet boundary? (No upper bound, an upper
bound of at least 64K, or at least 256 possible lengths.) -/
def lengthAligns (lb ub : Option Int) : Bool :=
  match ub with
  | none => true
  | some u => decide (65536 ≤ u) || decide (256 ≤ u - lb.getD 0 + 1)

/-- Is the length fixed, and above `n`? Then no length is written and the contents are aligned. -/
def fixedAbove (n : Int) (lb ub : Option Int) : Bool :=
  match lb, ub with
  | some l, some u => decide (l = u ∧ u < 65536 ∧ n < u)
  | _, _ => false

/-- Does reading a whole number with these bounds start at an octet boundary? -/
def intAligns (lb ub : Option Int) : Bool :=
  match lb, ub with
  | some l, some u => decide (256 ≤ u - l + 1 ∧ u - l + 1 ≤ 65536)
  | _, _ => true

/-! ## Indexes of optional fields and keys of variants -/

/-- The `optional_idx` attributes, in order. -/
def Fields.indexes : Fields → List Nat
  | .nil => []
  | .required _ _ rest => rest.indexes
  | .optional i _ rest => i :: rest.indexes

/-- The indexes are distinct positions of the bitmap. -/
def Fields.IndexesOk (fs : Fields) (n : Nat) : Prop := fs.indexes.Nodup ∧ ∀ i ∈ fs.indexes, i < n

/-- `v` belongs to the first variant with key `k`. -/
def Alts.Selects : (as : Alts) → (k : Int) → as.Val → Prop
  | .cons key _ _ _, k, .inl _ => k = key
  | .cons key _ _ rest, k, .inr v => k ≠ key ∧ rest.Selects k v

/-! ## Well-formed values -/

/-- The value fits the Rust integer; without a lower bound it also fits `i64` (an unconstrained
integer of 9 to 15 octets is refused by the decoder, `C04_middle_values_violated`). -/
def IntValueOk (w : Width) (lb : Option Int) (v : Int) : Prop :=
  w.Fits v ∧ (lb = none → v < 2 ^ 63)

/-- Character strings of one or two octets do not survive at a position that is not an octet
boundary (`C13_short_unaligned_violated`). -/
def TextOk (lb ub : Option Int) (v : String) : Prop :=
  SizeBounds lb ub ∧ (2 < (utf8 v).length ∨ utf8 v = [] ∨ lengthAligns lb ub = true)

mutual

/-- The attributes make sense and the value is permitted. -/
def Ty.Wf : (t : Ty) → t.Val → Prop
  | .boolean, _ => True
  | .null, _ => True
  | .integer w lb _ _, v => IntValueOk w lb v
  | .enumerated w lb _ _, v => IntValueOk w lb v
  | .bitstring lb ub _, _ => SizeBounds lb ub
  | .octetstring lb ub _, _ => SizeBounds lb ub
  | .charstring _ lb ub _, v => TextOk lb ub v
  | .objectIdentifier, _ => True
  | .sequence _ n fs, v => fs.IndexesOk n ∧ fs.Wf v
  | .sequenceOf lb ub ext e, v =>
      v ≠ [] ∧ (if ext then List.length v < 16384 else SizeOk lb ub (List.length v)) ∧
        ∀ x ∈ (show List e.Val from v), e.Wf x
  | .choice _ _ _ as, v => as.Selects (as.keyOf v) v ∧ IsI128 (as.keyOf v) ∧ as.Wf v
  | .openType as, v => as.Wf v

/-- All fields present are well-formed. -/
def Fields.Wf : (fs : Fields) → fs.Val → Prop
  | .nil, _ => True
  | .required _ t rest, v => t.Wf v.1 ∧ rest.Wf v.2
  | .optional _ t rest, v => (match v.1 with | some x => t.Wf x | none => True) ∧ rest.Wf v.2

/-- The variant's content is well-formed. -/
def Alts.Wf : (as : Alts) → as.Val → Prop
  | .cons _ _ t _, .inl v => t.Wf v
  | .cons _ _ _ rest, .inr v => rest.Wf v

end

/-! ## Keys of open types -/

/-- The key after the elements of a list. -/
def keyAfterAll {α : Type} (f : α → Option Int → Option Int) : List α → Option Int → Option Int
  | [], key => key
  | x :: xs, key => keyAfterAll f xs (f x key)

/-- A condition on each element of a list, under the key in force there. -/
def keysOkAll {α : Type} (ok : α → Option Int → Prop) (f : α → Option Int → Option Int) :
    List α → Option Int → Prop
  | [], _ => True
  | x :: xs, key => ok x key ∧ keysOkAll ok f xs (f x key)

/-- The number a key field announces: an integer itself, the index of an enumeration's root or addition, and 1 or 0
for a Boolean. Values of other types announce none. -/
def Ty.announces : (t : Ty) → t.Val → Option Int
  | .integer .., v => some v
  | .enumerated .., v => some v
  | .boolean, true => some 1
  | .boolean, false => some 0
  | _, _ => none

/-- The key after a field: the number it announces if it is a key field. -/
def keyAfterField (keyField : Bool) (t : Ty) (v : t.Val) (key : Option Int) : Option Int :=
  match keyField, t.announces v with
  | true, some k => some k
  | _, _ => key

mutual

/-- The key in force after a value: that of the last key field in it, if any. -/
def Ty.keyAfter : (t : Ty) → t.Val → Option Int → Option Int
  | .sequence _ _ fs, v, key => fs.keyAfter v key
  | .sequenceOf _ _ _ e, v, key => keyAfterAll e.keyAfter v key
  | .choice _ _ _ as, v, key => as.keyAfter v key
  | .openType as, v, key => as.keyAfter v key
  | .boolean, _, key | .null, _, key | .integer .., _, key | .enumerated .., _, key
  | .bitstring .., _, key | .octetstring .., _, key | .charstring .., _, key
  | .objectIdentifier, _, key => key

/-- Field by field. -/
def Fields.keyAfter : (fs : Fields) → fs.Val → Option Int → Option Int
  | .nil, _, key => key
  | .required k t rest, v, key => rest.keyAfter v.2 (keyAfterField k t v.1 (t.keyAfter v.1 key))
  | .optional _ t rest, v, key =>
      rest.keyAfter v.2 (match v.1 with | some x => t.keyAfter x key | none => key)

/-- In the variant at hand. -/
def Alts.keyAfter : (as : Alts) → as.Val → Option Int → Option Int
  | .cons _ _ t _, .inl v, key => t.keyAfter v key
  | .cons _ _ _ rest, .inr v, key => rest.keyAfter v key

end

mutual

/-- Each open type in the value holds the variant of the key in force where it stands. -/
def Ty.KeysOk : (t : Ty) → t.Val → Option Int → Prop
  | .sequence _ _ fs, v, key => fs.KeysOk v key
  | .sequenceOf _ _ _ e, v, key => keysOkAll e.KeysOk e.keyAfter v key
  | .choice _ _ _ as, v, key => as.KeysOk v key
  | .openType as, v, key => (∃ k, key = some k ∧ as.Selects k v) ∧ as.KeysOk v key
  | .boolean, _, _ | .null, _, _ | .integer .., _, _ | .enumerated .., _, _
  | .bitstring .., _, _ | .octetstring .., _, _ | .charstring .., _, _
  | .objectIdentifier, _, _ => True

/-- Field by field. -/
def Fields.KeysOk : (fs : Fields) → fs.Val → Option Int → Prop
  | .nil, _, _ => True
  | .required k t rest, v, key =>
      t.KeysOk v.1 key ∧ rest.KeysOk v.2 (keyAfterField k t v.1 (t.keyAfter v.1 key))
  | .optional _ t rest, v, key =>
      (match v.1 with | some x => t.KeysOk x key | none => True) ∧
        rest.KeysOk v.2 (match v.1 with | some x => t.keyAfter x key | none => key)

/-- In the variant at hand. -/
def Alts.KeysOk : (as : Alts) → as.Val → Option Int → Prop
  | .cons _ _ t _, .inl v, key => t.KeysOk v key
  | .cons _ _ _ rest, .inr v, key => rest.KeysOk v key

end

/-! ## Where open types may appear

The decoder of an open type does not skip the padding after its content. What comes next is read
correctly only if it starts at an octet boundary. `flow t b` is `none` when reading `t` may go wrong;
`b` tells whether there may be unread padding before `t`, the result whether there may be some
after. -/

/-- A field that is read from the current position. -/
def flowLeaf (aligns b : Bool) : Option Bool := if b && !aligns then none else some false

/-- Repeated elements, at least one. -/
def flowMany (f : Bool → Option Bool) (b : Bool) : Option Bool :=
  match f b with
  | none => none
  | some c => if b || !c then some c else (f true).map fun _ => true

/-- One of two possibilities. -/
def flowJoin (a b : Option Bool) : Option Bool :=
  match a, b with
  | some x, some y => some (x || y)
  | _, _ => none

mutual

/-- The check. -/
def Ty.flow : Ty → Bool → Option Bool
  | .boolean, b => flowLeaf false b
  | .null, b => some b
  | .integer _ lb ub ext, b => flowLeaf (!ext && intAligns lb ub) b
  | .enumerated _ lb ub ext, b => flowLeaf (!ext && intAligns lb ub) b
  | .bitstring lb ub ext, b => flowLeaf (!ext && (lengthAligns lb ub || fixedAbove 16 lb ub)) b
  | .octetstring lb ub ext, b => flowLeaf (!ext && (lengthAligns lb ub || fixedAbove 2 lb ub)) b
  | .charstring _ lb ub ext, b => flowLeaf (!ext && (lengthAligns lb ub || fixedAbove 2 lb ub)) b
  | .objectIdentifier, _ => some false
  | .sequence ext n fs, b => if (ext || decide (0 < n)) && b then none else fs.flow b
  | .sequenceOf lb ub ext e, b =>
      match flowLeaf (!ext && lengthAligns lb ub) b with
      | none => none
      | some c => flowMany e.flow c
  | .choice lb ub ext as, b =>
      match flowLeaf (!ext && intAligns (some lb) (some ub)) b with
      | none => none
      | some c => as.flow c
  | .openType as, _ =>
      match as.flow false with
      | none => none
      | some _ => some true

/-- Field by field; an optional field may be absent. -/
def Fields.flow : Fields → Bool → Option Bool
  | .nil, b => some b
  | .required _ t rest, b =>
      match t.flow b with
      | none => none
      | some c => rest.flow c
  | .optional _ t rest, b =>
      match t.flow b with
      | none => none
      | some c => rest.flow (b || c)

/-- Any of the variants. -/
def Alts.flow : Alts → Bool → Option Bool
  | .nil, _ => some false
  | .cons _ _ t rest, b => flowJoin (t.flow b) (rest.flow b)

end

/-- The syntactic check of the round-trip theorem: every open type is followed by something that
starts at an octet boundary. -/
def Ty.Framed (t : Ty) : Prop := t.flow false ≠ none

/-- The type does not end in an open type. -/
def Ty.Closed (t : Ty) : Prop := t.flow false = some false

instance (t : Ty) : Decidable t.Framed := inferInstanceAs (Decidable (_ ≠ _))
instance (t : Ty) : Decidable t.Closed := inferInstanceAs (Decidable (_ = _))

/-! ## Values the encoder accepts -/

/-- An integer the encoder accepts under these bounds: within them, and not in one of the cases the
code refuses or panics on (the lower bound of a range above 64K, `C02_lower_bound_refused_violated`;
a range of 2^127 values and more). Without a lower bound the upper bound is not looked at. -/
def IntPermitted (lb ub : Option Int) (v : Int) : Prop :=
  match lb, ub with
  | some l, some u => l ≤ v ∧ v ≤ u ∧ u - l + 1 < 2 ^ 127 ∧ (u - l + 1 ≤ 65536 ∨ v ≠ l)
  | some l, none => l ≤ v ∧ v - l < 2 ^ 127
  | none, _ => IsI128 v

mutual

/-- The value satisfies every constraint of the type, within the limits of the encoder (strings and
open types below 16K units, no object identifiers, no extension alternatives, no empty open type). -/
def Ty.Permitted : (t : Ty) → t.Val → Prop
  | .boolean, _ => True
  | .null, _ => True
  | .integer _ lb ub _, v => IntPermitted lb ub v
  | .enumerated _ lb ub _, v => IntPermitted lb ub v
  | .bitstring lb ub _, v => SizeBounds lb ub ∧ Within lb ub (List.length v) ∧ List.length v < 16384
  | .octetstring lb ub _, v => SizeBounds lb ub ∧ Within lb ub (List.length v) ∧ List.length v < 16384
  | .charstring _ lb ub _, v => SizeOk lb ub (utf8 v).length
  | .objectIdentifier, _ => False
  | .sequence _ n fs, v => (∀ i ∈ fs.indexes, i < n) ∧ fs.Permitted v
  | .sequenceOf lb ub ext e, v =>
      (if ext then v ≠ [] ∧ List.length v < 16384 else SizeOk lb ub (List.length v)) ∧
        ∀ x ∈ (show List e.Val from v), e.Permitted x
  | .choice lb ub _ as, v =>
      lb ≤ as.keyOf v ∧ as.keyOf v ≤ ub ∧ ub - lb < 65536 ∧ as.extendedOf v = false ∧ as.Permitted v
  | .openType as, v => as.Permitted v ∧ ∀ s', as.encode v Codec.new = .ok () s' →
      0 < s'.bits.length ∧ s'.bits.length ≤ 8 * 16383

/-- All fields present are permitted. -/
def Fields.Permitted : (fs : Fields) → fs.Val → Prop
  | .nil, _ => True
  | .required _ t rest, v => t.Permitted v.1 ∧ rest.Permitted v.2
  | .optional _ t rest, v =>
      (match v.1 with | some x => t.Permitted x | none => True) ∧ rest.Permitted v.2

/-- The variant's content is permitted. -/
def Alts.Permitted : (as : Alts) → as.Val → Prop
  | .cons _ _ t _, .inl v => t.Permitted v
  | .cons _ _ _ rest, .inr v => rest.Permitted v

end

/-! ## Reading a value -/

/-- For each optional field: its index, and whether it is present. -/
def Fields.presence : (fs : Fields) → fs.Val → List (Nat × Bool)
  | .nil, _ => []
  | .required _ _ rest, v => rest.presence v.2
  | .optional i _ rest, v => (i, v.1.isSome) :: rest.presence v.2

/-- The keys of the variants, in order. -/
def Alts.keys : Alts → List Int
  | .nil => []
  | .cons k _ _ rest => k :: rest.keys

/-! ## Streams of messages -/

/-- A value with its type. -/
abbrev Message := (t : Ty) × t.Val

/-- Encode the messages one after the other, padding each to octets. -/
def encodeMessages : List Message → M Unit
  | [] => pure ()
  | m :: ms => m.1.encode m.2 >>= fun _ => align >>= fun _ => encodeMessages ms

/-- Decode messages of the given types one after the other, skipping the padding after each. -/
def decodeMessages : List Ty → M (List Message)
  | [] => pure []
  | t :: ts => t.decode >>= fun v => decodeAlign >>= fun _ => decodeMessages ts >>= fun ms =>
      pure (⟨t, v⟩ :: ms)

end Hampi
