import Verif.Spec.Derived
/-!
# Padding left unread, value by value

`Ty.flow` (`Verif/Spec/Derived.lean`) checks a type for every value at once. `Ty.track` follows one
value: which optional fields are there, which alternative is chosen, how many elements a list has, and
whether the content of an open type ends inside an octet. `Ty.WholeOctets` says that no content does.
-/
namespace Hampi

/-- The content of an open type, encoded on its own, ends inside an octet: the encoder fills the octet
with padding that the decoder does not read. -/
def endsInside (payload : M Unit) : Bool :=
  match payload Codec.new with
  | .ok _ s => decide (s.bits.length % 8 ≠ 0)
  | _ => false

/-- The elements of a list, one after the other. -/
def trackAll {α : Type} (f : α → Bool → Option Bool) : List α → Bool → Option Bool
  | [], b => some b
  | x :: xs, b =>
    match f x b with
    | none => none
    | some c => trackAll f xs c

mutual

/-- `none` when reading the value may go wrong because of unread padding; `b` tells whether there may
be some before the value, the result whether there may be some after. -/
def Ty.track : (t : Ty) → t.Val → Bool → Option Bool
  | .boolean, _, b => flowLeaf false b
  | .null, _, b => some b
  | .integer _ lb ub ext, _, b => flowLeaf (!ext && intAligns lb ub) b
  | .enumerated _ lb ub ext, _, b => flowLeaf (!ext && intAligns lb ub) b
  | .bitstring lb ub ext, _, b => flowLeaf (!ext && (lengthAligns lb ub || fixedAbove 16 lb ub)) b
  | .octetstring lb ub ext, _, b => flowLeaf (!ext && (lengthAligns lb ub || fixedAbove 2 lb ub)) b
  | .charstring _ lb ub ext, _, b => flowLeaf (!ext && (lengthAligns lb ub || fixedAbove 2 lb ub)) b
  | .objectIdentifier, _, _ => some false
  | .sequence ext n fs, v, b => if (ext || decide (0 < n)) && b then none else fs.track v b
  | .sequenceOf lb ub ext e, v, b =>
      match flowLeaf (!ext && lengthAligns lb ub) b with
      | none => none
      | some c => trackAll e.track v c
  | .choice lb ub ext as, v, b =>
      match flowLeaf (!ext && intAligns (some lb) (some ub)) b with
      | none => none
      | some c => as.track v c
  | .openType as, v, _ =>
      match as.track v false with
      | none => none
      | some c => some (c || endsInside (as.encode v))

/-- Field by field; an absent field reads nothing. -/
def Fields.track : (fs : Fields) → fs.Val → Bool → Option Bool
  | .nil, _, b => some b
  | .required _ t rest, v, b =>
      match t.track v.1 b with
      | none => none
      | some c => rest.track v.2 c
  | .optional _ t rest, (some x, vs), b =>
      match t.track x b with
      | none => none
      | some c => rest.track vs c
  | .optional _ _ rest, (none, vs), b => rest.track vs b

/-- The variant at hand. -/
def Alts.track : (as : Alts) → as.Val → Bool → Option Bool
  | .cons _ _ t _, .inl v, b => t.track v b
  | .cons _ _ _ rest, .inr v, b => rest.track v b

end

mutual

/-- Every open type in the value holds content of a whole number of octets. -/
def Ty.WholeOctets : (t : Ty) → t.Val → Prop
  | .sequence _ _ fs, v => fs.WholeOctets v
  | .sequenceOf _ _ _ e, v => ∀ x ∈ (show List e.Val from v), e.WholeOctets x
  | .choice _ _ _ as, v => as.WholeOctets v
  | .openType as, v => as.WholeOctets v ∧
      ∀ s, as.encode v Codec.new = .ok () s → s.bits.length % 8 = 0
  | .boolean, _ | .null, _ | .integer .., _ | .enumerated .., _ | .bitstring .., _
  | .octetstring .., _ | .charstring .., _ | .objectIdentifier, _ => True

/-- In every field that is there. -/
def Fields.WholeOctets : (fs : Fields) → fs.Val → Prop
  | .nil, _ => True
  | .required _ t rest, v => t.WholeOctets v.1 ∧ rest.WholeOctets v.2
  | .optional _ t rest, v =>
      (match v.1 with | some x => t.WholeOctets x | none => True) ∧ rest.WholeOctets v.2

/-- In the variant at hand. -/
def Alts.WholeOctets : (as : Alts) → as.Val → Prop
  | .cons _ _ t _, .inl v => t.WholeOctets v
  | .cons _ _ _ rest, .inr v => rest.WholeOctets v

end

end Hampi
