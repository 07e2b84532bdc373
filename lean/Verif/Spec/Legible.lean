import Verif.Spec.Wire
import Verif.Spec.Padding
import Verif.Spec.Sender
/-!
# Which prescribed encodings the decoders read

`t.Layout v p w` (`Verif/Spec/Wire.lean`) is what X.691 prescribes for the value `v`. `t.Legible v`
excludes the values whose prescribed bits the decoders of the code are known to misread; `t.course v`
follows the padding after open types, which they leave unread. Neither looks at the encoder.
-/
namespace Hampi

open Spec

/-- The octets of a whole message (X.691 10.1): the bits, then zero bits up to a multiple of eight. -/
def Spec.MessageOctets (w : List Bool) (octets : List UInt8) : Prop :=
  octetBits octets = w ++ alignment w.length

/-- The value fits the generated Rust type and obeys its bounds. Excluded: ranges of 2^32, 2^64 and of
2^127 values and more; without a lower bound, values of 2^63 and more. -/
def IntLegible (w : Width) (lb ub : Option Int) (v : Int) : Prop :=
  w.Fits v ∧
    match lb, ub with
    | some l, some u =>
        l ≤ v ∧ v ≤ u ∧ u - l + 1 < 2 ^ 127 ∧ u - l + 1 ≠ 2 ^ 32 ∧ u - l + 1 ≠ 2 ^ 64
    | some l, none => l ≤ v ∧ v - l < 2 ^ 127
    | none, _ => v < 2 ^ 63

mutual

/-- The value contains none of the excluded cases: numbers as above; strings of 16K units and more, and
short strings of variable size as in `StringRegular`; characters of one or two octets inside an octet;
object identifiers; lists that are empty or extensible; choices between more than 64K alternatives;
open types with a content of more than 16383 octets. -/
def Ty.Legible : (t : Ty) → t.Val → Prop
  | .boolean, _ | .null, _ => True
  | .integer w lb ub _, v => IntLegible w lb ub v
  | .enumerated w lb ub _, v => IntLegible w lb ub v
  | .bitstring lb ub _, v => StringRegular 16 lb ub (List.length v) ∧ Within lb ub (List.length v) ∧
      List.length v < 16384
  | .octetstring lb ub _, v => StringRegular 2 lb ub (List.length v) ∧ Within lb ub (List.length v) ∧
      List.length v < 16384
  | .charstring k lb ub ext, v => CharRegular k lb ub ext (utf8 v).length ∧ TextOk lb ub v ∧
      SizeOk lb ub (utf8 v).length
  | .objectIdentifier, _ => False
  | .sequence _ n fs, v => fs.indexes = List.range n ∧ fs.Legible v
  | .sequenceOf lb ub ext e, v => ext = false ∧ v ≠ [] ∧ SizeOk lb ub (List.length v) ∧
      ∀ x ∈ (show List e.Val from v), e.Legible x
  | .choice lb ub _ as, v => as.Selects (as.keyOf v) v ∧ IsI128 (as.keyOf v) ∧ lb ≤ as.keyOf v ∧
      as.keyOf v ≤ ub ∧ ub - lb < 65536 ∧ as.Legible v
  | .openType as, v => as.Legible v ∧
      ∀ content, as.Layout v 0 content → content.length ≤ 8 * 16383

/-- All fields present are legible. -/
def Fields.Legible : (fs : Fields) → fs.Val → Prop
  | .nil, _ => True
  | .required _ t rest, v => t.Legible v.1 ∧ rest.Legible v.2
  | .optional _ t rest, v => (match v.1 with | some x => t.Legible x | none => True) ∧ rest.Legible v.2

/-- The alternative's content is legible. -/
def Alts.Legible : (as : Alts) → as.Val → Prop
  | .cons _ _ t _, .inl v => t.Legible v
  | .cons _ _ _ rest, .inr v => rest.Legible v

end

/-- Where the decoder stands: exactly where it should, before padding that it has not read, or before an octet that it
has not read, so that whatever is read next is misread. -/
inductive Gap
  | exact
  | padded
  | lost
  deriving DecidableEq

/-- Something is read from the current position; `aligns` tells whether that begins at an octet boundary. -/
def Gap.leaf (aligns : Bool) : Gap → Option Gap
  | .exact => some .exact
  | .padded => if aligns then some .exact else none
  | .lost => none

/-- The elements of a list, one after the other. -/
def courseAll {α : Type} (f : α → Gap → Option Gap) : List α → Gap → Option Gap
  | [], g => some g
  | x :: xs, g => (f x g).bind (courseAll f xs)

/-- The type of the variant at hand takes at least one bit. -/
def Alts.takesBits : (as : Alts) → as.Val → Bool
  | .cons _ _ t _, .inl _ => t.writes
  | .cons _ _ _ rest, .inr v => rest.takesBits v

mutual

/-- `none` when reading the value may go wrong because something before it was left unread; otherwise where the decoder
stands after it. After an open type it stands before padding, and if the content may take no bits before the octet that
stands for it. -/
def Ty.course : (t : Ty) → t.Val → Gap → Option Gap
  | .boolean, _, g => g.leaf false
  | .null, _, g => some g
  | .integer _ lb ub ext, _, g => g.leaf (!ext && intAligns lb ub)
  | .enumerated _ lb ub ext, _, g => g.leaf (!ext && intAligns lb ub)
  | .bitstring lb ub ext, _, g => g.leaf (!ext && (lengthAligns lb ub || fixedAbove 16 lb ub))
  | .octetstring lb ub ext, _, g => g.leaf (!ext && (lengthAligns lb ub || fixedAbove 2 lb ub))
  | .charstring _ lb ub ext, _, g => g.leaf (!ext && (lengthAligns lb ub || fixedAbove 2 lb ub))
  | .objectIdentifier, _, g => g.leaf true
  | .sequence ext n fs, v, g => (if ext || decide (0 < n) then g.leaf false else some g).bind (fs.course v)
  | .sequenceOf lb ub ext e, v, g => (g.leaf (!ext && lengthAligns lb ub)).bind (courseAll e.course v)
  | .choice lb ub ext as, v, g => (g.leaf (!ext && intAligns (some lb) (some ub))).bind (as.course v)
  | .openType as, v, g => ((g.leaf true).bind (as.course v)).map fun h =>
      if h = .lost ∨ as.takesBits v = false then .lost else .padded

/-- Field by field; an absent field reads nothing. -/
def Fields.course : (fs : Fields) → fs.Val → Gap → Option Gap
  | .nil, _, g => some g
  | .required _ t rest, v, g => (t.course v.1 g).bind (rest.course v.2)
  | .optional _ t rest, (some x, vs), g => (t.course x g).bind (rest.course vs)
  | .optional _ _ rest, (none, vs), g => rest.course vs g

/-- The variant at hand. -/
def Alts.course : (as : Alts) → as.Val → Gap → Option Gap
  | .cons _ _ t _, .inl v, g => t.course v g
  | .cons _ _ _ rest, .inr v, g => rest.course v g

end

end Hampi
