import Verif.Spec.X691
import Verif.Spec.Derived
/-!
# What X.691 (aligned PER) prescribes for a whole value

`t.Layout v p w`: at bit position `p` the value `v` of the type `t` is written as `w`. Only values
without extension additions are covered. `t.Regular v` excludes the cases in which the code is known to
write something else (each has its own `_violated` theorem).
-/
namespace Hampi

open Spec

/-- The extension bit of a value within the root (X.691 13.1, 16.6, 19.1, 23.5). -/
def extRoot (ext : Bool) : List Bool := if ext then [false] else []

/-- X.691 13: INTEGER (and, with the bounds of the enumeration index, 14: ENUMERATED). -/
def IntLayout (lb ub : Option Int) (ext : Bool) (v : Int) (p : Nat) (w : List Bool) : Prop :=
  let q := p + (extRoot ext).length
  ∃ x, w = extRoot ext ++ x ∧
    match lb, ub with
    | some l, some u => ConstrainedWord q (u - l + 1).toNat (v - l).toNat x
    | some l, none => ∃ k, IsOctets (v - l).toNat k ∧ x = semiConstrained q k (v - l).toNat
    | none, _ => ∃ k, IsTwosOctets v k ∧ x = unconstrained q k v

/-- The size is fixed, and below 64K. -/
def FixedSize (lb ub : Option Int) : Prop := ∃ k, lb = some k ∧ ub = some k ∧ k < 65536

/-- X.691 16 and 17: `n` units, `content` as bits. A fixed size needs no length, and no alignment up
to 16 bits (`short` units). Otherwise a length, then the content at an octet boundary. -/
def StringLayout (short : Int) (lb ub : Option Int) (ext : Bool) (n : Nat) (content : List Bool)
    (p : Nat) (w : List Bool) : Prop :=
  let q := p + (extRoot ext).length
  (∃ k, lb = some k ∧ ub = some k ∧ k < 65536 ∧
      w = extRoot ext ++ (if k ≤ short then content else alignment q ++ content)) ∨
    (¬ FixedSize lb ub ∧ ∃ l, LengthWord (lb.getD 0).toNat (ub.map Int.toNat) q n l ∧
      w = extRoot ext ++ l ++ (if n = 0 then [] else alignment (q + l.length) ++ content))

/-- X.691 30.5.6 and 30.5.7 (PrintableString and VisibleString: 8 bits a character in the aligned
variant): like OCTET STRING, but there is no alignment when at most one character is possible. -/
def CharLayout (lb ub : Option Int) (ext : Bool) (n : Nat) (content : List Bool)
    (p : Nat) (w : List Bool) : Prop :=
  let q := p + (extRoot ext).length
  (∃ k, lb = some k ∧ ub = some k ∧ k < 65536 ∧
      w = extRoot ext ++ (if k ≤ 2 then content else alignment q ++ content)) ∨
    (¬ FixedSize lb ub ∧ ∃ l, LengthWord (lb.getD 0).toNat (ub.map Int.toNat) q n l ∧
      w = extRoot ext ++ l ++
        (if n = 0 ∨ (∃ u, ub = some u ∧ u ≤ 1) then content else alignment (q + l.length) ++ content))

/-- X.691 30.6: a UTF8String is an unconstrained octet string whatever its size constraint, which is
not PER-visible (and an extension marker in it gives no extension bit). -/
def Utf8Layout (n : Nat) (content : List Bool) (p : Nat) (w : List Bool) : Prop :=
  w = generalLength p n ++ content

/-- The presence bits of a SEQUENCE, in textual order (X.691 19.2). -/
def Fields.presenceBits : (fs : Fields) → fs.Val → List Bool
  | .nil, _ => []
  | .required _ _ rest, v => rest.presenceBits v.2
  | .optional _ _ rest, v => v.1.isSome :: rest.presenceBits v.2

/-- One after the other. -/
def ListLayout {α : Type} (L : α → Nat → List Bool → Prop) : List α → Nat → List Bool → Prop
  | [], _, w => w = []
  | x :: xs, p, w => ∃ a b, L x p a ∧ ListLayout L xs (p + a.length) b ∧ w = a ++ b

/-- X.691 11.2: a complete encoding as an open type: zero bits up to a multiple of eight, one zero
octet if there is nothing, preceded by the number of octets. -/
def OpenLayout (content : List Bool) (p : Nat) (w : List Bool) : Prop :=
  let octets := if content = [] then List.replicate 8 false else content ++ alignment content.length
  w = generalLength p (octets.length / 8) ++ octets

mutual

/-- The bits of a value. -/
def Ty.Layout : (t : Ty) → t.Val → Nat → List Bool → Prop
  | .boolean, v, _, w => w = [v]
  | .null, _, _, w => w = []
  | .integer _ lb ub ext, v, p, w => IntLayout lb ub ext v p w
  | .enumerated _ lb ub ext, v, p, w => IntLayout lb ub ext v p w
  | .bitstring lb ub ext, v, p, w => StringLayout 16 lb ub ext (List.length v) v p w
  | .octetstring lb ub ext, v, p, w => StringLayout 2 lb ub ext (List.length v) (octetBits v) p w
  | .charstring .utf8 _ _ _, v, p, w => Utf8Layout (utf8 v).length (octetBits (utf8 v)) p w
  | .charstring _ lb ub ext, v, p, w =>
      CharLayout lb ub ext (utf8 v).length (octetBits (utf8 v)) p w
  | .objectIdentifier, v, p, w => w = generalLength p (List.length v) ++ octetBits v
  | .sequence ext _ fs, v, p, w =>
      ∃ body, fs.Layout v (p + (extRoot ext).length + (fs.presenceBits v).length) body ∧
        w = extRoot ext ++ fs.presenceBits v ++ body
  | .sequenceOf lb ub ext e, v, p, w =>
      ∃ l body, LengthWord (lb.getD 0).toNat (ub.map Int.toNat) (p + (extRoot ext).length)
          (List.length v) l ∧
        ListLayout e.Layout v (p + (extRoot ext).length + l.length) body ∧
        w = extRoot ext ++ l ++ body
  | .choice lb ub ext as, v, p, w =>
      as.extendedOf v = false ∧
      ∃ i body, ConstrainedWord (p + (extRoot ext).length) (ub - lb + 1).toNat
          (as.keyOf v - lb).toNat i ∧
        as.Layout v (p + (extRoot ext).length + i.length) body ∧
        w = extRoot ext ++ i ++ body
  | .openType as, v, p, w => ∃ content, as.Layout v 0 content ∧ OpenLayout content p w

/-- The components present, in order. -/
def Fields.Layout : (fs : Fields) → fs.Val → Nat → List Bool → Prop
  | .nil, _, _, w => w = []
  | .required _ t rest, v, p, w =>
      ∃ a b, t.Layout v.1 p a ∧ rest.Layout v.2 (p + a.length) b ∧ w = a ++ b
  | .optional _ t rest, v, p, w =>
      ∃ a b, (match v.1 with | some x => t.Layout x p a | none => a = []) ∧
        rest.Layout v.2 (p + a.length) b ∧ w = a ++ b

/-- The alternative at hand. -/
def Alts.Layout : (as : Alts) → as.Val → Nat → List Bool → Prop
  | .cons _ _ t _, .inl v, p, w => t.Layout v p w
  | .cons _ _ _ rest, .inr v, p, w => rest.Layout v p w

end

/-! ## Cases excluded -/

/-- Excluded: 2^32 or 2^64 possible values (`C07_two_pow_32_violated`); with only a lower bound,
offsets whose first bit is 1 in the least number of octets (`C64_semi_constrained_violated`). -/
def IntRegular (lb ub : Option Int) (v : Int) : Prop :=
  match lb, ub with
  | some l, some u => u - l + 1 ≠ 2 ^ 32 ∧ u - l + 1 ≠ 2 ^ 64
  | some l, none => ∃ k, IsOctets (v - l).toNat k ∧ v - l < 2 ^ (8 * k - 1)
  | none, _ => IsI128 v

/-- Excluded: non-empty strings of up to 16 bits of variable size, when the length leaves the position
anywhere in an octet (`C64_short_string_violated`). -/
def StringRegular (short : Int) (lb ub : Option Int) (n : Nat) : Prop :=
  SizeBounds lb ub ∧ (FixedSize lb ub ∨ lengthAligns lb ub = true ∨ short < n ∨ n = 0)

/-- Excluded: UTF8String with a size constraint below 64K or extensible
(`C64_utf8_constraint_violated`); for the others as above. -/
def CharRegular : CharKind → Option Int → Option Int → Bool → Nat → Prop
  | .utf8, lb, ub, ext, _ => SizeBounds lb ub ∧ ext = false ∧ ∀ u, ub = some u → 65536 ≤ u
  | _, lb, ub, _, n =>
      SizeBounds lb ub ∧ (FixedSize lb ub ∨ lengthAligns lb ub = true ∨ 2 < n ∨ n = 0 ∨
        ∃ u, ub = some u ∧ u ≤ 1)

mutual

/-- The value contains none of the excluded cases. Of a SEQUENCE the attributes number the optional
components 0, 1, .. in order (as the compiler does, C61). SEQUENCE OF is not extensible
(`C64_extensible_list_violated`) and its size is permitted (`C41_size_not_enforced_violated`). -/
def Ty.Regular : (t : Ty) → t.Val → Prop
  | .integer _ lb ub _, v => IntRegular lb ub v
  | .enumerated _ lb ub _, v => IntRegular lb ub v
  | .bitstring lb ub _, v => StringRegular 16 lb ub (List.length v)
  | .octetstring lb ub _, v => StringRegular 2 lb ub (List.length v)
  | .charstring k lb ub ext, v => CharRegular k lb ub ext (utf8 v).length
  | .sequence _ n fs, v => fs.indexes = List.range n ∧ fs.Regular v
  | .sequenceOf lb ub ext e, v =>
      ext = false ∧ SizeOk lb ub (List.length v) ∧ ∀ x ∈ (show List e.Val from v), e.Regular x
  | .choice lb ub _ as, v => ub - lb < 65536 ∧ as.Regular v
  | .openType as, v => as.Regular v
  | .boolean, _ | .null, _ | .objectIdentifier, _ => True

/-- All fields present are regular. -/
def Fields.Regular : (fs : Fields) → fs.Val → Prop
  | .nil, _ => True
  | .required _ t rest, v => t.Regular v.1 ∧ rest.Regular v.2
  | .optional _ t rest, v => (match v.1 with | some x => t.Regular x | none => True) ∧ rest.Regular v.2

/-- The alternative's content is regular. -/
def Alts.Regular : (as : Alts) → as.Val → Prop
  | .cons _ _ t _, .inl v => t.Regular v
  | .cons _ _ _ rest, .inr v => rest.Regular v

end

end Hampi
