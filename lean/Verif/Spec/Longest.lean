import Verif.Derive.Model
/-!
# How long an encoding can get
-/
namespace Hampi

/-- The smallest number of bits in which `n` values can be told apart. -/
def bitsFor (n : Nat) : Nat := (n - 1).log2 + if n ≤ 1 then 0 else 1

/-- Bits for a whole number between `l` and `u`, with padding in front (X.691 10.5.7): a bit-field; one octet; two
octets; or, above 64K values, a length of at most 4 bits and up to 16 octets. -/
def wholeLongest (l u : Int) : Nat :=
  if u - l < 255 then bitsFor (u - l + 1).toNat
  else if u - l < 256 then 7 + 8
  else if u - l < 65536 then 7 + 16
  else 4 + 7 + 128

/-- Bits for an integer: without two bounds, a length of one octet and up to 16 octets. -/
def intLongest : Option Int → Option Int → Nat
  | some l, some u => wholeLongest l u
  | _, _ => 7 + 8 + 128

/-- Bits for a length: as a whole number if there is an upper bound below 64K, else in up to two octets. -/
def lengthLongest (lb ub : Option Int) : Nat :=
  match ub with
  | some u => if u < 65536 then wholeLongest (lb.getD 0) u else 7 + 16
  | none => 7 + 16

/-- The largest number of units in a string or list: the upper bound if it is below 64K, else what a length of two
octets can say. -/
def countLongest (ub : Option Int) : Nat :=
  match ub with
  | some u => if u < 65536 then u.toNat else 16383
  | none => 16383

/-- One bit if there is an extension marker. -/
def extBits (ext : Bool) : Nat := if ext then 1 else 0

mutual

/-- The most bits a value of the type takes. An open type takes a length and at most 16383 octets, whatever is in it. -/
def Ty.longest : Ty → Nat
  | .boolean => 1
  | .null => 0
  | .integer _ lb ub ext | .enumerated _ lb ub ext => extBits ext + intLongest lb ub
  | .bitstring lb ub ext => extBits ext + lengthLongest lb ub + 7 + min 16383 (countLongest ub)
  | .octetstring lb ub ext => extBits ext + lengthLongest lb ub + 7 + 8 * min 16383 (countLongest ub)
  | .charstring _ lb ub ext => extBits ext + lengthLongest lb ub + 7 + 8 * countLongest ub
  | .objectIdentifier => 0
  | .sequence ext n fs => extBits ext + n + fs.longest
  | .sequenceOf lb ub ext e =>
      if ext then 1 + 7 + 16 + 16383 * e.longest else lengthLongest lb ub + countLongest ub * e.longest
  | .choice lb ub ext as => extBits ext + wholeLongest lb ub + as.longest
  | .openType _ => 7 + 16 + 8 * 16383

/-- All fields, one after the other. -/
def Fields.longest : Fields → Nat
  | .nil => 0
  | .required _ t rest => t.longest + rest.longest
  | .optional _ t rest => t.longest + rest.longest

/-- The longest variant. -/
def Alts.longest : Alts → Nat
  | .nil => 0
  | .cons _ _ t rest => max t.longest rest.longest

end

mutual

/-- No list has more elements than its type permits, or than a length of two octets can say; what is inside open types
does not matter. -/
def Ty.ListsFit : (t : Ty) → t.Val → Prop
  | .sequence _ _ fs, v => fs.ListsFit v
  | .sequenceOf _ ub ext e, v =>
      List.length v ≤ (if ext then 16383 else countLongest ub) ∧ ∀ x ∈ (show List e.Val from v), e.ListsFit x
  | .choice _ _ _ as, v => as.ListsFit v
  | .boolean, _ | .null, _ | .integer .., _ | .enumerated .., _ | .bitstring .., _ | .octetstring .., _
  | .charstring .., _ | .objectIdentifier, _ | .openType _, _ => True

/-- Field by field. -/
def Fields.ListsFit : (fs : Fields) → fs.Val → Prop
  | .nil, _ => True
  | .required _ t rest, v => t.ListsFit v.1 ∧ rest.ListsFit v.2
  | .optional _ t rest, v => (match v.1 with | some x => t.ListsFit x | none => True) ∧ rest.ListsFit v.2

/-- In the variant at hand. -/
def Alts.ListsFit : (as : Alts) → as.Val → Prop
  | .cons _ _ t _, .inl v => t.ListsFit v
  | .cons _ _ _ rest, .inr v => rest.ListsFit v

end

end Hampi
