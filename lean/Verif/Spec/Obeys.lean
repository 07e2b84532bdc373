import Verif.Spec.Relay
/-!
# Values that obey their type
-/
namespace Hampi
open Spec (Within)

/-- The characters of the character string types (X.680, 41.4 and table 8). -/
def inAlphabet : CharKind → Char → Bool
  | .utf8, _ => true
  | .visible, c => decide (32 ≤ c.toNat ∧ c.toNat ≤ 126)
  | .printable, c => c.isAlphanum || [' ', '\'', '(', ')', '+', ',', '-', '.', '/', ':', '=', '?'].contains c

mutual

/-- The value is one of the values of its ASN.1 type: numbers are within their bounds; the sizes of strings, in bits,
octets or characters, and of lists, in elements, are within theirs; the characters are of the alphabet of their type. A
constraint with an extension marker (`ext`) can be left by additions of later versions, so it does not count. -/
def Ty.Obeys : (t : Ty) → t.Val → Prop
  | .boolean, _ | .null, _ | .objectIdentifier, _ => True
  | .integer _ lb ub ext, v | .enumerated _ lb ub ext, v => ext = true ∨ Within lb ub v
  | .bitstring lb ub ext, v => ext = true ∨ Within lb ub (List.length (α := Bool) v)
  | .octetstring lb ub ext, v => ext = true ∨ Within lb ub (List.length (α := UInt8) v)
  | .charstring k lb ub ext, v =>
      (ext = true ∨ Within lb ub (String.length v)) ∧ ∀ c ∈ String.toList v, inAlphabet k c = true
  | .sequence _ _ fs, v => fs.Obeys v
  | .sequenceOf lb ub ext e, v =>
      (ext = true ∨ Within lb ub (List.length v)) ∧ ∀ x ∈ (show List e.Val from v), e.Obeys x
  | .choice _ _ _ as, v => as.Obeys v
  | .openType as, v => as.Obeys v

/-- All fields that are present. -/
def Fields.Obeys : (fs : Fields) → fs.Val → Prop
  | .nil, _ => True
  | .required _ t rest, v => t.Obeys v.1 ∧ rest.Obeys v.2
  | .optional _ t rest, v => (match v.1 with | some x => t.Obeys x | none => True) ∧ rest.Obeys v.2

/-- The variant at hand. -/
def Alts.Obeys : (as : Alts) → as.Val → Prop
  | .cons _ _ t _, .inl v => t.Obeys v
  | .cons _ _ _ rest, .inr v => rest.Obeys v

end

/-! ## What is not checked -/

mutual

/-- The text in the value is of the right alphabet, and of ASCII characters if it is a UTF8String with a lower bound on
its size; and, if `lists`, the lists in it are of sizes that their types permit. -/
def Ty.Careful (lists : Bool) : (t : Ty) → t.Val → Prop
  | .charstring k lb _ _, v => (∀ c ∈ String.toList v, inAlphabet k c = true) ∧
      (k = .utf8 → (∀ l, lb = some l → l ≤ 0) ∨ ∀ c ∈ String.toList v, c.toNat < 128)
  | .sequence _ _ fs, v => fs.Careful lists v
  | .sequenceOf lb ub ext e, v =>
      (lists = true → ext = true ∨ Within lb ub (List.length v)) ∧ ∀ x ∈ (show List e.Val from v), e.Careful lists x
  | .choice _ _ _ as, v => as.Careful lists v
  | .openType as, v => as.Careful lists v
  | .boolean, _ | .null, _ | .integer .., _ | .enumerated .., _ | .bitstring .., _ | .octetstring .., _
  | .objectIdentifier, _ => True

/-- All fields that are present. -/
def Fields.Careful (lists : Bool) : (fs : Fields) → fs.Val → Prop
  | .nil, _ => True
  | .required _ t rest, v => t.Careful lists v.1 ∧ rest.Careful lists v.2
  | .optional _ t rest, v => (match v.1 with | some x => t.Careful lists x | none => True) ∧ rest.Careful lists v.2

/-- The variant at hand. -/
def Alts.Careful (lists : Bool) : (as : Alts) → as.Val → Prop
  | .cons _ _ t _, .inl v => t.Careful lists v
  | .cons _ _ _ rest, .inr v => rest.Careful lists v

end

mutual

/-- A number with an upper bound has a lower bound too; bounds of sizes are `usize`s. -/
def Ty.Floored : Ty → Bool
  | .boolean | .null | .objectIdentifier => true
  | .integer _ lb ub ext | .enumerated _ lb ub ext => ext || lb.isSome || ub.isNone
  | .bitstring lb ub _ | .octetstring lb ub _ | .charstring _ lb ub _ => usizeBound lb && usizeBound ub
  | .sequence _ _ fs => fs.Floored
  | .sequenceOf _ _ _ e => e.Floored
  | .choice _ _ _ as => as.Floored
  | .openType as => as.Floored

/-- All fields. -/
def Fields.Floored : Fields → Bool
  | .nil => true
  | .required _ t rest => t.Floored && rest.Floored
  | .optional _ t rest => t.Floored && rest.Floored

/-- All variants. -/
def Alts.Floored : Alts → Bool
  | .nil => true
  | .cons _ _ t rest => t.Floored && rest.Floored

end

/-- That many values leave no unused codes in their bit field. -/
def fillsField (R : Int) : Bool := [1, 2, 4, 8, 16, 32, 64, 128, 256, 65536].contains R

/-- The least value of a Rust integer. -/
def Width.least (w : Width) : Int := if w.signed then -(2 ^ (w.bits - 1)) else 0

/-- The bounds fill their bit field and fit the Rust integer; without an upper bound, no Rust integer is below the
lower one. -/
def numberFilled (w : Width) : Option Int → Option Int → Bool
  | none, none => true
  | none, some _ => false
  | some l, none => decide (l ≤ w.least)
  | some l, some u => fillsField (u - l + 1) && decide (w.Fits l) && decide (w.Fits u)

/-- The size is fixed or the sizes fill their bit field, and all are less than `below`; without an upper bound, no size
is below the lower one, for sizes that are at least `least`. -/
def sizeFilled (below least : Int) (lb : Option Int) : Option Int → Bool
  | none => decide (lb.getD 0 ≤ least)
  | some u => decide (u < below) && fillsField (u - lb.getD 0 + 1)

mutual

/-- No bounds leave room for values outside them. -/
def Ty.Filled : Ty → Bool
  | .boolean | .null | .objectIdentifier => true
  | .integer w lb ub ext | .enumerated w lb ub ext => ext || numberFilled w lb ub
  | .bitstring lb ub ext | .octetstring lb ub ext | .charstring _ lb ub ext => ext || sizeFilled 16384 0 lb ub
  | .sequence _ _ fs => fs.Filled
  | .sequenceOf lb ub ext e => (ext || sizeFilled 65536 1 lb ub) && e.Filled
  | .choice _ _ _ as => as.Filled
  | .openType as => as.Filled

/-- All fields. -/
def Fields.Filled : Fields → Bool
  | .nil => true
  | .required _ t rest => t.Filled && rest.Filled
  | .optional _ t rest => t.Filled && rest.Filled

/-- All variants. -/
def Alts.Filled : Alts → Bool
  | .nil => true
  | .cons _ _ t rest => t.Filled && rest.Filled

end

end Hampi
