import Verif.Spec.Outcome
import Verif.Spec.Hostile
/-!
# What a sender has to see to

`Ty.Typed`: the numbers are of their Rust types, which `rustc` sees to. `Ty.Manned`: no list is shorter than its size
allows, and none of extensible size is empty, which the sender has to see to. `Ty.sendable`: the attributes exclude
every other panic of the encoder.
-/
namespace Hampi

open Spec (SizeBounds)

mutual

/-- The numbers are of their Rust types. -/
def Ty.Typed : (t : Ty) → t.Val → Prop
  | .boolean, _ => True
  | .null, _ => True
  | .integer w _ _ _, v => w.Fits v
  | .enumerated w _ _ _, v => w.Fits v
  | .bitstring _ _ _, _ => True
  | .octetstring _ _ _, _ => True
  | .charstring _ _ _ _, _ => True
  | .objectIdentifier, _ => True
  | .sequence _ _ fs, v => fs.Typed v
  | .sequenceOf _ _ _ e, v => ∀ x ∈ (show List e.Val from v), e.Typed x
  | .choice _ _ _ as, v => as.Typed v
  | .openType as, v => as.Typed v

/-- All fields present. -/
def Fields.Typed : (fs : Fields) → fs.Val → Prop
  | .nil, _ => True
  | .required _ t rest, v => t.Typed v.1 ∧ rest.Typed v.2
  | .optional _ t rest, v => (match v.1 with | some x => t.Typed x | none => True) ∧ rest.Typed v.2

/-- The variant at hand. -/
def Alts.Typed : (as : Alts) → as.Val → Prop
  | .cons _ _ t _, .inl v => t.Typed v
  | .cons _ _ _ rest, .inr v => rest.Typed v

end

mutual

/-- No list is shorter than its size allows, and none of extensible size is empty. -/
def Ty.Manned : (t : Ty) → t.Val → Prop
  | .boolean, _ => True
  | .null, _ => True
  | .integer _ _ _ _, _ => True
  | .enumerated _ _ _ _, _ => True
  | .bitstring _ _ _, _ => True
  | .octetstring _ _ _, _ => True
  | .charstring _ _ _ _, _ => True
  | .objectIdentifier, _ => True
  | .sequence _ _ fs, v => fs.Manned v
  | .sequenceOf lb _ ext e, v => (∀ l, lb = some l → l ≤ (List.length (show List e.Val from v) : Int)) ∧
      (ext = true → (show List e.Val from v) ≠ []) ∧ ∀ x ∈ (show List e.Val from v), e.Manned x
  | .choice _ _ _ as, v => as.Manned v
  | .openType as, v => as.Manned v

/-- All fields present. -/
def Fields.Manned : (fs : Fields) → fs.Val → Prop
  | .nil, _ => True
  | .required _ t rest, v => t.Manned v.1 ∧ rest.Manned v.2
  | .optional _ t rest, v => (match v.1 with | some x => t.Manned x | none => True) ∧ rest.Manned v.2

/-- The variant at hand. -/
def Alts.Manned : (as : Alts) → as.Val → Prop
  | .cons _ _ t _, .inl v => t.Manned v
  | .cons _ _ _ rest, .inr v => rest.Manned v

end

mutual

/-- Whatever is encoded takes at least one bit. -/
def Ty.writes : Ty → Bool
  | .boolean => true
  | .null => false
  | .integer _ lb ub ext | .enumerated _ lb ub ext => ext || intSolid lb ub
  | .bitstring lb ub ext | .octetstring lb ub ext | .charstring _ lb ub ext => ext || stringSolid lb ub
  | .objectIdentifier => true
  | .sequence ext n fs => ext || decide (0 < n) || fs.writes
  | .sequenceOf lb ub ext e => (ext || lb.any (1 ≤ ·) || lengthSolid lb ub) && e.writes
  | .choice lb ub ext as => ext || decide (lb ≠ ub) || as.writes
  | .openType _ => true

/-- Some field that is always there does. -/
def Fields.writes : Fields → Bool
  | .nil => false
  | .required _ t rest => t.writes || rest.writes
  | .optional _ _ rest => rest.writes

/-- Every variant does. -/
def Alts.writes : Alts → Bool
  | .nil => true
  | .cons _ _ t rest => t.writes && rest.writes

end

/-- The lower bound is an `i128`, and the span of the values is one. -/
def intFine (lb ub : Option Int) : Bool :=
  match lb, ub with
  | none, _ => true
  | some l, none => decide (-(2 ^ 126) ≤ l ∧ l < 2 ^ 127)
  | some l, some u => decide (-(2 ^ 127) ≤ l ∧ l < 2 ^ 127 ∧ u - l + 1 < 2 ^ 127)

/-- Sizes are 64-bit numbers. -/
def sizeFine (lb ub : Option Int) : Bool :=
  lb.all (fun l => decide (0 ≤ l ∧ l < 2 ^ 64)) && ub.all (fun u => decide (0 ≤ u ∧ u < 2 ^ 64))

mutual

/-- Bounds that are numbers of their Rust types, optional components inside the bitmap, and every variant of an open
type, except for those with the keys `not`, takes at least one bit. -/
def Ty.sendable (not : List Int) : Ty → Bool
  | .boolean | .null | .objectIdentifier => true
  | .integer _ lb ub _ | .enumerated _ lb ub _ => intFine lb ub
  | .bitstring lb ub _ | .octetstring lb ub _ | .charstring _ lb ub _ => sizeFine lb ub
  | .sequence _ n fs => fs.sendable not n
  | .sequenceOf lb ub _ e => sizeFine lb ub && e.sendable not
  | .choice lb ub _ as => intFine (some lb) (some ub) && as.sendable not false
  | .openType as => as.sendable not true

/-- All fields; `n` is the size of the bitmap. -/
def Fields.sendable (not : List Int) : Fields → Nat → Bool
  | .nil, _ => true
  | .required _ t rest, n => t.sendable not && rest.sendable not n
  | .optional i t rest, n => decide (i < n) && t.sendable not && rest.sendable not n

/-- All variants, and their keys are `i128`s. -/
def Alts.sendable (not : List Int) : Alts → Bool → Bool
  | .nil, _ => true
  | .cons k _ t rest, isOpen => decide (-(2 ^ 127) ≤ k ∧ k < 2 ^ 127) && (!isOpen || not.contains k || t.writes) &&
      t.sendable not && rest.sendable not isOpen

end

mutual

/-- No open type in the value holds a variant with one of these keys. -/
def Ty.Without (not : List Int) : (t : Ty) → t.Val → Prop
  | .boolean, _ => True
  | .null, _ => True
  | .integer _ _ _ _, _ => True
  | .enumerated _ _ _ _, _ => True
  | .bitstring _ _ _, _ => True
  | .octetstring _ _ _, _ => True
  | .charstring _ _ _ _, _ => True
  | .objectIdentifier, _ => True
  | .sequence _ _ fs, v => fs.Without not v
  | .sequenceOf _ _ _ e, v => ∀ x ∈ (show List e.Val from v), e.Without not x
  | .choice _ _ _ as, v => as.Without not v
  | .openType as, v => as.keyOf v ∉ not ∧ as.Without not v

/-- All fields present. -/
def Fields.Without (not : List Int) : (fs : Fields) → fs.Val → Prop
  | .nil, _ => True
  | .required _ t rest, v => t.Without not v.1 ∧ rest.Without not v.2
  | .optional _ t rest, v => (match v.1 with | some x => t.Without not x | none => True) ∧ rest.Without not v.2

/-- The variant at hand. -/
def Alts.Without (not : List Int) : (as : Alts) → as.Val → Prop
  | .cons _ _ t _, .inl v => t.Without not v
  | .cons _ _ _ rest, .inr v => rest.Without not v

end

/-- Whatever is encoded takes no bits at all: NULL, and a number or ENUMERATED of one value that is not extensible. -/
def Ty.blank : Ty → Bool
  | .null => true
  | .integer _ lb ub ext | .enumerated _ lb ub ext => !ext && lb.isSome && lb == ub
  | _ => false

mutual

/-- Every variant of an open type with one of these keys takes no bits. -/
def Ty.blanks (keys : List Int) : Ty → Bool
  | .sequence _ _ fs => fs.blanks keys
  | .sequenceOf _ _ _ e => e.blanks keys
  | .choice _ _ _ as => as.blanks keys false
  | .openType as => as.blanks keys true
  | _ => true

/-- All fields. -/
def Fields.blanks (keys : List Int) : Fields → Bool
  | .nil => true
  | .required _ t rest => t.blanks keys && rest.blanks keys
  | .optional _ t rest => t.blanks keys && rest.blanks keys

/-- All variants. -/
def Alts.blanks (keys : List Int) : Alts → Bool → Bool
  | .nil, _ => true
  | .cons k _ t rest, isOpen => (!isOpen || !keys.contains k || t.blank) && t.blanks keys && rest.blanks keys isOpen

end

end Hampi
