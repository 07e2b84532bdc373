import Verif.Spec.Derived
/-!
# How encoding ends

For a type and a value: does the encoder return `Ok`, return `Err`, or panic? Computed from the attributes and the
value, without a buffer.
-/
namespace Hampi

open Spec (SizeBounds)

/-- How a call ends. -/
inductive Outcome where
  | ok | err | panic
deriving Repr, DecidableEq

/-- How this call ended. -/
def Res.outcome {α : Type} : Res α → Outcome
  | .ok _ _ => .ok
  | .err _ => .err
  | .panic => .panic

/-- First the one, then the other if the first was `Ok`. -/
def Outcome.andThen : Outcome → Outcome → Outcome
  | .ok, o => o
  | o, _ => o

namespace Spec

/-- An integer: refused outside of its bounds, and at the lower bound of more than 65536 values; a panic if the
distance of the bounds, or from the only bound, is no `i128`. -/
def intOutcome (lb ub : Option Int) (v : Int) : Outcome :=
  match lb, ub with
  | none, _ => .ok
  | some l, none => if v < l then .err else if 2 ^ 127 ≤ v - l then .panic else .ok
  | some l, some u =>
      if v < l ∨ u < v then .err
      else if 2 ^ 127 ≤ u - l + 1 then .panic
      else if 65536 < u - l + 1 ∧ v = l then .err
      else .ok

/-- The length of a string: refused out of its bounds, and from 16384 on unless the upper bound is below 65536. -/
def sizeOutcome (lb ub : Option Int) (n : Nat) : Outcome :=
  if lb.all (· ≤ (n : Int)) && ub.all ((n : Int) ≤ ·) && (ub.any (· < 65536) || decide (n < 16384)) then .ok else .err

/-- An open type whose content takes this many bits: the length in octets of nothing panics, and 16384 octets or more
are refused. -/
def openOutcome (bits : Nat) : Outcome :=
  if bits = 0 then .panic else if 8 * 16383 < bits then .err else .ok

/-- The elements of a list, in order. -/
def allOutcome {α : Type} (f : α → Outcome) : List α → Outcome
  | [] => .ok
  | x :: xs => (f x).andThen (allOutcome f xs)

end Spec

open Spec

/-- The bitmap has a bit for every optional component that is present. -/
def Fields.hasBits (n : Nat) : (fs : Fields) → fs.Val → Bool
  | .nil, _ => true
  | .required _ _ rest, v => rest.hasBits n v.2
  | .optional i _ rest, v => (v.1.isNone || decide (i < n)) && rest.hasBits n v.2

mutual

/-- How encoding the value ends. A list is never refused for its length; only an empty list of extensible size
panics. -/
def Ty.outcome : (t : Ty) → t.Val → Outcome
  | .boolean, _ => .ok
  | .null, _ => .ok
  | .integer _ lb ub _, v => intOutcome lb ub v
  | .enumerated _ lb ub _, v => intOutcome lb ub v
  | .bitstring lb ub _, v => if 16384 ≤ List.length v then .err else sizeOutcome lb ub (List.length v)
  | .octetstring lb ub _, v => if 16384 ≤ List.length v then .err else sizeOutcome lb ub (List.length v)
  | .charstring _ lb ub _, v => sizeOutcome lb ub (utf8 v).length
  | .objectIdentifier, _ => .err
  | .sequence _ n fs, v => if fs.hasBits n v then fs.outcome v else .panic
  | .sequenceOf _ _ ext e, v => if ext && List.isEmpty v then .panic else allOutcome e.outcome v
  | .choice lb ub _ as, v =>
      if as.extendedOf v then .err else (intOutcome (some lb) (some ub) (as.keyOf v)).andThen (as.outcome v)
  | .openType as, v =>
      match as.encode v Codec.new with
      | .ok _ content => openOutcome content.bits.length
      | _ => as.outcome v

/-- Field by field. -/
def Fields.outcome : (fs : Fields) → fs.Val → Outcome
  | .nil, _ => .ok
  | .required _ t rest, v => (t.outcome v.1).andThen (rest.outcome v.2)
  | .optional _ t rest, v =>
      (match v.1 with | some x => t.outcome x | none => .ok).andThen (rest.outcome v.2)

/-- The variant at hand. -/
def Alts.outcome : (as : Alts) → as.Val → Outcome
  | .cons _ _ t _, .inl v => t.outcome v
  | .cons _ _ _ rest, .inr v => rest.outcome v

end

mutual

/-- The numbers are of their Rust types, the attributes of theirs. -/
def Ty.Held : (t : Ty) → t.Val → Prop
  | .boolean, _ => True
  | .null, _ => True
  | .integer w lb _ _, v => w.Fits v ∧ ∀ l, lb = some l → IsI128 l
  | .enumerated w lb _ _, v => w.Fits v ∧ ∀ l, lb = some l → IsI128 l
  | .bitstring lb ub _, _ => SizeBounds lb ub
  | .octetstring lb ub _, _ => SizeBounds lb ub
  | .charstring _ lb ub _, _ => SizeBounds lb ub
  | .objectIdentifier, _ => True
  | .sequence _ _ fs, v => fs.Held v
  | .sequenceOf lb ub _ e, v => SizeBounds lb ub ∧ ∀ x ∈ (show List e.Val from v), e.Held x
  | .choice lb _ _ as, v => IsI128 lb ∧ IsI128 (as.keyOf v) ∧ as.Held v
  | .openType as, v => as.Held v

/-- All fields present. -/
def Fields.Held : (fs : Fields) → fs.Val → Prop
  | .nil, _ => True
  | .required _ t rest, v => t.Held v.1 ∧ rest.Held v.2
  | .optional _ t rest, v => (match v.1 with | some x => t.Held x | none => True) ∧ rest.Held v.2

/-- The variant at hand. -/
def Alts.Held : (as : Alts) → as.Val → Prop
  | .cons _ _ t _, .inl v => t.Held v
  | .cons _ _ _ rest, .inr v => rest.Held v

end

end Hampi
