import Verif.Derive.Model
import Verif.Spec.Roundtrip
/-!
# What hostile octets can do to a derived decoder

`Ty.solid`: every value of the type occupies at least one bit. `Ty.Sane`: the attributes keep the
decoder away from its panics. `Ty.size` counts what a decoded value holds in memory.
-/
namespace Hampi

open Spec (SizeBounds)

/-- Bounds of a type that fits 64 bits with room: less than 2^64 values. -/
def IntSane (lb ub : Int) : Prop :=
  -(2 ^ 126) ≤ lb ∧ lb ≤ 2 ^ 126 ∧ -(2 ^ 126) ≤ ub ∧ ub - lb + 1 < 2 ^ 64

/-- Size bounds in order. -/
def SizeSane (lb ub : Option Int) : Prop :=
  SizeBounds lb ub ∧ ∀ l u, lb = some l → ub = some u → l ≤ u

/-- A whole number with these bounds occupies at least one bit: there is more than one. -/
def intSolid (lb ub : Option Int) : Bool :=
  match lb, ub with
  | some l, some u => decide (l ≠ u)
  | _, _ => true

/-- A length with these bounds occupies at least one bit: there is more than one, or it does not
depend on the bounds. -/
def lengthSolid (lb ub : Option Int) : Bool :=
  match ub with
  | some u => decide (65536 ≤ u) || decide (lb.getD 0 ≠ u)
  | none => true

/-- A string with these size bounds occupies at least one bit: only the size 0 does not. -/
def stringSolid (lb ub : Option Int) : Bool := lengthSolid lb ub || decide (ub ≠ some 0)

mutual

/-- Every value occupies at least one bit. -/
def Ty.solid : Ty → Bool
  | .boolean => true
  | .null => false
  | .integer _ lb ub ext | .enumerated _ lb ub ext => ext || intSolid lb ub
  | .bitstring lb ub ext | .octetstring lb ub ext | .charstring _ lb ub ext => ext || stringSolid lb ub
  | .objectIdentifier => true
  | .sequence ext n fs => ext || decide (0 < n) || fs.solid
  | .sequenceOf lb ub ext e => ext || lengthSolid lb ub || e.solid
  | .choice lb ub ext as => ext || decide (lb ≠ ub) || as.solid
  | .openType _ => true

/-- Some field that is always there occupies at least one bit. -/
def Fields.solid : Fields → Bool
  | .nil => false
  | .required _ t rest => t.solid || rest.solid
  | .optional _ _ rest => rest.solid

/-- Every variant occupies at least one bit. -/
def Alts.solid : Alts → Bool
  | .nil => true
  | .cons _ _ t rest => t.solid && rest.solid

end

mutual

/-- The attributes exclude the known panics: no semi-constrained INTEGER and none of 2^64 or more
values, no extensible ENUMERATED or CHOICE, sizes in order, indexes inside the bitmap, and no list
that can be empty of elements that occupy no bits. -/
def Ty.Sane : Ty → Prop
  | .boolean | .null | .objectIdentifier => True
  | .integer _ lb ub _ => ∀ l, lb = some l → ∃ u, ub = some u ∧ IntSane l u
  | .enumerated _ lb ub ext => ext = false ∧ ∀ l, lb = some l → ∃ u, ub = some u ∧ IntSane l u
  | .bitstring lb ub _ | .octetstring lb ub _ | .charstring _ lb ub _ => SizeSane lb ub
  | .sequence _ n fs => fs.Sane n
  | .sequenceOf lb ub ext e => (ext = true ∨ SizeSane lb ub) ∧ e.Sane ∧
      (e.solid = true ∨ (ext = false ∧ ∃ l u, lb = some l ∧ ub = some u ∧ 1 ≤ l ∧ u < 65536))
  | .choice lb ub ext as => ext = false ∧ IntSane lb ub ∧ as.Sane
  | .openType as => as.Sane

/-- All fields; `n` is the size of the bitmap. -/
def Fields.Sane : Fields → Nat → Prop
  | .nil, _ => True
  | .required _ t rest, n => t.Sane ∧ rest.Sane n
  | .optional i t rest, n => i < n ∧ t.Sane ∧ rest.Sane n

/-- All variants. -/
def Alts.Sane : Alts → Prop
  | .nil => True
  | .cons _ _ t rest => t.Sane ∧ rest.Sane

end

mutual

/-- What a value holds: one for each value in it, and one for each bit, octet or character octet of a
string. -/
def Ty.size : (t : Ty) → t.Val → Nat
  | .boolean, _ | .null, _ | .integer .., _ | .enumerated .., _ => 1
  | .bitstring .., v => 1 + List.length v
  | .octetstring .., v => 1 + List.length v
  | .charstring .., v => 1 + String.utf8ByteSize v
  | .objectIdentifier, v => 1 + List.length v
  | .sequence _ _ fs, v => 1 + fs.size v
  | .sequenceOf _ _ _ e, v => 1 + (List.map e.size v).sum
  | .choice _ _ _ as, v => 1 + as.size v
  | .openType as, v => 1 + as.size v

/-- All fields; an absent one counts one. -/
def Fields.size : (fs : Fields) → fs.Val → Nat
  | .nil, _ => 0
  | .required _ t rest, v => t.size v.1 + rest.size v.2
  | .optional _ t rest, v => 1 + (match v.1 with | some x => t.size x | none => 0) + rest.size v.2

/-- The variant at hand. -/
def Alts.size : (as : Alts) → as.Val → Nat
  | .cons _ _ t _, .inl v => t.size v
  | .cons _ _ _ rest, .inr v => rest.size v

end

mutual

/-- The size of a type: its nodes, strings counting two. -/
def Ty.nodes : Ty → Nat
  | .boolean | .null | .integer .. | .enumerated .. => 1
  | .bitstring .. | .octetstring .. | .charstring .. | .objectIdentifier => 2
  | .sequence _ _ fs => 1 + fs.nodes
  | .sequenceOf _ _ _ e => 1 + e.nodes
  | .choice _ _ _ as | .openType as => 1 + as.nodes

/-- All fields. -/
def Fields.nodes : Fields → Nat
  | .nil => 0
  | .required _ t rest => t.nodes + rest.nodes
  | .optional _ t rest => 1 + t.nodes + rest.nodes

/-- All variants. -/
def Alts.nodes : Alts → Nat
  | .nil => 0
  | .cons _ _ t rest => t.nodes + rest.nodes

end

mutual

/-- The elements of every list in the type occupy at least one bit. -/
def Ty.SolidLists : Ty → Prop
  | .sequenceOf _ _ _ e => e.solid = true ∧ e.SolidLists
  | .sequence _ _ fs => fs.SolidLists
  | .choice _ _ _ as | .openType as => as.SolidLists
  | .boolean | .null | .integer .. | .enumerated .. | .bitstring .. | .octetstring ..
  | .charstring .. | .objectIdentifier => True

/-- In all fields. -/
def Fields.SolidLists : Fields → Prop
  | .nil => True
  | .required _ t rest | .optional _ t rest => t.SolidLists ∧ rest.SolidLists

/-- In all variants. -/
def Alts.SolidLists : Alts → Prop
  | .nil => True
  | .cons _ _ t rest => t.SolidLists ∧ rest.SolidLists

end

mutual

/-- What a value takes memory for: as `Ty.size`, but NULL and a SEQUENCE without components, for which
the Rust types have size zero, count nothing. -/
def Ty.stored : (t : Ty) → t.Val → Nat
  | .null, _ => 0
  | .sequence _ _ .nil, _ => 0
  | .boolean, _ | .integer .., _ | .enumerated .., _ => 1
  | .bitstring .., v => 1 + List.length v
  | .octetstring .., v => 1 + List.length v
  | .charstring .., v => 1 + String.utf8ByteSize v
  | .objectIdentifier, v => 1 + List.length v
  | .sequence _ _ fs, v => 1 + fs.stored v
  | .sequenceOf _ _ _ e, v => 1 + (List.map e.stored v).sum
  | .choice _ _ _ as, v => 1 + as.stored v
  | .openType as, v => 1 + as.stored v

/-- All fields; an absent one counts one. -/
def Fields.stored : (fs : Fields) → fs.Val → Nat
  | .nil, _ => 0
  | .required _ t rest, v => t.stored v.1 + rest.stored v.2
  | .optional _ t rest, v => 1 + (match v.1 with | some x => t.stored x | none => 0) + rest.stored v.2

/-- The variant at hand. -/
def Alts.stored : (as : Alts) → as.Val → Nat
  | .cons _ _ t _, .inl v => t.stored v
  | .cons _ _ _ rest, .inr v => rest.stored v

end

end Hampi
