import Verif.Spec.Derived
/-!
# One message for each value

`consumed` are the bits a decoder has read; `Ty.Canonical` are the types for which those bits are the
only way to write the value.
-/
namespace Hampi

open Spec (SizeBounds Within)

/-- The bits between the position before and the position after. -/
def consumed (s s' : Codec) : List Bool := (s.bits.drop s.off).take (s'.off - s.off)

/-- At most 64K values, and bounds the Rust type can hold. -/
def IntCanonical (w : Width) (lb ub : Option Int) : Prop :=
  match lb, ub with
  | some l, some u => w.Fits l ∧ w.Fits u ∧ u - l + 1 ≤ 65536
  | _, _ => False

/-- Sizes with an upper bound below 64K. -/
def SizeCanonical (lb ub : Option Int) : Prop :=
  SizeBounds lb ub ∧ ∃ u, ub = some u ∧ u < 65536

/-- Strings of three octets and more are read from an octet boundary, and so are all when there are
256 possible sizes or more. -/
def TextCanonical (lb ub : Option Int) : Prop :=
  SizeCanonical lb ub ∧ ((∃ l, lb = some l ∧ 3 ≤ l) ∨ lengthAligns lb ub = true)

mutual

/-- No form of encoding that leaves a choice to the sender: INTEGER and ENUMERATED not extensible, with
at most 64K values; strings and lists not extensible, with a SIZE below 64K; SEQUENCE not extensible,
with an optional field for each bit of the bitmap; no open types. -/
def Ty.Canonical : Ty → Prop
  | .boolean => True
  | .null => True
  | .integer w lb ub ext => ext = false ∧ IntCanonical w lb ub
  | .enumerated w lb ub ext => ext = false ∧ IntCanonical w lb ub
  | .bitstring lb ub ext => ext = false ∧ SizeCanonical lb ub
  | .octetstring lb ub ext => ext = false ∧ SizeCanonical lb ub
  | .charstring _ lb ub ext => ext = false ∧ TextCanonical lb ub
  | .objectIdentifier => True
  | .sequence ext n fs => ext = false ∧ (∀ i, i < n → i ∈ fs.indexes) ∧ fs.Canonical
  | .sequenceOf lb ub ext e => ext = false ∧ SizeCanonical lb ub ∧ e.Canonical
  | .choice lb ub _ as => ub - lb + 1 ≤ 65536 ∧ as.Canonical
  | .openType _ => False

/-- Each field. -/
def Fields.Canonical : Fields → Prop
  | .nil => True
  | .required _ t rest => t.Canonical ∧ rest.Canonical
  | .optional _ t rest => t.Canonical ∧ rest.Canonical

/-- Each variant. -/
def Alts.Canonical : Alts → Prop
  | .nil => True
  | .cons _ _ t rest => t.Canonical ∧ rest.Canonical

end

mutual

/-- Every list in the value has a size its type permits. -/
def Ty.SizesKept : (t : Ty) → t.Val → Prop
  | .sequence _ _ fs, v => fs.SizesKept v
  | .sequenceOf lb ub _ e, v =>
      Within lb ub (List.length v) ∧ ∀ x ∈ (show List e.Val from v), e.SizesKept x
  | .choice _ _ _ as, v => as.SizesKept v
  | .openType as, v => as.SizesKept v
  | .boolean, _ | .null, _ | .integer .., _ | .enumerated .., _ | .bitstring .., _
  | .octetstring .., _ | .charstring .., _ | .objectIdentifier, _ => True

/-- Field by field. -/
def Fields.SizesKept : (fs : Fields) → fs.Val → Prop
  | .nil, _ => True
  | .required _ t rest, v => t.SizesKept v.1 ∧ rest.SizesKept v.2
  | .optional _ t rest, v =>
      (match v.1 with | some x => t.SizesKept x | none => True) ∧ rest.SizesKept v.2

/-- In the variant at hand. -/
def Alts.SizesKept : (as : Alts) → as.Val → Prop
  | .cons _ _ t _, .inl v => t.SizesKept v
  | .cons _ _ _ rest, .inr v => rest.SizesKept v

end

end Hampi
