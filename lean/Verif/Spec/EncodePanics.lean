import Verif.Spec.Derived
/-!
# Values a derived encoder takes without panic
-/
namespace Hampi

open Spec (SizeBounds)

/-- The bounds of an integer are not so far apart that their distance leaves an `i128`. -/
def SpanOk (lb ub : Option Int) : Prop :=
  match lb, ub with
  | some l, some u => u - l + 1 < 2 ^ 127
  | some l, none => -(2 ^ 126) ≤ l ∧ l ≤ 2 ^ 126
  | none, _ => True

mutual

/-- Bounds of reasonable size, numbers that fit their Rust type, no empty list of an extensible size, no open
type without content. Nothing is said of the value satisfying its constraints. -/
def Ty.Encodable : (t : Ty) → t.Val → Prop
  | .boolean, _ => True
  | .null, _ => True
  | .integer w lb ub _, v => w.Fits v ∧ SpanOk lb ub
  | .enumerated w lb ub _, v => w.Fits v ∧ SpanOk lb ub
  | .bitstring lb ub _, _ => SizeBounds lb ub
  | .octetstring lb ub _, _ => SizeBounds lb ub
  | .charstring _ lb ub _, _ => SizeBounds lb ub
  | .objectIdentifier, _ => True
  | .sequence _ n fs, v => (∀ i ∈ fs.indexes, i < n) ∧ fs.Encodable v
  | .sequenceOf lb ub ext e, v =>
      SizeBounds lb ub ∧ (ext = true → v ≠ []) ∧ ∀ x ∈ (show List e.Val from v), e.Encodable x
  | .choice lb ub _ as, v => ub - lb + 1 < 2 ^ 127 ∧ IsI128 (as.keyOf v) ∧ as.Encodable v
  | .openType as, v => as.Encodable v ∧ ∀ s', as.encode v Codec.new = .ok () s' → s'.bits ≠ []

/-- All fields present. -/
def Fields.Encodable : (fs : Fields) → fs.Val → Prop
  | .nil, _ => True
  | .required _ t rest, v => t.Encodable v.1 ∧ rest.Encodable v.2
  | .optional _ t rest, v =>
      (match v.1 with | some x => t.Encodable x | none => True) ∧ rest.Encodable v.2

/-- The variant's content. -/
def Alts.Encodable : (as : Alts) → as.Val → Prop
  | .cons _ _ t _, .inl v => t.Encodable v
  | .cons _ _ _ rest, .inr v => rest.Encodable v

end

end Hampi
