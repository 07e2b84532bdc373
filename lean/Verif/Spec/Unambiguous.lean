import Verif.Spec.Derived
/-!
# The values a derived type can carry

As `Ty.Wf` (Spec/Derived.lean) but without the restrictions that come from mistakes of the decoders: any integer
of the Rust type, any character string, and empty lists are allowed.
-/
namespace Hampi

open Spec (SizeBounds)

mutual

/-- The value is one of the Rust type, and within the sizes the encoder can express; the index attributes of
fields and variants are distinct. -/
def Ty.Sendable : (t : Ty) → t.Val → Prop
  | .boolean, _ => True
  | .null, _ => True
  | .integer w _ _ _, v => w.Fits v
  | .enumerated w _ _ _, v => w.Fits v
  | .bitstring lb ub _, _ => SizeBounds lb ub
  | .octetstring lb ub _, _ => SizeBounds lb ub
  | .charstring _ lb ub _, _ => SizeBounds lb ub
  | .objectIdentifier, _ => True
  | .sequence _ n fs, v => fs.IndexesOk n ∧ fs.Sendable v
  | .sequenceOf lb ub ext e, v =>
      (if ext then List.length v < 16384 else SizeOk lb ub (List.length v)) ∧
        ∀ x ∈ (show List e.Val from v), e.Sendable x
  | .choice _ _ _ as, v => as.Selects (as.keyOf v) v ∧ IsI128 (as.keyOf v) ∧ as.Sendable v
  | .openType as, v => as.Sendable v

/-- All fields present. -/
def Fields.Sendable : (fs : Fields) → fs.Val → Prop
  | .nil, _ => True
  | .required _ t rest, v => t.Sendable v.1 ∧ rest.Sendable v.2
  | .optional _ t rest, v => (match v.1 with | some x => t.Sendable x | none => True) ∧ rest.Sendable v.2

/-- The variant at hand. -/
def Alts.Sendable : (as : Alts) → as.Val → Prop
  | .cons _ _ t _, .inl v => t.Sendable v
  | .cons _ _ _ rest, .inr v => rest.Sendable v

end

end Hampi
