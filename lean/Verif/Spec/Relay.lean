import Verif.Spec.Derived
/-!
# Values that can be passed on
-/
namespace Hampi

/-- The bound of a size, if there is one, is a `usize`. -/
def usizeBound : Option Int → Bool
  | none => true
  | some b => decide (0 ≤ b ∧ b < 2 ^ 64)

mutual

/-- The attributes are such as the compiler writes: bounds of sizes are `usize`s, the optional fields of a struct have
bits of their own in its bitmap, and there is a lower bound where the Rust type is `u64`. -/
def Ty.Usual : Ty → Bool
  | .boolean | .null | .objectIdentifier => true
  | .integer w lb _ _ | .enumerated w lb _ _ => lb.isSome || decide (w ≠ .u64)
  | .bitstring lb ub _ | .octetstring lb ub _ | .charstring _ lb ub _ => usizeBound lb && usizeBound ub
  | .sequence _ n fs => decide fs.indexes.Nodup && fs.indexes.all (fun i => decide (i < n)) && fs.Usual
  | .sequenceOf _ _ _ e => e.Usual
  | .choice _ _ _ as => as.Usual
  | .openType as => as.Usual

/-- All fields. -/
def Fields.Usual : Fields → Bool
  | .nil => true
  | .required _ t rest => t.Usual && rest.Usual
  | .optional _ t rest => t.Usual && rest.Usual

/-- All variants. -/
def Alts.Usual : Alts → Bool
  | .nil => true
  | .cons _ _ t rest => t.Usual && rest.Usual

end

mutual

/-- What the encoder does not write as it should, or the decoder would not read, is not in the value: lists with a
number of elements that their type does not permit, or of 16K elements and more if no bound is below 64K (C40, C41);
text of one or two octets whose length need not start at an octet boundary (C13). -/
def Ty.Relayable : (t : Ty) → t.Val → Prop
  | .charstring _ lb ub _, v => 2 < (utf8 v).length ∨ utf8 v = [] ∨ lengthAligns lb ub = true
  | .sequence _ _ fs, v => fs.Relayable v
  | .sequenceOf lb ub ext e, v =>
      (if ext then List.length v < 16384 else SizeOk lb ub (List.length v)) ∧
        ∀ x ∈ (show List e.Val from v), e.Relayable x
  | .choice _ _ _ as, v => as.Relayable v
  | .openType as, v => as.Relayable v
  | .boolean, _ | .null, _ | .integer .., _ | .enumerated .., _ | .bitstring .., _ | .octetstring .., _
  | .objectIdentifier, _ => True

/-- Field by field. -/
def Fields.Relayable : (fs : Fields) → fs.Val → Prop
  | .nil, _ => True
  | .required _ t rest, v => t.Relayable v.1 ∧ rest.Relayable v.2
  | .optional _ t rest, v => (match v.1 with | some x => t.Relayable x | none => True) ∧ rest.Relayable v.2

/-- In the variant at hand. -/
def Alts.Relayable : (as : Alts) → as.Val → Prop
  | .cons _ _ t _, .inl v => t.Relayable v
  | .cons _ _ _ rest, .inr v => rest.Relayable v

end

end Hampi
