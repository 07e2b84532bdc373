import Verif.Spec.Hostile
import Verif.Spec.DecodePanics
/-!
# Types whose decoder does not panic, or not on short messages

As `Ty.Sane` (Spec/Hostile.lean), with the exact conditions on bounds (Spec/DecodePanics.lean) and, for short
messages, with extensible CHOICE and ENUMERATED types. A computation, so that it can be asked of the types of a
whole protocol.
-/
namespace Hampi

open Spec (IntPanics IntegerPanics SizePanics NotUsize)

instance (lb ub : Int) : Decidable (IntPanics lb ub) := by unfold IntPanics; infer_instance

instance : (lb ub : Option Int) → Decidable (IntegerPanics lb ub)
  | none, _ => .isFalse id
  | some _, none => .isTrue trivial
  | some lb, some ub => inferInstanceAs (Decidable (IntPanics lb ub))

/-- The bounds are `i128` numbers. -/
def i128Bounds (lb ub : Option Int) : Bool := lb.all (fun l => decide (IsI128 l)) && ub.all fun u => decide (IsI128 u)

/-- `SizePanics`, computed. -/
def sizePanics (lb ub : Option Int) : Bool :=
  lb.any (fun l => decide (l < 0 ∨ 2 ^ 64 ≤ l)) || ub.any (fun u => decide (u < 0 ∨ 2 ^ 64 ≤ u)) ||
    match lb, ub with
    | some l, some u => decide (u < 65536 ∧ u < l)
    | _, _ => false

/-- The length of such a list is never read as 0. -/
def neverEmpty (lb ub : Option Int) (ext : Bool) : Bool :=
  match lb, ub with
  | some l, some u => !ext && decide (1 ≤ l ∧ u < 65536)
  | _, _ => false

mutual

/-- No attribute of the type makes the decoder panic; with `short`, not on short messages. -/
def Ty.sane (short : Bool) : Ty → Bool
  | .boolean | .null | .objectIdentifier => true
  | .integer _ lb ub _ => i128Bounds lb ub && decide (¬ IntegerPanics lb ub)
  | .enumerated _ lb ub ext => (short || !ext) && i128Bounds lb ub && decide (¬ IntegerPanics lb ub)
  | .bitstring lb ub _ | .octetstring lb ub _ | .charstring _ lb ub _ => !sizePanics lb ub
  | .sequence _ n fs => fs.sane short n
  | .sequenceOf lb ub ext e => (ext || !sizePanics lb ub) && e.sane short && (e.solid || neverEmpty lb ub ext)
  | .choice lb ub ext as => (short || !ext) && decide (IsI128 lb) && decide (¬ IntPanics lb ub) && as.sane short
  | .openType as => as.sane short

/-- All fields; `n` is the size of the bitmap. -/
def Fields.sane (short : Bool) (n : Nat) : Fields → Bool
  | .nil => true
  | .required _ t rest => t.sane short && rest.sane short n
  | .optional i t rest => decide (i < n) && t.sane short && rest.sane short n

/-- All variants. -/
def Alts.sane (short : Bool) : Alts → Bool
  | .nil => true
  | .cons _ _ t rest => t.sane short && rest.sane short

end

end Hampi
