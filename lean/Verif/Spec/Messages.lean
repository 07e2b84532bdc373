import Verif.Spec.Keys
import Verif.Spec.Padding
/-!
# The messages of NGAP, S1AP and RANAP

All three protocols wrap their messages in the same envelope: a CHOICE of records with a procedure
code, a criticality and an open type selected by the procedure code.
-/
namespace Hampi

/-- The record around a message. -/
def envelope (messages : Alts) : Ty :=
  .sequence false 0
    (.required true (.integer .u8 (some 0) (some 255) false)
    (.required false (.enumerated .u8 (some 0) (some 2) false)
    (.required false (.openType messages) .nil)))

/-- The envelopes, numbered from `first`. -/
def envelopes : (first : Int) → List Alts → Alts
  | _, [] => .nil
  | i, as :: rest => .cons i false (envelope as) (envelopes (i + 1) rest)

/-- A protocol data unit: the kinds of messages it distinguishes. -/
def pdu (kinds : List Alts) : Ty := .choice 0 (kinds.length - 1) true (envelopes 0 kinds)

/-- The kind of a message (its position in the CHOICE) and its procedure code. -/
def procedure : (kinds : List Alts) → (first : Nat) → (envelopes first kinds).Val → Nat × Int
  | _ :: _, i, .inl v => (i, (show Int × _ from v).1)
  | _ :: rest, i, .inr v => procedure rest (i + 1) v

end Hampi
