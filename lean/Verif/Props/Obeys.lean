import Verif.Lemmas.Obeys
import Verif.Props.Relay
import Verif.Lemmas.WfDec
/-!
# C131: only values that obey their type get through
-/
namespace Hampi
open Spec (Within)

/-- **C131 (partial).** Full statement: a value that is encoded without error obeys its type. Proved for types in which
a number with an upper bound has a lower bound too, and for values whose lists are of permitted sizes and whose text is
of the alphabet of its type (`Ty.Careful`). Missing, because false: see `C131_lists_violated`,
`C131_alphabet_violated`, `C131_characters_violated` and `C131_upper_bound_violated`. -/
theorem C131_sent_partial (t : Ty) (ht : t.Floored = true) (v : t.Val) (hv : t.Careful true v) (s s' : Codec)
    (h : t.encode v s = .ok () s') : t.Obeys v :=
  t.encode_obeys ht v hv s s' h

/-- **C131 (partial).** As above, for NGAP messages. -/
theorem C131_ngap_sent_partial (v : Ngap.NGAP_PDU.Val) (hv : Ngap.NGAP_PDU.Careful true v) (s' : Codec)
    (h : Ngap.NGAP_PDU.encode v Codec.new = .ok () s') : Ngap.NGAP_PDU.Obeys v :=
  C131_sent_partial _ (by decide +kernel) v hv _ _ h

/-- **C131 (partial).** As above, for S1AP messages. -/
theorem C131_s1ap_sent_partial (v : S1ap.S1AP_PDU.Val) (hv : S1ap.S1AP_PDU.Careful true v) (s' : Codec)
    (h : S1ap.S1AP_PDU.encode v Codec.new = .ok () s') : S1ap.S1AP_PDU.Obeys v :=
  C131_sent_partial _ (by decide +kernel) v hv _ _ h

/-- **C131 (partial).** As above, for RANAP messages. -/
theorem C131_ranap_sent_partial (v : Ranap.RANAP_PDU.Val) (hv : Ranap.RANAP_PDU.Careful true v) (s' : Codec)
    (h : Ranap.RANAP_PDU.encode v Codec.new = .ok () s') : Ranap.RANAP_PDU.Obeys v :=
  C131_sent_partial _ (by decide +kernel) v hv _ _ h

/-- **C131 (partial).** Full statement: whatever octets are received, the value they are decoded to obeys its type.
Proved for types whose bounds leave no room for values outside them (`Ty.Filled`), and for values whose text is of the
alphabet of its type. Missing, because false: see `C131_ngap_received_violated` and `C131_alphabet_violated`. -/
theorem C131_received_partial (t : Ty) (ht : t.Filled = true) (octets : List UInt8) (v : t.Val) (s : Codec)
    (h : t.decode (Codec.fromSlice octets) = .ok v s) (hv : t.Careful false v) : t.Obeys v :=
  t.decode_obeys ht _ _ _ h hv

/-! ## Deciding, for the examples -/

mutual

def Ty.decObeys : (t : Ty) → (v : t.Val) → Decidable (t.Obeys v)
  | .boolean, _ | .null, _ | .objectIdentifier, _ => .isTrue trivial
  | .integer _ lb ub ext, v => inferInstanceAs (Decidable (ext = true ∨ Within lb ub (show Int from v)))
  | .enumerated _ lb ub ext, v => inferInstanceAs (Decidable (ext = true ∨ Within lb ub (show Int from v)))
  | .bitstring lb ub ext, v => inferInstanceAs (Decidable (ext = true ∨ Within lb ub (List.length (α := Bool) v)))
  | .octetstring lb ub ext, v => inferInstanceAs (Decidable (ext = true ∨ Within lb ub (List.length (α := UInt8) v)))
  | .charstring k lb ub ext, v => inferInstanceAs (Decidable
      ((ext = true ∨ Within lb ub (String.length v)) ∧ ∀ c ∈ String.toList v, inAlphabet k c = true))
  | .sequence _ _ fs, v => fs.decObeys v
  | .sequenceOf lb ub ext e, v =>
      have : ∀ x : e.Val, Decidable (e.Obeys x) := e.decObeys
      inferInstanceAs (Decidable
        ((ext = true ∨ Within lb ub (List.length v)) ∧ ∀ x ∈ (show List e.Val from v), e.Obeys x))
  | .choice _ _ _ as, v => as.decObeys v
  | .openType as, v => as.decObeys v

def Fields.decObeys : (fs : Fields) → (v : fs.Val) → Decidable (fs.Obeys v)
  | .nil, _ => .isTrue trivial
  | .required _ t rest, v => @instDecidableAnd _ _ (t.decObeys v.1) (rest.decObeys v.2)
  | .optional _ t rest, (some x, v) => @instDecidableAnd _ _ (t.decObeys x) (rest.decObeys v)
  | .optional _ _ rest, (none, v) => @instDecidableAnd _ _ (.isTrue trivial) (rest.decObeys v)

def Alts.decObeys : (as : Alts) → (v : as.Val) → Decidable (as.Obeys v)
  | .cons _ _ t _, .inl v => t.decObeys v
  | .cons _ _ _ rest, .inr v => rest.decObeys v

end

instance (t : Ty) (v : t.Val) : Decidable (t.Obeys v) := t.decObeys v

mutual

def Ty.decCareful (lists : Bool) : (t : Ty) → (v : t.Val) → Decidable (t.Careful lists v)
  | .boolean, _ | .null, _ | .objectIdentifier, _ | .integer .., _ | .enumerated .., _ | .bitstring .., _
  | .octetstring .., _ => .isTrue trivial
  | .charstring k lb _ _, v =>
      have : Decidable (∀ l, lb = some l → l ≤ 0) :=
        decidable_of_iff ((lb.all fun l => decide (l ≤ 0)) = true) (by cases lb <;> simp)
      inferInstanceAs (Decidable ((∀ c ∈ String.toList v, inAlphabet k c = true) ∧
        (k = .utf8 → (∀ l, lb = some l → l ≤ 0) ∨ ∀ c ∈ String.toList v, c.toNat < 128)))
  | .sequence _ _ fs, v => fs.decCareful lists v
  | .sequenceOf lb ub ext e, v =>
      have : ∀ x : e.Val, Decidable (e.Careful lists x) := e.decCareful lists
      inferInstanceAs (Decidable ((lists = true → ext = true ∨ Within lb ub (List.length v)) ∧
        ∀ x ∈ (show List e.Val from v), e.Careful lists x))
  | .choice _ _ _ as, v => as.decCareful lists v
  | .openType as, v => as.decCareful lists v

def Fields.decCareful (lists : Bool) : (fs : Fields) → (v : fs.Val) → Decidable (fs.Careful lists v)
  | .nil, _ => .isTrue trivial
  | .required _ t rest, v => @instDecidableAnd _ _ (t.decCareful lists v.1) (rest.decCareful lists v.2)
  | .optional _ t rest, (some x, v) => @instDecidableAnd _ _ (t.decCareful lists x) (rest.decCareful lists v)
  | .optional _ _ rest, (none, v) => @instDecidableAnd _ _ (.isTrue trivial) (rest.decCareful lists v)

def Alts.decCareful (lists : Bool) : (as : Alts) → (v : as.Val) → Decidable (as.Careful lists v)
  | .cons _ _ t _, .inl v => t.decCareful lists v
  | .cons _ _ _ rest, .inr v => rest.decCareful lists v

end

instance (lists : Bool) (t : Ty) (v : t.Val) : Decidable (t.Careful lists v) := t.decCareful lists v

/-- The octets are received, and the value obeys its type if and only if `obeys`. -/
def Ty.receives (t : Ty) (octets : List UInt8) (obeys : Bool) : Bool :=
  match t.decode (Codec.fromSlice octets) with
  | .ok v _ => decide (t.Obeys v) == obeys
  | _ => false

theorem Ty.receives_spec {t : Ty} {octets : List UInt8} (h : t.receives octets false = true) :
    ∃ v s, t.decode (Codec.fromSlice octets) = .ok v s ∧ ¬ t.Obeys v := by
  unfold Ty.receives at h
  split at h
  · next v s h1 => exact ⟨v, s, h1, by simpa using h⟩
  · cases h

/-- The octets are received, and the value is such as the theorems ask for and is sent again. -/
def Ty.resends (t : Ty) (octets : List UInt8) : Bool :=
  match t.decode (Codec.fromSlice octets) with
  | .ok v _ => decide (t.Careful true v) && (match t.encode v Codec.new with | .ok _ _ => true | _ => false)
  | _ => false

/-- The theorem on NGAP messages applies to the NG SETUP REQUEST of the tests of /repo. -/
example : Ngap.NGAP_PDU.resends setupRequest = true := by decide +kernel

/-- A number from 0 to 3, from one to four octets, one or two numbers up to 255, and two printable characters. -/
def filledRecord : Ty :=
  .sequence false 0 (.required false (.integer .u8 (some 0) (some 3) false)
    (.required false (.octetstring (some 1) (some 4) false)
    (.required false (.sequenceOf (some 1) (some 2) false (.integer .u8 (some 0) (some 255) false))
    (.required false (.charstring .printable (some 4) (some 4) false) .nil))))

example : filledRecord.Filled = true ∧ filledRecord.receives [0xa0, 0x01, 0x02, 0x03, 0x80, 0x05, 0x06, 65, 66, 67, 68] true = true := by
  constructor <;> decide +kernel

/-! ## Where it fails -/

/-- The NG SETUP REQUEST of the tests of /repo, but its criticality, an ENUMERATED of three values, is 3. -/
def criticalityThree : List UInt8 := setupRequest.set 2 0xc0

/-- **C131 is violated** by octets received: an NGAP message is accepted whose criticality is none of `reject`,
`ignore` and `notify`. -/
theorem C131_ngap_received_violated : ∃ v s,
    Ngap.NGAP_PDU.decode (Codec.fromSlice criticalityThree) = .ok v s ∧ ¬ Ngap.NGAP_PDU.Obeys v :=
  Ty.receives_spec (by decide +kernel)

/-- At most two truth values. -/
def flags : Ty := .sequenceOf (some 1) (some 2) false .boolean
def threeFlags : flags.Val := show List Bool from [true, true, true]
instance : DecidableEq flags.Val := inferInstanceAs (DecidableEq (List Bool))

/-- **C131 is violated** by lists: three elements are sent where two are permitted. -/
theorem C131_lists_violated : (∃ s', flags.encode threeFlags Codec.new = .ok () s') ∧ ¬ flags.Obeys threeFlags :=
  ⟨⟨⟨[true, true, true], 0, none⟩, by decide +kernel⟩, by decide +kernel⟩

/-- From one to eight printable characters. -/
def printable8 : Ty := .charstring .printable (some 1) (some 8) false
def asterisk : printable8.Val := show String from "A*B"
instance : DecidableEq printable8.Val := inferInstanceAs (DecidableEq String)

/-- **C131 is violated** by PrintableStrings, when sent and when received: an asterisk is none of their characters. -/
theorem C131_alphabet_violated : (∃ s', printable8.encode asterisk Codec.new = .ok () s') ∧
    (∃ s, printable8.decode (Codec.fromSlice [0x40, 65, 42, 66]) = .ok asterisk s) ∧ ¬ printable8.Obeys asterisk :=
  ⟨⟨⟨bytesBits [0x40, 65, 42, 66], 0, none⟩, by decide +kernel⟩,
    ⟨⟨bytesBits [0x40, 65, 42, 66], 32, none⟩, by decide +kernel⟩, by decide +kernel⟩

/-- From three to ten characters. -/
def unicode10 : Ty := .charstring .utf8 (some 3) (some 10) false
def umlauts : unicode10.Val := show String from "éü"

/-- **C131 is violated** by UTF8Strings with a lower bound on their size: it is the octets that are counted, not the
characters. -/
theorem C131_characters_violated :
    (∃ s', unicode10.encode umlauts Codec.new = .ok () s') ∧ ¬ unicode10.Obeys umlauts :=
  ⟨⟨⟨bytesBits [0x20, 0xc3, 0xa9, 0xc3, 0xbc], 0, none⟩, by decide +kernel⟩, by decide +kernel⟩

/-- `INTEGER (MIN..10)`. -/
def atMostTen : Ty := .integer .i8 none (some 10) false
def twenty : atMostTen.Val := show Int from 20
instance : DecidableEq atMostTen.Val := inferInstanceAs (DecidableEq Int)

/-- **C131 is violated** by numbers with an upper bound only: the bound is ignored, when sent and when received. -/
theorem C131_upper_bound_violated : (∃ s', atMostTen.encode twenty Codec.new = .ok () s') ∧
    (∃ s, atMostTen.decode (Codec.fromSlice [1, 20]) = .ok twenty s) ∧ ¬ atMostTen.Obeys twenty :=
  ⟨⟨⟨bytesBits [1, 20], 0, none⟩, by decide +kernel⟩,
    ⟨⟨bytesBits [1, 20], 16, none⟩, by decide +kernel⟩, by decide +kernel⟩

end Hampi
