import Verif.Spec.Messages
import Verif.Examples.Ngap
import Verif.Examples.S1ap
import Verif.Examples.Ranap
import Verif.Props.Padding
import Verif.Props.Hostile
import Verif.Lemmas.WfDec
/-!
# The messages of NGAP, S1AP and RANAP (C110, C111)

The types generated for the three protocols are in examples/tests; `Verif/Examples` holds them as types
of the derive universe.
-/
namespace Hampi

/-! ## Which messages always come back -/

/-- The alternatives of an open type. -/
def Ty.alternatives : Ty → Alts
  | .openType as => as
  | _ => .nil

/-- All alternatives but those with the keys `except` pass the checks on padding and keys. -/
def Alts.covers : Alts → (except : List Int) → Bool
  | .nil, _ => true
  | .cons k _ t rest, except =>
      (except.contains k || ((t.flow false).isSome && t.keysLocal false)) && rest.covers except

theorem Alts.covers_spec : (as : Alts) → (except : List Int) → as.covers except = true →
    (v : as.Val) → (k : Int) → as.Selects k v → k ∉ except → as.Wf v → as.Announced v →
    (∃ c, as.track v false = some c) ∧ ∀ key, as.KeysOk v key
  | .cons k x t rest, except, hc, .inl v, k', hs, he, hw, ha => by
    have hs : k' = k := hs
    subst hs
    simp only [Alts.covers, Bool.and_eq_true, Bool.or_eq_true, List.contains_iff_mem] at hc
    rcases hc.1 with h | ⟨h1, h2⟩
    · exact absurd h he
    · obtain ⟨c, hc⟩ := Option.isSome_iff_exists.mp h1
      obtain ⟨c', h3, -⟩ := Ty.flow_track t v false c false hc hw id
      exact ⟨⟨c', h3⟩, fun key => (Ty.announced_iff t v false none key h2 (fun h => nomatch h)).mp ha⟩
  | .cons k x t rest, except, hc, .inr v, k', hs, he, hw, ha => by
    simp only [Alts.covers, Bool.and_eq_true] at hc
    exact Alts.covers_spec rest except hc.2 v k' hs.2 he hw ha

/-- The envelope adds nothing that could go wrong. -/
theorem envelope_good {as : Alts} {except : List Int} (hc : as.covers except = true)
    (v : (envelope as).Val) (he : (show Int × _ from v).1 ∉ except) (hw : (envelope as).Wf v)
    (ha : (envelope as).Announced v none) :
    (∃ c, (envelope as).track v false = some c) ∧ ∀ key, (envelope as).KeysOk v key := by
  change Int × Int × as.Val × Unit at v
  obtain ⟨code, crit, x, ⟨⟩⟩ := v
  obtain ⟨-, -, -, hw, -⟩ := hw
  obtain ⟨-, -, ⟨⟨k, hk, hs⟩, ha⟩, -⟩ := ha
  have hk : some code = some k := hk
  cases hk
  obtain ⟨⟨c, h1⟩, h2⟩ := Alts.covers_spec as except hc x code hs he hw ha
  refine ⟨⟨c || endsInside (as.encode x), ?_⟩, fun key => ⟨trivial, trivial, ⟨⟨code, rfl, hs⟩, h2 _⟩, trivial⟩⟩
  show (match (match as.track x false with | none => none | some c => some (c || endsInside (as.encode x))) with
    | none => none | some c => some c) = _
  rw [h1]

/-- All kinds pass the checks but for the procedures `except`. -/
def coversAll : List Alts → (first : Nat) → (except : List (Nat × Int)) → Bool
  | [], _, _ => true
  | as :: rest, i, except =>
      as.covers ((except.filter fun p => p.1 == i).map (·.2)) && coversAll rest (i + 1) except

theorem envelopes_good : (kinds : List Alts) → (i : Nat) → (except : List (Nat × Int)) →
    coversAll kinds i except = true → (v : (envelopes i kinds).Val) → procedure kinds i v ∉ except →
    (envelopes i kinds).Wf v → (envelopes i kinds).Announced v →
    (∃ c, (envelopes i kinds).track v false = some c) ∧ ∀ key, (envelopes i kinds).KeysOk v key
  | as :: rest, i, except, hc, .inl v, he, hw, ha => by
    simp only [coversAll, Bool.and_eq_true] at hc
    refine envelope_good hc.1 v (fun hm => he ?_) hw ha
    simp only [List.mem_map, List.mem_filter, beq_iff_eq] at hm
    obtain ⟨⟨j, c⟩, ⟨h1, h2⟩, h3⟩ := hm
    simp only at h2 h3
    subst h2
    rw [show procedure (as :: rest) j (.inl v) = (j, (show Int × _ from v).1) from rfl, ← h3]
    exact h1
  | as :: rest, i, except, hc, .inr v, he, hw, ha => by
    simp only [coversAll, Bool.and_eq_true] at hc
    exact envelopes_good rest (i + 1) except hc.2 v he hw ha

/-- A message as octets. -/
theorem octets_round_trip (t : Ty) (v : t.Val) (hw : t.Wf v) (c : Bool) (hu : t.track v false = some c)
    (hk : t.KeysOk v none) (s' : Codec) (h : t.encode v Codec.new = .ok () s') :
    ∃ r, t.decode (Codec.fromSlice s'.intoBytes) = .ok v r ∧ s'.bits.length < r.off + 8 := by
  obtain ⟨w, e, hr⟩ := C36_round_trip_value_partial t v hw c hu Codec.new s' h
  have hb : s'.bits = w := by rw [e]; rfl
  obtain ⟨off, h1, -, -, h2, -⟩ := hr [] (List.replicate (padLen s'.bits.length) false) none rfl hk
  have e : Codec.fromSlice s'.intoBytes =
      ⟨[] ++ w ++ List.replicate (padLen s'.bits.length) false, 0, none⟩ := by
    unfold Codec.fromSlice Codec.intoBytes
    rw [bytesBits_bitsBytes, hb]
    rfl
  rw [e]
  exact ⟨_, h1, by rw [hb]; simpa using h2⟩

/-- The round trip of a protocol data unit. -/
theorem pdu_round_trip (kinds : List Alts) (except : List (Nat × Int))
    (hc : coversAll kinds 0 except = true) (v : (pdu kinds).Val) (hw : (pdu kinds).Wf v)
    (ha : (pdu kinds).Announced v none) (he : procedure kinds 0 v ∉ except) (s' : Codec)
    (h : (pdu kinds).encode v Codec.new = .ok () s') :
    ∃ r, (pdu kinds).decode (Codec.fromSlice s'.intoBytes) = .ok v r ∧ s'.bits.length < r.off + 8 := by
  obtain ⟨⟨c, h1⟩, h2⟩ := envelopes_good kinds 0 except hc v he hw.2.2 ha
  exact octets_round_trip (pdu kinds) v hw c h1 (h2 none) s' h

/-! ## C110: NGAP -/

/-- The messages of NGAP by kind. -/
def ngap : List Alts := [Ngap.InitiatingMessageValue.alternatives, Ngap.SuccessfulOutcomeValue.alternatives,
  Ngap.UnsuccessfulOutcomeValue.alternatives]

theorem ngap_pdu : Ngap.NGAP_PDU = pdu ngap := rfl

/-- The NGAP messages that may fail to come back (kind and procedure code): 21 of 97. -/
def ngapExcept : List (Nat × Int) :=
  [0, 4, 6, 7, 54, 12, 13, 14, 18, 16, 21, 26, 35, 58, 59, 48, 49, 53].map (0, ·) ++
    [0, 21, 41].map (1, ·)

/-- **C110 (partial), NGAP.** Full statement: every well-formed protocol data unit of the generated
types, with messages and information elements announced by their codes, is decoded from the octets it
is encoded to. Proved for all but 21 of the 97 messages of NGAP, and for the values of these 21 in
which no padding is misread (`Ty.track`). Missing, because false: `C110_ngap_violated`. -/
theorem C110_ngap_partial (v : Ngap.NGAP_PDU.Val) (hw : Ngap.NGAP_PDU.Wf v)
    (ha : Ngap.NGAP_PDU.Announced v none)
    (he : procedure ngap 0 v ∉ ngapExcept ∨ ∃ c, Ngap.NGAP_PDU.track v false = some c) (s' : Codec)
    (h : Ngap.NGAP_PDU.encode v Codec.new = .ok () s') :
    ∃ r, Ngap.NGAP_PDU.decode (Codec.fromSlice s'.intoBytes) = .ok v r ∧ s'.bits.length < r.off + 8 := by
  rcases he with he | ⟨c, hc⟩
  · exact pdu_round_trip ngap ngapExcept (by decide +kernel) v hw ha he s' h
  · refine octets_round_trip _ v hw c hc ?_ s' h
    exact (Ty.announced_iff Ngap.NGAP_PDU v false none none (by decide +kernel) (fun h => nomatch h)).mp ha

/-! ## C110: S1AP -/

/-- The messages of S1AP by kind. -/
def s1ap : List Alts := [S1ap.InitiatingMessageValue.alternatives, S1ap.SuccessfulOutcomeValue.alternatives,
  S1ap.UnsuccessfulOutcomeValue.alternatives]

theorem s1ap_pdu : S1ap.S1AP_PDU = pdu s1ap := rfl

/-- The S1AP messages that may fail to come back: 11 of 98. -/
def s1apExcept : List (Nat × Int) :=
  [5, 29, 9, 41, 30, 10, 17, 55, 40].map (0, ·) ++ [17, 23].map (1, ·)

/-- **C110 (partial), S1AP.** As `C110_ngap_partial`, for all but 11 of the 98 messages of S1AP. -/
theorem C110_s1ap_partial (v : S1ap.S1AP_PDU.Val) (hw : S1ap.S1AP_PDU.Wf v)
    (ha : S1ap.S1AP_PDU.Announced v none)
    (he : procedure s1ap 0 v ∉ s1apExcept ∨ ∃ c, S1ap.S1AP_PDU.track v false = some c) (s' : Codec)
    (h : S1ap.S1AP_PDU.encode v Codec.new = .ok () s') :
    ∃ r, S1ap.S1AP_PDU.decode (Codec.fromSlice s'.intoBytes) = .ok v r ∧ s'.bits.length < r.off + 8 := by
  rcases he with he | ⟨c, hc⟩
  · exact pdu_round_trip s1ap s1apExcept (by decide +kernel) v hw ha he s' h
  · refine octets_round_trip _ v hw c hc ?_ s' h
    exact (Ty.announced_iff S1ap.S1AP_PDU v false none none (by decide +kernel) (fun h => nomatch h)).mp ha

/-! ## C110: RANAP -/

/-- The messages of RANAP by kind. -/
def ranap : List Alts := [Ranap.InitiatingMessageValue.alternatives,
  Ranap.SuccessfulOutcomeValue.alternatives, Ranap.UnsuccessfulOutcomeValue.alternatives,
  Ranap.OutcomeValue.alternatives]

theorem ranap_pdu : Ranap.RANAP_PDU = pdu ranap := rfl

/-- The RANAP messages that may fail to come back: 39 of 85. -/
def ranapExcept : List (Nat × Int) :=
  [22, 0, 28, 45, 3].map (0, ·) ++
    [7, 31, 1, 30, 40, 42, 39, 35, 37, 36, 45, 4, 2, 3, 9, 27, 5, 6, 33, 43].map (1, ·) ++
    [31, 30, 42, 39, 35, 36, 2, 3, 6, 33, 43].map (2, ·) ++ [38, 0, 46].map (3, ·)

/-- **C110 (partial), RANAP.** As `C110_ngap_partial`, for all but 39 of the 85 messages of RANAP; for
these the keys must also be those in force in the decoder (`Ty.KeysOk`). -/
theorem C110_ranap_partial (v : Ranap.RANAP_PDU.Val) (hw : Ranap.RANAP_PDU.Wf v)
    (ha : Ranap.RANAP_PDU.Announced v none)
    (he : procedure ranap 0 v ∉ ranapExcept ∨
      (∃ c, Ranap.RANAP_PDU.track v false = some c) ∧ Ranap.RANAP_PDU.KeysOk v none) (s' : Codec)
    (h : Ranap.RANAP_PDU.encode v Codec.new = .ok () s') :
    ∃ r, Ranap.RANAP_PDU.decode (Codec.fromSlice s'.intoBytes) = .ok v r ∧ s'.bits.length < r.off + 8 := by
  rcases he with he | ⟨⟨c, hc⟩, hk⟩
  · exact pdu_round_trip ranap ranapExcept (by decide +kernel) v hw ha he s' h
  · exact octets_round_trip _ v hw c hc hk s' h

/-! ## Messages to which this applies -/

/-- The message of examples/tests/13-ngap.rs:16110: an NG SETUP REQUEST of the gNB "My little gNB". -/
def setupRequest : List UInt8 :=
  [0x00, 0x15, 0x40, 0x4a, 0x00, 0x00, 0x04, 0x00, 0x1b, 0x00, 0x08, 0x40, 0x02, 0xf8, 0x98, 0x00, 0x00,
    0x00, 0x00, 0x00, 0x52, 0x40, 0x0f, 0x06, 0x00, 0x4d, 0x79, 0x20, 0x6c, 0x69, 0x74, 0x74, 0x6c, 0x65,
    0x20, 0x67, 0x4e, 0x42, 0x00, 0x66, 0x00, 0x1f, 0x01, 0x00, 0x00, 0x00, 0x00, 0x00, 0x02, 0xf8, 0x98,
    0x00, 0x01, 0x00, 0x08, 0x00, 0x80, 0x00, 0x00, 0x01, 0x00, 0x02, 0xf8, 0x39, 0x00, 0x01, 0x00, 0x18,
    0x81, 0xc0, 0x00, 0x13, 0x88, 0x00, 0x15, 0x40, 0x01, 0x40]

/-- What `C110_ngap_partial` asks of a value, and that it encodes to these octets. -/
def meets (octets : List UInt8) (v : Ngap.NGAP_PDU.Val) : Bool :=
  decide (Ngap.NGAP_PDU.Wf v) && decide (Ngap.NGAP_PDU.Announced v none) &&
    (Ngap.NGAP_PDU.track v false).isSome &&
    (match Ngap.NGAP_PDU.encode v Codec.new with
      | .ok _ s => decide (s.intoBytes = octets)
      | _ => false)

-- The model decodes the message of the project's own test, the value meets the hypotheses of
-- `C110_ngap_partial`, and it is encoded to the same octets.
example : (match Ngap.NGAP_PDU.decode (Codec.fromSlice setupRequest) with
    | .ok v r => meets setupRequest v && decide (procedure ngap 0 v = (0, 21)) && decide (r.off = 619)
    | _ => false) = true := by decide +kernel

/-! ## C110: messages that do not come back -/

/-- `v` is permitted, encodes, and what its octets decode to is encoded differently. -/
def lost (t : Ty) (v : t.Val) : Bool :=
  decide (t.Wf v) && decide (t.Announced v none) &&
    (match t.encode v Codec.new with
      | .ok _ s => (match t.decode (Codec.fromSlice s.intoBytes) with
        | .ok w _ => (match t.encode w Codec.new with
          | .ok _ s' => decide (s'.intoBytes ≠ s.intoBytes)
          | _ => true)
        | _ => true)
      | _ => false)

theorem lost_spec (t : Ty) (v : t.Val) (h : lost t v = true) :
    t.Wf v ∧ t.Announced v none ∧ ∃ s', t.encode v Codec.new = .ok () s' ∧
      ∀ r, t.decode (Codec.fromSlice s'.intoBytes) ≠ .ok v r := by
  simp only [lost, Bool.and_eq_true, decide_eq_true_eq] at h
  obtain ⟨⟨h1, h2⟩, h3⟩ := h
  refine ⟨h1, h2, ?_⟩
  cases he : t.encode v Codec.new with
  | ok u s =>
    refine ⟨s, rfl, fun r hr => ?_⟩
    simp only [he, hr, ne_eq, not_true_eq_false, decide_false, Bool.false_eq_true] at h3
  | err s => simp [he] at h3
  | panic => simp [he] at h3

namespace NgapLost
open Ngap

/-- A backup type of GUAMI, as an extension of an item. -/
def extension : ServedGUAMIItemIE_Extensions.Val :=
  show List (Int × Int × (Int ⊕ Empty) × Unit) from [(176, 1, .inl 1, ())]

def guami (n : UInt8) : GUAMI.Val :=
  show List UInt8 × List Bool × List Bool × List Bool × Option GUAMIIE_Extensions.Val × Unit from
    ([2, 0xF8, n], bytesBits [1], List.replicate 10 false, List.replicate 6 true, none, ())

def item (n : UInt8) : ServedGUAMIItem.Val :=
  show GUAMI.Val × Option String × Option ServedGUAMIItemIE_Extensions.Val × Unit from
    (guami n, none, some extension, ())

def guamis : ServedGUAMIList.Val := show List ServedGUAMIItem.Val from [item 1, item 2]

def entry : NGSetupResponseProtocolIEs_Entry.Val :=
  show Int × Int × NGSetupResponseProtocolIEs_EntryValue.Val × Unit from (96, 0, (.inr <| .inr <| .inr <| .inr <| .inr <| .inr <| .inl guamis), ())

def response : NGSetupResponse.Val := show List NGSetupResponseProtocolIEs_Entry.Val × Unit from ([entry], ())

/-- An NG SETUP RESPONSE of an AMF that serves two GUAMIs, each with its extension. -/
def message : NGAP_PDU.Val :=
  .inr <| .inl <| show Int × Int × SuccessfulOutcomeValue.Val × Unit from (21, 0, (.inr <| .inr <| .inr <| .inr <| .inr <| .inr <| .inl response), ())

end NgapLost

/-- **C110, violated for NGAP.** An NG SETUP RESPONSE with two served GUAMIs that both carry an extension
is encoded, and its octets decode to another message. -/
theorem C110_ngap_violated : ∃ v : Ngap.NGAP_PDU.Val, Ngap.NGAP_PDU.Wf v ∧ Ngap.NGAP_PDU.Announced v none ∧
    ∃ s', Ngap.NGAP_PDU.encode v Codec.new = .ok () s' ∧
      ∀ r, Ngap.NGAP_PDU.decode (Codec.fromSlice s'.intoBytes) ≠ .ok v r :=
  ⟨NgapLost.message, lost_spec _ _ (by decide +kernel)⟩

namespace S1apLost
open S1ap

/-- The radio access technology, as an extension of a tracking area. -/
def extension : SupportedTAs_ItemIE_Extensions.Val :=
  show List (Int × Int × (Int ⊕ Empty) × Unit) from [(232, 1, .inl 0, ())]

def item (n : UInt8) : SupportedTAs_Item.Val :=
  show List UInt8 × List (List UInt8) × Option SupportedTAs_ItemIE_Extensions.Val × Unit from
    ([0, n], [[2, 0xF8, 0x39]], some extension, ())

def areas : SupportedTAs.Val := show List SupportedTAs_Item.Val from [item 1, item 2]

def entry : S1SetupRequestProtocolIEs_Entry.Val :=
  show Int × Int × S1SetupRequestProtocolIEs_EntryValue.Val × Unit from (64, 0, (.inr <| .inr <| .inr <| .inr <| .inr <| .inl areas), ())

def request : S1SetupRequest.Val := show List S1SetupRequestProtocolIEs_Entry.Val × Unit from ([entry], ())

/-- An S1 SETUP REQUEST of an eNB with two tracking areas, each with its extension. -/
def message : S1AP_PDU.Val :=
  .inl <| show Int × Int × InitiatingMessageValue.Val × Unit from (17, 0, (
    .inr <| .inr <| .inr <| .inr <| .inr <| .inr <| .inr <| .inr <| .inr <| .inr <| .inr <| .inr <|
    .inr <| .inr <| .inr <| .inr <| .inr <| .inr <| .inr <| .inr <| .inr <| .inr <| .inr <| .inr <|
    .inr <| .inr <| .inr <| .inr <| .inr <| .inr <| .inr <| .inr <| .inr <| .inr <| .inr <| .inr <|
    .inr <| .inr <| .inr <| .inl request), ())

end S1apLost

/-- **C110, violated for S1AP.** An S1 SETUP REQUEST with two tracking areas that both carry an extension
is encoded, and its octets do not decode to it. -/
theorem C110_s1ap_violated : ∃ v : S1ap.S1AP_PDU.Val, S1ap.S1AP_PDU.Wf v ∧ S1ap.S1AP_PDU.Announced v none ∧
    ∃ s', S1ap.S1AP_PDU.encode v Codec.new = .ok () s' ∧
      ∀ r, S1ap.S1AP_PDU.decode (Codec.fromSlice s'.intoBytes) ≠ .ok v r :=
  ⟨S1apLost.message, lost_spec _ _ (by decide +kernel)⟩

namespace RanapLost
open Ranap

def first : RAB_SetupOrModifyItemFirst.Val :=
  show List Bool × Option NAS_SynchronisationIndicator.Val × Option RAB_Parameters.Val ×
      Option UserPlaneInformation.Val × Option TransportLayerInformation.Val × Option Service_Handover.Val ×
      Option RAB_SetupOrModifyItemFirstIE_Extensions.Val × Unit from
    (bytesBits [5], none, none, none, none, none, none, ())

def second : RAB_SetupOrModifyItemSecond.Val :=
  show Option PDP_TypeInformation.Val × Option DataVolumeReportingIndication.Val ×
      Option DL_GTP_PDU_SequenceNumber.Val × Option UL_GTP_PDU_SequenceNumber.Val ×
      Option DL_N_PDU_SequenceNumber.Val × Option UL_N_PDU_SequenceNumber.Val ×
      Option RAB_SetupOrModifyItemSecondIE_Extensions.Val × Unit from
    (none, none, none, none, none, none, none, ())

/-- The two halves of a radio access bearer; the second with criticality "ignore". -/
def bearer : RAB_SetupOrModifyList_Entry_Entry.Val :=
  show Int × Int × (RAB_SetupOrModifyItemFirst.Val ⊕ Empty) × Int ×
      (RAB_SetupOrModifyItemSecond.Val ⊕ Empty) × Unit from (53, 0, .inl first, 1, .inl second, ())

def request : RAB_AssignmentRequest.Val :=
  show List (Int × Int × (RAB_ReleaseList.Val ⊕ List (List RAB_SetupOrModifyList_Entry_Entry.Val) ⊕ Empty) ×
      Unit) × Option RAB_AssignmentRequestProtocolExtensions.Val × Unit from
    ([(54, 1, .inr (.inl [[bearer]]), ())], none, ())

/-- A RAB ASSIGNMENT REQUEST for one radio access bearer. -/
def message : RANAP_PDU.Val :=
  .inl <| show Int × Int × InitiatingMessageValue.Val × Unit from (0, 0, (
    .inr <| .inr <| .inr <| .inr <| .inr <| .inr <| .inr <| .inr <| .inr <| .inr <| .inr <| .inr <|
    .inr <| .inr <| .inr <| .inr <| .inr <| .inr <| .inr <| .inr <| .inr <| .inr <| .inr <| .inr <|
    .inr <| .inl request), ())

end RanapLost

/-- **C110, violated for RANAP.** A RAB ASSIGNMENT REQUEST for a single radio access bearer is encoded,
and its octets do not decode to it. -/
theorem C110_ranap_violated : ∃ v : Ranap.RANAP_PDU.Val, Ranap.RANAP_PDU.Wf v ∧
    Ranap.RANAP_PDU.Announced v none ∧ ∃ s', Ranap.RANAP_PDU.encode v Codec.new = .ok () s' ∧
      ∀ r, Ranap.RANAP_PDU.decode (Codec.fromSlice s'.intoBytes) ≠ .ok v r :=
  ⟨RanapLost.message, lost_spec _ _ (by decide +kernel)⟩

-- Its octets are refused.
example : (match Ranap.RANAP_PDU.encode RanapLost.message Codec.new with
    | .ok _ s => (match Ranap.RANAP_PDU.decode (Codec.fromSlice s.intoBytes) with
      | .err _ => true
      | _ => false)
    | _ => false) = true := by decide +kernel

/-! ## C111: octets from a peer -/

/-- Nineteen octets: the extension bit of the CHOICE, an index, and a length of an open type. -/
def hostile : List UInt8 := 0xC0 :: 17 :: List.replicate 17 0

/-- **C111, violated.** Nineteen octets make the decoder of each of the three PDUs panic. -/
theorem C111_violated :
    Ngap.NGAP_PDU.decode (Codec.fromSlice hostile) = .panic ∧
    S1ap.S1AP_PDU.decode (Codec.fromSlice hostile) = .panic ∧
    Ranap.RANAP_PDU.decode (Codec.fromSlice hostile) = .panic := by
  have key : ∀ t : Ty, (match t.decode (Codec.fromSlice hostile) with | .panic => true | _ => false) = true →
      t.decode (Codec.fromSlice hostile) = .panic := by
    intro t h
    cases hd : t.decode (Codec.fromSlice hostile) with
    | panic => rfl
    | ok v r => simp [hd] at h
    | err r => simp [hd] at h
  exact ⟨key _ (by decide +kernel), key _ (by decide +kernel), key _ (by decide +kernel)⟩

/-- The alternative with a key. -/
def Alts.find : Alts → Int → Option Ty
  | .nil, _ => none
  | .cons k _ t rest, key => if key = k then some t else rest.find key

theorem bind_panics {m : M α} {g : α → M β} {s t : Codec} {a : α} (h : m s = .ok a t)
    (hg : g a t = .panic) : (m >>= g) s = .panic := by
  rw [M.bind_apply, h]; exact hg

theorem bind_panics' {m : M α} {g : α → M β} {s : Codec} (h : m s = .panic) : (m >>= g) s = .panic := by
  rw [M.bind_apply, h]

theorem Alts.find_panics : (as : Alts) → (key : Int) → (t : Ty) → as.find key = some t → (s : Codec) →
    t.decode s = .panic → as.decode key s = .panic
  | .cons k x t rest, key, t', hf, s, h => by
    unfold Alts.find at hf
    unfold Alts.decode
    split at hf
    · next hk => rw [if_pos hk]; cases hf; exact bind_panics' h
    · next hk => rw [if_neg hk]; exact bind_panics' (rest.find_panics key t' hf s h)

/-- A list without elements whose elements occupy no bits: the decoder does not return. -/
theorem spins {dec : M α} (h : ∀ s, ∃ v, dec s = .ok v s) (s : Codec) : decodeLoop dec 0 s = .panic := by
  have ht : ∀ n s, ∃ v, decodeTimes dec n s = .ok v s := by
    intro n
    induction n with
    | zero => intro s; exact ⟨[], rfl⟩
    | succ n ih =>
      intro s
      obtain ⟨v, h1⟩ := h s
      obtain ⟨vs, h2⟩ := ih s
      refine ⟨v :: vs, ?_⟩
      show (dec >>= fun x => decodeTimes dec n >>= fun xs => Pure.pure (x :: xs)) s = _
      rw [M.bind_apply, h1]
      dsimp only
      rw [M.bind_apply, h2]
      rfl
  unfold decodeLoop
  rw [if_pos rfl, M.bind_apply]
  obtain ⟨v, h⟩ := ht (2 ^ 64) s
  rw [h]
  rfl

/-- An initiating message without information elements: the envelope, and a list of length 0. -/
def emptyMessage (code : UInt8) : List UInt8 := [0x00, code, 0x40, 3, 0, 0, 0]

theorem empty_message_spins {as : Alts} {kinds : List Alts} {code : UInt8} {e : Ty} {n : Nat} {rest : Fields}
    (hi : decodeChoiceIdx 0 ((as :: kinds).length - 1) true (Codec.fromSlice (emptyMessage code)) =
      .ok (0, false) ⟨bytesBits (emptyMessage code), 3, none⟩)
    (hc : decodeInteger (some 0) (some 255) false ⟨bytesBits (emptyMessage code), 3, none⟩ =
      .ok (code.toNat, false) ⟨bytesBits (emptyMessage code), 16, none⟩)
    (hr : decodeEnumerated (some 0) (some 2) false ⟨bytesBits (emptyMessage code), 16, some code.toNat⟩ =
      .ok (1, false) ⟨bytesBits (emptyMessage code), 18, some code.toNat⟩)
    (hl : decodeLength none none false ⟨bytesBits (emptyMessage code), 18, some code.toNat⟩ =
      .ok 3 ⟨bytesBits (emptyMessage code), 32, some code.toNat⟩)
    (hf : as.find code.toNat = some
      (.sequence true n (.required false (.sequenceOf (some 0) (some 65535) false e) rest)))
    (hh : ∃ b t, decodeSequenceHeader true n ⟨bytesBits (emptyMessage code), 32, some code.toNat⟩ = .ok b t ∧
      ∃ t', decodeLength (some 0) (some 65535) false t = .ok 0 t')
    (he : ∀ s, ∃ v, e.decode s = .ok v s) (hw : Width.u8.cast code.toNat = code.toNat) :
    (pdu (as :: kinds)).decode (Codec.fromSlice (emptyMessage code)) = .panic := by
  refine bind_panics hi ?_
  show (envelopes 0 (as :: kinds)).decode 0 _ = _
  refine Alts.find_panics _ 0 (envelope as) rfl _ ?_
  refine bind_panics (t := ⟨bytesBits (emptyMessage code), 3, none⟩) (a := ([], false)) rfl ?_
  have hcode : (Ty.integer .u8 (some 0) (some 255) false).decode ⟨bytesBits (emptyMessage code), 3, none⟩ =
      .ok (code.toNat : Int) ⟨bytesBits (emptyMessage code), 16, none⟩ := by
    show (decodeInteger (some 0) (some 255) false >>= fun d => (pure (Width.u8.cast d.1) : M Int)) _ = _
    rw [M.bind_apply, hc]
    exact congrArg (Res.ok · _) hw
  refine bind_panics hcode ?_
  refine bind_panics (t := ⟨bytesBits (emptyMessage code), 16, some code.toNat⟩) (a := ()) rfl ?_
  refine bind_panics' ?_
  have hcrit : (Ty.enumerated .u8 (some 0) (some 2) false).decode
      ⟨bytesBits (emptyMessage code), 16, some code.toNat⟩ =
      .ok (Width.u8.cast 1) ⟨bytesBits (emptyMessage code), 18, some code.toNat⟩ := by
    show (decodeEnumerated (some 0) (some 2) false >>= fun d => (pure (Width.u8.cast d.1) : M Int)) _ = _
    rw [M.bind_apply, hr]
    rfl
  refine bind_panics hcrit ?_
  refine bind_panics (t := ⟨bytesBits (emptyMessage code), 18, some code.toNat⟩) (a := ()) rfl ?_
  refine bind_panics' (bind_panics' ?_)
  refine bind_panics hl ?_
  refine bind_panics (t := ⟨bytesBits (emptyMessage code), 32, some code.toNat⟩) (a := (code.toNat : Int)) rfl ?_
  refine Alts.find_panics _ _ _ hf _ ?_
  obtain ⟨b, t, h1, t', h2⟩ := hh
  refine bind_panics h1 (bind_panics' (bind_panics h2 ?_))
  exact spins he _

/-- **C111, violated by valid messages.** The OVERLOAD STOP message of NGAP has no information elements,
nor has the RELOCATION DETECT or the RELOCATION COMPLETE of RANAP. The seven octets of each keep the decoder
in a loop for 2^64 rounds, after which its counter overflows. -/
theorem C111_empty_message_violated :
    Ngap.NGAP_PDU.decode (Codec.fromSlice (emptyMessage 23)) = .panic ∧
    Ranap.RANAP_PDU.decode (Codec.fromSlice (emptyMessage 12)) = .panic ∧
    Ranap.RANAP_PDU.decode (Codec.fromSlice (emptyMessage 13)) = .panic := by
  refine ⟨?_, ?_, ?_⟩
  · rw [ngap_pdu]
    refine empty_message_spins (n := 0) (rest := .nil) (e := Ngap.OverloadStopProtocolIEs_Entry) (by decide +kernel)
      (by decide +kernel) (by decide +kernel) (by decide +kernel) rfl ?_ (fun s => ⟨(), rfl⟩) (by decide +kernel)
    exact ⟨([], false), ⟨bytesBits (emptyMessage 23), 33, some 23⟩, by decide +kernel,
      ⟨bytesBits (emptyMessage 23), 56, some 23⟩, by decide +kernel⟩
  · rw [ranap_pdu]
    refine empty_message_spins (n := 1) (e := Ranap.RelocationDetectProtocolIEs_Entry) (by decide +kernel)
      (by decide +kernel) (by decide +kernel) (by decide +kernel) rfl ?_ (fun s => ⟨(), rfl⟩) (by decide +kernel)
    exact ⟨([false], false), ⟨bytesBits (emptyMessage 12), 34, some 12⟩, by decide +kernel,
      ⟨bytesBits (emptyMessage 12), 56, some 12⟩, by decide +kernel⟩
  · rw [ranap_pdu]
    refine empty_message_spins (n := 1) (e := Ranap.RelocationCompleteProtocolIEs_Entry) (by decide +kernel)
      (by decide +kernel) (by decide +kernel) (by decide +kernel) rfl ?_ (fun s => ⟨(), rfl⟩) (by decide +kernel)
    exact ⟨([false], false), ⟨bytesBits (emptyMessage 13), 34, some 13⟩, by decide +kernel,
      ⟨bytesBits (emptyMessage 13), 56, some 13⟩, by decide +kernel⟩

/-- OVERLOAD STOP as a value. -/
def overloadStop : Ngap.NGAP_PDU.Val :=
  .inl <| show Int × Int × Ngap.InitiatingMessageValue.Val × Unit from (23, 1, (
    .inr <| .inr <| .inr <| .inr <| .inr <| .inr <| .inr <| .inr <| .inr <| .inr <| .inr <| .inr <|
    .inr <| .inr <| .inr <| .inr <| .inr <| .inr <| .inr <| .inr <| .inr <| .inr <| .inr <| .inr <|
    .inr <| .inr <| .inr <| .inr <| .inl
    (show List Ngap.OverloadStopProtocolIEs_Entry.Val × Unit from ([], ()))), ())

-- The octets are those the encoder gives for OVERLOAD STOP.
example : (match Ngap.NGAP_PDU.encode overloadStop Codec.new with
    | .ok _ s => decide (s.intoBytes = emptyMessage 23)
    | _ => false) = true := by decide +kernel

end Hampi
