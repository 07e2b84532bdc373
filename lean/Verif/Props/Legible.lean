import Verif.Lemmas.Lay
import Verif.Props.Sender
/-!
# C125: messages of a conforming peer are read

The octets come from another implementation: `Ty.Layout` (`Verif/Spec/Wire.lean`) is what X.691 prescribes, and nothing
below mentions the encoder of the code.
-/
namespace Hampi

open Spec

/-- **C125 (partial).** Full statement: a derived decoder that meets the prescribed encoding of a value within the
extension root, anywhere in a buffer, returns the value and stops behind it. Proved for the legible values of any type
when no padding is misread; the decoder stops behind the value unless the value ends in an open type. Missing, because
false: `C125_two_pow_32_violated`, `C125_short_string_violated`, `C125_padding_violated`, `C125_blank_violated`. -/
theorem C125_decode_partial (t : Ty) (v : t.Val) (hv : t.Legible v) (h : Gap) (hc : t.course v .exact = some h)
    (key : Option Int) (hk : t.KeysOk v key) (pre w suf : List Bool) (hl : t.Layout v pre.length w) :
    ∃ off, t.decode ⟨pre ++ w ++ suf, pre.length, key⟩ = .ok v ⟨pre ++ w ++ suf, off, t.keyAfter v key⟩ ∧
      (h = .exact → off = pre.length + w.length) := by
  obtain ⟨off, h1, h2⟩ := Ty.legible t v .exact h key pre.length w hc hv hk hl pre suf pre.length rfl rfl
  refine ⟨off, h1, fun e => ?_⟩
  subst e
  exact h2

/-- A whole message. -/
theorem message_read (t : Ty) (v : t.Val) (hv : t.Legible v) (hc : t.course v .exact ≠ none) (hk : t.KeysOk v none)
    (w : List Bool) (hl : t.Layout v 0 w) (octets : List UInt8) (ho : MessageOctets w octets) :
    ∃ r, t.decode (Codec.fromSlice octets) = .ok v r := by
  cases hh : t.course v .exact with
  | none => exact absurd hh hc
  | some h =>
    obtain ⟨off, h1, -⟩ := C125_decode_partial t v hv h hh none hk [] w (alignment w.length) hl
    have e : Codec.fromSlice octets = ⟨[] ++ w ++ alignment w.length, 0, none⟩ := by
      unfold Codec.fromSlice
      rw [← octetBits_eq, show octetBits octets = w ++ alignment w.length from ho]
      rfl
    rw [e]
    exact ⟨_, h1⟩

/-- **C125 (partial), for a type.** When every open type of the type is followed by something that starts at an octet
boundary, every variant of an open type takes at least one bit and nothing between a key and its open type sets another
key, then the prescribed octets of every legible value decode to it. -/
theorem C125_message_partial (t : Ty) (hf : t.Framed) (hs : t.sendable [] = true) (hkl : t.keysLocal false = true)
    (v : t.Val) (hv : t.Legible v) (ha : t.Announced v none) (w : List Bool) (hl : t.Layout v 0 w)
    (octets : List UInt8) (ho : MessageOctets w octets) : ∃ r, t.decode (Codec.fromSlice octets) = .ok v r := by
  cases h : t.flow false with
  | none => exact absurd h hf
  | some c =>
    obtain ⟨g, hg, -⟩ := Ty.flow_course t hs v false c .exact h hv trivial
    exact message_read t v hv (by rw [hg]; nofun)
      ((Ty.announced_iff t v false none none hkl (fun h => nomatch h)).mp ha) w hl octets ho

/-! ## The messages of the protocols -/

/-- All alternatives but those with the keys `except` pass the checks. -/
def Alts.reads : Alts → (except : List Int) → Bool
  | .nil, _ => true
  | .cons k _ t rest, except =>
      (except.contains k || ((t.flow false).isSome && t.sendable [] && t.keysLocal false)) && rest.reads except

theorem Alts.reads_spec : (as : Alts) → (except : List Int) → as.reads except = true →
    (v : as.Val) → (k : Int) → as.Selects k v → k ∉ except → as.Legible v → as.Announced v →
    (∃ c, as.course v .exact = some c) ∧ ∀ key, as.KeysOk v key
  | .cons k x t rest, except, hc, .inl v, k', hs, he, hw, ha => by
    have hs : k' = k := hs
    subst hs
    simp only [Alts.reads, Bool.and_eq_true, Bool.or_eq_true, List.contains_iff_mem] at hc
    rcases hc.1 with h | ⟨⟨h1, h2⟩, h3⟩
    · exact absurd h he
    · obtain ⟨c, hc⟩ := Option.isSome_iff_exists.mp h1
      obtain ⟨c', h4, -⟩ := Ty.flow_course t h2 v false c .exact hc hw trivial
      exact ⟨⟨c', h4⟩, fun key => (Ty.announced_iff t v false none key h3 (fun h => nomatch h)).mp ha⟩
  | .cons k x t rest, except, hc, .inr v, k', hs, he, hw, ha => by
    simp only [Alts.reads, Bool.and_eq_true] at hc
    exact Alts.reads_spec rest except hc.2 v k' hs.2 he hw ha

theorem envelope_reads {as : Alts} {except : List Int} (hc : as.reads except = true)
    (v : (envelope as).Val) (he : (show Int × _ from v).1 ∉ except) (hw : (envelope as).Legible v)
    (ha : (envelope as).Announced v none) :
    (∃ c, (envelope as).course v .exact = some c) ∧ ∀ key, (envelope as).KeysOk v key := by
  change Int × Int × as.Val × Unit at v
  obtain ⟨code, crit, x, ⟨⟩⟩ := v
  obtain ⟨-, -, -, ⟨hw, -⟩, -⟩ := hw
  obtain ⟨-, -, ⟨⟨k, hk, hs⟩, ha⟩, -⟩ := ha
  have hk : some code = some k := hk
  cases hk
  obtain ⟨⟨c, h1⟩, h2⟩ := Alts.reads_spec as except hc x code hs he hw ha
  refine ⟨⟨if c = .lost ∨ as.takesBits x = false then .lost else .padded, ?_⟩,
    fun key => ⟨trivial, trivial, ⟨⟨code, rfl, hs⟩, h2 _⟩, trivial⟩⟩
  show (((as.course x .exact).map fun h => if h = Gap.lost ∨ as.takesBits x = false then Gap.lost else .padded).bind
    fun g => some g) = _
  rw [h1]
  rfl

/-- All kinds pass the checks but for the procedures `except`. -/
def readsAll : List Alts → (first : Nat) → (except : List (Nat × Int)) → Bool
  | [], _, _ => true
  | as :: rest, i, except =>
      as.reads ((except.filter fun p => p.1 == i).map (·.2)) && readsAll rest (i + 1) except

theorem envelopes_reads : (kinds : List Alts) → (i : Nat) → (except : List (Nat × Int)) →
    readsAll kinds i except = true → (v : (envelopes i kinds).Val) → procedure kinds i v ∉ except →
    (envelopes i kinds).Legible v → (envelopes i kinds).Announced v →
    (∃ c, (envelopes i kinds).course v .exact = some c) ∧ ∀ key, (envelopes i kinds).KeysOk v key
  | as :: rest, i, except, hc, .inl v, he, hw, ha => by
    simp only [readsAll, Bool.and_eq_true] at hc
    refine envelope_reads hc.1 v (fun hm => he ?_) hw ha
    simp only [List.mem_map, List.mem_filter, beq_iff_eq] at hm
    obtain ⟨⟨j, c⟩, ⟨h1, h2⟩, h3⟩ := hm
    simp only at h2 h3
    subst h2
    rw [show procedure (as :: rest) j (.inl v) = (j, (show Int × _ from v).1) from rfl, ← h3]
    exact h1
  | as :: rest, i, except, hc, .inr v, he, hw, ha => by
    simp only [readsAll, Bool.and_eq_true] at hc
    exact envelopes_reads rest (i + 1) except hc.2 v he hw ha

theorem pdu_read (kinds : List Alts) (except : List (Nat × Int))
    (hc : readsAll kinds 0 except = true) (v : (pdu kinds).Val) (hw : (pdu kinds).Legible v)
    (ha : (pdu kinds).Announced v none) (he : procedure kinds 0 v ∉ except)
    (w : List Bool) (hl : (pdu kinds).Layout v 0 w) (octets : List UInt8) (ho : MessageOctets w octets) :
    ∃ r, (pdu kinds).decode (Codec.fromSlice octets) = .ok v r := by
  obtain ⟨⟨c, h1⟩, h2⟩ := envelopes_reads kinds 0 except hc v he hw.2.2.2.2.2 ha
  refine message_read (pdu kinds) v hw ?_ (h2 none) w hl octets ho
  intro e
  exact nomatch Eq.trans (Eq.symm h1) e

/-- **C125 (partial), NGAP.** Full statement: the octets that X.691 prescribes for a protocol data unit within the
extension roots, sent by any peer, decode to it. Proved for the legible data units of all but 21 of the 97 messages, and
for the values of these 21 in which no padding is misread. Missing, because false: `C125_ngap_violated`,
`C125_padding_violated`. -/
theorem C125_ngap_partial (v : Ngap.NGAP_PDU.Val) (hv : Ngap.NGAP_PDU.Legible v)
    (ha : Ngap.NGAP_PDU.Announced v none)
    (he : procedure ngap 0 v ∉ ngapExcept ∨ Ngap.NGAP_PDU.course v .exact ≠ none) (w : List Bool)
    (hl : Ngap.NGAP_PDU.Layout v 0 w) (octets : List UInt8) (ho : MessageOctets w octets) :
    ∃ r, Ngap.NGAP_PDU.decode (Codec.fromSlice octets) = .ok v r := by
  rcases he with he | hc
  · exact pdu_read ngap ngapExcept (by decide +kernel) v hv ha he w hl octets ho
  · refine message_read _ v hv hc ?_ w hl octets ho
    exact (Ty.announced_iff Ngap.NGAP_PDU v false none none (by decide +kernel) (fun h => nomatch h)).mp ha

/-- The S1AP messages that may be misread: those that may fail to come back, and the KILL REQUEST and the WRITE-REPLACE
WARNING REQUEST, which may hold an element without bits. -/
def s1apMisread : List (Nat × Int) := s1apExcept ++ [(0, 43), (0, 36)]

/-- **C125 (partial), S1AP.** As `C125_ngap_partial`, for all but 13 of the 98 messages. -/
theorem C125_s1ap_partial (v : S1ap.S1AP_PDU.Val) (hv : S1ap.S1AP_PDU.Legible v)
    (ha : S1ap.S1AP_PDU.Announced v none)
    (he : procedure s1ap 0 v ∉ s1apMisread ∨ S1ap.S1AP_PDU.course v .exact ≠ none) (w : List Bool)
    (hl : S1ap.S1AP_PDU.Layout v 0 w) (octets : List UInt8) (ho : MessageOctets w octets) :
    ∃ r, S1ap.S1AP_PDU.decode (Codec.fromSlice octets) = .ok v r := by
  rcases he with he | hc
  · exact pdu_read s1ap s1apMisread (by decide +kernel) v hv ha he w hl octets ho
  · refine message_read _ v hv hc ?_ w hl octets ho
    exact (Ty.announced_iff S1ap.S1AP_PDU v false none none (by decide +kernel) (fun h => nomatch h)).mp ha

/-- The RANAP messages that may be misread: those that may fail to come back, and the INITIAL UE MESSAGE and the
LOCATION REPORTING CONTROL, which may hold an extension without bits. -/
def ranapMisread : List (Nat × Int) := ranapExcept ++ [(0, 19), (0, 17)]

/-- **C125 (partial), RANAP.** As `C125_ngap_partial`, for all but 41 of the 85 messages; for these the keys must also be
those in force in the decoder. -/
theorem C125_ranap_partial (v : Ranap.RANAP_PDU.Val) (hv : Ranap.RANAP_PDU.Legible v)
    (ha : Ranap.RANAP_PDU.Announced v none)
    (he : procedure ranap 0 v ∉ ranapMisread ∨
      Ranap.RANAP_PDU.course v .exact ≠ none ∧ Ranap.RANAP_PDU.KeysOk v none) (w : List Bool)
    (hl : Ranap.RANAP_PDU.Layout v 0 w) (octets : List UInt8) (ho : MessageOctets w octets) :
    ∃ r, Ranap.RANAP_PDU.decode (Codec.fromSlice octets) = .ok v r := by
  rcases he with he | ⟨hc, hk⟩
  · exact pdu_read ranap ranapMisread (by decide +kernel) v hv ha he w hl octets ho
  · exact message_read _ v hv hc hk w hl octets ho

/-! ## Messages to which this applies -/

/-- The octets of a message. -/
theorem messageOctets_of (w : List Bool) : MessageOctets w (bitsBytes w) := by
  unfold MessageOctets
  rw [octetBits_eq, bytesBits_bitsBytes]
  rfl

/-- What the theorems ask of a value, and that these octets are prescribed for it. -/
def conforms (t : Ty) (v : t.Val) (octets : List UInt8) : Bool :=
  t.legibleB v && decide (t.Announced v none) && decide (t.course v .exact ≠ none) &&
    (t.lay v 0).any fun w => decide (bitsBytes w = octets)

theorem conforms_spec {t : Ty} {v : t.Val} {octets : List UInt8} (h : conforms t v octets = true) :
    t.Legible v ∧ t.Announced v none ∧ t.course v .exact ≠ none ∧ ∃ w, t.Layout v 0 w ∧ MessageOctets w octets := by
  simp only [conforms, Bool.and_eq_true, decide_eq_true_eq] at h
  refine ⟨t.legibleB_spec v h.1.1.1, h.1.1.2, h.1.2, ?_⟩
  cases hl : t.lay v 0 with
  | none => rw [hl] at h; exact nomatch h.2
  | some w =>
    rw [hl] at h
    cases of_decide_eq_true h.2
    exact ⟨w, t.lay_spec v 0 w hl, messageOctets_of w⟩

-- The NG SETUP REQUEST of the project's own test is what X.691 prescribes for the value it decodes to.
example : (match Ngap.NGAP_PDU.decode (Codec.fromSlice setupRequest) with
    | .ok v _ => conforms Ngap.NGAP_PDU v setupRequest && decide (procedure ngap 0 v = (0, 21))
    | _ => false) = true := by decide +kernel

/-- A KILL REQUEST for all warning messages: the last octet is the one that stands for no bits. -/
def killAll : List UInt8 := [0, 43, 0, 8, 0, 0, 1, 0, 191, 0, 1, 0]

-- The encoder panics on it (`C124_s1ap_violated`); the decoder reads it.
example : conforms S1ap.S1AP_PDU S1apKill.message killAll = true := by decide +kernel
example : ∃ r, S1ap.S1AP_PDU.decode (Codec.fromSlice killAll) = .ok S1apKill.message r := by
  obtain ⟨h1, h2, h3, w, h4, h5⟩ := conforms_spec (show conforms S1ap.S1AP_PDU S1apKill.message killAll = true by
    decide +kernel)
  exact C125_s1ap_partial _ h1 h2 (.inr h3) w h4 _ h5

/-- AMF-UE-NGAP-ID beside a number without an upper bound. -/
def Numbers : Ty := .sequence true 1
  (.required false (.integer .u64 (some 0) (some 1099511627775) false)
  (.optional 0 (.integer .u64 (some 0) none false) .nil))

def numbers : Numbers.Val := show Int × Option Int × Unit from (0, some 200, ())

/-- The identifier 0 in one octet, then 200 in one octet with its length. -/
def numbersOctets : List UInt8 := [0x40, 0, 1, 200]

-- The encoder gives other octets or none for such numbers (C07, C64); the decoder reads them.
example : conforms Numbers numbers numbersOctets = true := by decide +kernel
example : (match Numbers.encode numbers Codec.new with
    | .ok _ s => decide (s.intoBytes ≠ numbersOctets)
    | _ => true) = true := by decide +kernel
example : ∃ r, Numbers.decode (Codec.fromSlice numbersOctets) = .ok numbers r := by
  obtain ⟨h1, h2, h3, w, h4, h5⟩ := conforms_spec (show conforms Numbers numbers numbersOctets = true by
    decide +kernel)
  exact C125_message_partial _ (by decide +kernel) (by decide +kernel) (by decide +kernel) _ h1 h2 w h4 _ h5
example : Numbers.course numbers .exact = some .exact ∧ Numbers.KeysOk numbers none ∧
    ∃ w, Numbers.Layout numbers ([true] : List Bool).length w :=
  ⟨by decide +kernel, ⟨trivial, trivial, trivial⟩, _, Numbers.lay_spec numbers 1 (((Numbers.lay numbers 1).getD [])) (by decide +kernel)⟩

/-! ## What is misread -/

/-- `v` is permitted, and the octets prescribed for it do not decode to it. -/
def misread (t : Ty) (v : t.Val) : Bool :=
  decide (t.Wf v) && decide (t.Announced v none) && (t.lay v 0).any fun w =>
    match t.decode (Codec.fromSlice (bitsBytes w)) with
    | .ok v' _ => decide (t.lay v' 0 ≠ some w)
    | _ => true

theorem misread_spec {t : Ty} {v : t.Val} (h : misread t v = true) :
    t.Wf v ∧ t.Announced v none ∧ ∃ w octets, t.Layout v 0 w ∧ MessageOctets w octets ∧
      ∀ r, t.decode (Codec.fromSlice octets) ≠ .ok v r := by
  simp only [misread, Bool.and_eq_true, decide_eq_true_eq] at h
  refine ⟨h.1.1, h.1.2, ?_⟩
  cases hl : t.lay v 0 with
  | none => rw [hl] at h; exact nomatch h.2
  | some w =>
    refine ⟨w, bitsBytes w, t.lay_spec v 0 w hl, messageOctets_of w, fun r hr => ?_⟩
    have := h.2
    simp only [hl, Option.any_some, hr, ne_eq, not_true_eq_false, decide_false, Bool.false_eq_true] at this

/-- **C125 is violated by ranges of 2^32 values**: the two octets of 256 are preceded by a length of two bits, of which
the decoder reads three. -/
theorem C125_two_pow_32_violated : ∃ (t : Ty) (v : t.Val), t.Wf v ∧ ∃ w octets, t.Layout v 0 w ∧
    MessageOctets w octets ∧ ∀ r, t.decode (Codec.fromSlice octets) ≠ .ok v r := by
  obtain ⟨h1, -, h2⟩ := misread_spec (t := .integer .u32 (some 0) (some 4294967295) false) (v := (256 : Int))
    (by decide +kernel)
  exact ⟨_, _, h1, h2⟩

/-- **C125 is violated by short strings of variable size**: the decoder does not skip the padding before them. -/
theorem C125_short_string_violated : ∃ (t : Ty) (v : t.Val), t.Wf v ∧ ∃ w octets, t.Layout v 0 w ∧
    MessageOctets w octets ∧ ∀ r, t.decode (Codec.fromSlice octets) ≠ .ok v r := by
  obtain ⟨h1, -, h2⟩ := misread_spec (t := .octetstring (some 0) (some 3) false) (v := ([1, 2] : List UInt8))
    (by decide +kernel)
  exact ⟨_, _, h1, h2⟩

/-- **C125 is violated by the padding after open types**: the prescribed octets of an NG SETUP RESPONSE with two served
GUAMIs that both carry an extension do not decode to it. -/
theorem C125_padding_violated : ∃ v : Ngap.NGAP_PDU.Val, Ngap.NGAP_PDU.Wf v ∧ Ngap.NGAP_PDU.Announced v none ∧
    ∃ w octets, Ngap.NGAP_PDU.Layout v 0 w ∧ MessageOctets w octets ∧
      ∀ r, Ngap.NGAP_PDU.decode (Codec.fromSlice octets) ≠ .ok v r :=
  ⟨NgapLost.message, misread_spec (by decide +kernel)⟩

namespace NgapMisread
open Ngap

/-- The RAN UE NGAP ID 256, criticality ignore. -/
def entry : ErrorIndicationProtocolIEs_Entry.Val :=
  show Int × Int × ErrorIndicationProtocolIEs_EntryValue.Val × Unit from
    (85, 1, (.inr <| .inr <| .inr <| .inr <| .inl (256 : Int)), ())

def indication : ErrorIndication.Val := show List ErrorIndicationProtocolIEs_Entry.Val × Unit from ([entry], ())

/-- An ERROR INDICATION that concerns the UE with the RAN UE NGAP ID 256. -/
def message : NGAP_PDU.Val :=
  .inl <| show Int × Int × InitiatingMessageValue.Val × Unit from
    (9, 1, (.inr <| .inr <| .inr <| .inr <| .inr <| .inr <| .inr <| .inr <| .inr <| .inr <| .inr <| .inr <| .inr <|
      .inl indication), ())

end NgapMisread

/-- **C125 is violated by NGAP.** The identifier that a gNB gives a UE, RAN-UE-NGAP-ID, has 2^32 values. The prescribed
octets of an ERROR INDICATION for the UE with the identifier 256 do not decode to it. -/
theorem C125_ngap_violated : ∃ v : Ngap.NGAP_PDU.Val, Ngap.NGAP_PDU.Wf v ∧ Ngap.NGAP_PDU.Announced v none ∧
    ∃ w octets, Ngap.NGAP_PDU.Layout v 0 w ∧ MessageOctets w octets ∧
      ∀ r, Ngap.NGAP_PDU.decode (Codec.fromSlice octets) ≠ .ok v r :=
  ⟨NgapMisread.message, misread_spec (by decide +kernel)⟩

namespace S1apMisread
open S1ap

def entries : List WriteReplaceWarningRequestProtocolIEs_Entry.Val :=
  [show Int × Int × WriteReplaceWarningRequestProtocolIEs_EntryValue.Val × Unit from (142, 0, .inl (0 : Int), ()),
    show Int × Int × WriteReplaceWarningRequestProtocolIEs_EntryValue.Val × Unit from
      (286, 1, (.inr <| .inr <| .inr <| .inr <| .inr <| .inr <| .inr <| .inl ([1, 2, 3] : List UInt8)), ())]

def request : WriteReplaceWarningRequest.Val :=
  show List WriteReplaceWarningRequestProtocolIEs_Entry.Val × Unit from (entries, ())

/-- A WRITE-REPLACE WARNING REQUEST with a concurrent warning message indicator and the coordinates of an area. -/
def message : S1AP_PDU.Val :=
  .inl <| show Int × Int × InitiatingMessageValue.Val × Unit from (36, 0, (
    .inr <| .inr <| .inr <| .inr <| .inr <| .inr <| .inr <| .inr <| .inr <| .inr <| .inr <| .inr <|
    .inr <| .inr <| .inr <| .inr <| .inr <| .inr <| .inr <| .inr <| .inr <| .inr <| .inr <| .inr <|
    .inr <| .inr <| .inr <| .inr <| .inr <| .inr <| .inr <| .inr <| .inr <| .inr <| .inr <| .inr <|
    .inr <| .inr <| .inr <| .inr <| .inr <| .inr <| .inr <| .inr <| .inr <| .inr <| .inr <| .inr <|
    .inr <| .inr <| .inr <| .inr <| .inr <| .inr <| .inl request), ())

end S1apMisread

/-- **C125 is violated by elements without bits**: the decoder leaves the octet unread that stands for the concurrent
warning message indicator of S1AP, and takes it for the beginning of the next element. -/
theorem C125_blank_violated : ∃ v : S1ap.S1AP_PDU.Val, S1ap.S1AP_PDU.Legible v ∧ S1ap.S1AP_PDU.Announced v none ∧
    ∃ w octets, S1ap.S1AP_PDU.Layout v 0 w ∧ MessageOctets w octets ∧
      ∀ r, S1ap.S1AP_PDU.decode (Codec.fromSlice octets) ≠ .ok v r := by
  refine ⟨S1apMisread.message, S1ap.S1AP_PDU.legibleB_spec _ (by decide +kernel), ?_⟩
  exact (misread_spec (t := S1ap.S1AP_PDU) (v := S1apMisread.message) (by decide +kernel)).2

end Hampi
