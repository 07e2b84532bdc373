import Verif.Lemmas.Relay
import Verif.Props.Messages
/-!
# C129: passing a message on
-/
namespace Hampi

/-- **C129 (partial).** Full statement: when octets decode to a value and the value is encoded again, the result
decodes to the same value. Proved for all types with the attributes the compiler writes (`Ty.Usual`) and all values
without the lists and texts of `Ty.Relayable`, in which no padding of an open type is misread (`Ty.track`, C36); the
octets received are arbitrary. Missing, because false: see below. -/
theorem C129_relay_partial (t : Ty) (ht : t.Usual = true) (octets : List UInt8) (v : t.Val) (s : Codec)
    (hd : t.decode (Codec.fromSlice octets) = .ok v s) (hv : t.Relayable v) (unread : Bool)
    (hu : t.track v false = some unread) (u : Codec) (he : t.encode v Codec.new = .ok () u) :
    ∃ r, t.decode (Codec.fromSlice u.intoBytes) = .ok v r ∧ u.bits.length < r.off + 8 :=
  octets_round_trip t v (t.decode_wf ht _ _ _ hd hv) unread hu (C42_open_types_by_key t v _ _ hd).1 u he

/-- **C129 (partial).** For types in which every open type is followed by something that starts at an octet boundary,
padding is never misread. -/
theorem C129_framed_partial (t : Ty) (ht : t.Usual = true) (hf : t.Framed) (octets : List UInt8) (v : t.Val) (s : Codec)
    (hd : t.decode (Codec.fromSlice octets) = .ok v s) (hv : t.Relayable v) (u : Codec)
    (he : t.encode v Codec.new = .ok () u) :
    ∃ r, t.decode (Codec.fromSlice u.intoBytes) = .ok v r ∧ u.bits.length < r.off + 8 := by
  obtain ⟨c, hc⟩ := C36_framed_values t hf v (t.decode_wf ht _ _ _ hd hv)
  exact C129_relay_partial t ht octets v s hd hv c hc u he

/-! ## The three protocols -/

theorem Alts.covers_track : (as : Alts) → (except : List Int) → as.covers except = true →
    (v : as.Val) → (k : Int) → as.Selects k v → k ∉ except → as.Wf v → ∃ c, as.track v false = some c
  | .cons k x t rest, except, hc, .inl v, k', hs, he, hw => by
    have hs : k' = k := hs
    subst hs
    simp only [Alts.covers, Bool.and_eq_true, Bool.or_eq_true, List.contains_iff_mem] at hc
    rcases hc.1 with h | ⟨h1, -⟩
    · exact absurd h he
    · obtain ⟨c, hc⟩ := Option.isSome_iff_exists.mp h1
      obtain ⟨c', h3, -⟩ := Ty.flow_track t v false c false hc hw id
      exact ⟨c', h3⟩
  | .cons k x t rest, except, hc, .inr v, k', hs, he, hw => by
    simp only [Alts.covers, Bool.and_eq_true] at hc
    exact Alts.covers_track rest except hc.2 v k' hs.2 he hw

theorem envelope_track {as : Alts} {except : List Int} (hc : as.covers except = true) (v : (envelope as).Val)
    (he : (show Int × _ from v).1 ∉ except) (hw : (envelope as).Wf v) (key : Option Int)
    (hk : (envelope as).KeysOk v key) : ∃ c, (envelope as).track v false = some c := by
  change Int × Int × as.Val × Unit at v
  obtain ⟨code, crit, x, ⟨⟩⟩ := v
  obtain ⟨-, -, -, hw, -⟩ := hw
  obtain ⟨-, -, ⟨⟨k, hk, hs⟩, -⟩, -⟩ := hk
  have hk : some code = some k := hk
  cases hk
  obtain ⟨c, h1⟩ := Alts.covers_track as except hc x code hs he hw
  refine ⟨c || endsInside (as.encode x), ?_⟩
  show (match (match as.track x false with | none => none | some c => some (c || endsInside (as.encode x))) with
    | none => none | some c => some c) = _
  rw [h1]

theorem envelopes_track : (kinds : List Alts) → (i : Nat) → (except : List (Nat × Int)) →
    coversAll kinds i except = true → (v : (envelopes i kinds).Val) → procedure kinds i v ∉ except →
    (envelopes i kinds).Wf v → (key : Option Int) → (envelopes i kinds).KeysOk v key →
    ∃ c, (envelopes i kinds).track v false = some c
  | as :: rest, i, except, hc, .inl v, he, hw, key, hk => by
    simp only [coversAll, Bool.and_eq_true] at hc
    refine envelope_track hc.1 v (fun hm => he ?_) hw key hk
    simp only [List.mem_map, List.mem_filter, beq_iff_eq] at hm
    obtain ⟨⟨j, c⟩, ⟨h1, h2⟩, h3⟩ := hm
    simp only at h2 h3
    subst h2
    rw [show procedure (as :: rest) j (.inl v) = (j, (show Int × _ from v).1) from rfl, ← h3]
    exact h1
  | as :: rest, i, except, hc, .inr v, he, hw, key, hk => by
    simp only [coversAll, Bool.and_eq_true] at hc
    exact envelopes_track rest (i + 1) except hc.2 v he hw key hk

theorem pdu_relay (kinds : List Alts) (except : List (Nat × Int)) (hc : coversAll kinds 0 except = true)
    (ht : (pdu kinds).Usual = true) (octets : List UInt8) (v : (pdu kinds).Val) (s : Codec)
    (hd : (pdu kinds).decode (Codec.fromSlice octets) = .ok v s) (hv : (pdu kinds).Relayable v)
    (he : procedure kinds 0 v ∉ except ∨ ∃ c, (pdu kinds).track v false = some c) (u : Codec)
    (h : (pdu kinds).encode v Codec.new = .ok () u) :
    ∃ r, (pdu kinds).decode (Codec.fromSlice u.intoBytes) = .ok v r ∧ u.bits.length < r.off + 8 := by
  rcases he with he | ⟨c, hu⟩
  · have hw := (pdu kinds).decode_wf ht _ _ _ hd hv
    obtain ⟨c, h1⟩ := envelopes_track kinds 0 except hc v he hw.2.2 _ (C42_open_types_by_key _ v _ _ hd).1
    exact C129_relay_partial (pdu kinds) ht octets v s hd hv c h1 u h
  · exact C129_relay_partial (pdu kinds) ht octets v s hd hv c hu u h

/-- **C129 (partial), NGAP.** Whatever octets were received: if they decode to a message with lists of permitted sizes,
other than the 21 messages of `ngapExcept` or with no misread padding, and it is encoded again, the next receiver
decodes the same message. -/
theorem C129_ngap_partial (octets : List UInt8) (v : Ngap.NGAP_PDU.Val) (s : Codec)
    (hd : Ngap.NGAP_PDU.decode (Codec.fromSlice octets) = .ok v s) (hv : Ngap.NGAP_PDU.Relayable v)
    (he : procedure ngap 0 v ∉ ngapExcept ∨ ∃ c, Ngap.NGAP_PDU.track v false = some c) (u : Codec)
    (h : Ngap.NGAP_PDU.encode v Codec.new = .ok () u) :
    ∃ r, Ngap.NGAP_PDU.decode (Codec.fromSlice u.intoBytes) = .ok v r ∧ u.bits.length < r.off + 8 :=
  pdu_relay ngap ngapExcept (by decide +kernel) (by decide +kernel) octets v s hd hv he u h

/-- **C129 (partial), S1AP.** As `C129_ngap_partial`, for all but 11 messages. -/
theorem C129_s1ap_partial (octets : List UInt8) (v : S1ap.S1AP_PDU.Val) (s : Codec)
    (hd : S1ap.S1AP_PDU.decode (Codec.fromSlice octets) = .ok v s) (hv : S1ap.S1AP_PDU.Relayable v)
    (he : procedure s1ap 0 v ∉ s1apExcept ∨ ∃ c, S1ap.S1AP_PDU.track v false = some c) (u : Codec)
    (h : S1ap.S1AP_PDU.encode v Codec.new = .ok () u) :
    ∃ r, S1ap.S1AP_PDU.decode (Codec.fromSlice u.intoBytes) = .ok v r ∧ u.bits.length < r.off + 8 :=
  pdu_relay s1ap s1apExcept (by decide +kernel) (by decide +kernel) octets v s hd hv he u h

/-- **C129 (partial), RANAP.** As `C129_ngap_partial`, for all but 39 messages. -/
theorem C129_ranap_partial (octets : List UInt8) (v : Ranap.RANAP_PDU.Val) (s : Codec)
    (hd : Ranap.RANAP_PDU.decode (Codec.fromSlice octets) = .ok v s) (hv : Ranap.RANAP_PDU.Relayable v)
    (he : procedure ranap 0 v ∉ ranapExcept ∨ ∃ c, Ranap.RANAP_PDU.track v false = some c) (u : Codec)
    (h : Ranap.RANAP_PDU.encode v Codec.new = .ok () u) :
    ∃ r, Ranap.RANAP_PDU.decode (Codec.fromSlice u.intoBytes) = .ok v r ∧ u.bits.length < r.off + 8 :=
  pdu_relay ranap ranapExcept (by decide +kernel) (by decide +kernel) octets v s hd hv he u h

mutual

/-- `Ty.Relayable` can be computed. -/
def Ty.decRelayable : (t : Ty) → (v : t.Val) → Decidable (t.Relayable v)
  | .charstring _ lb ub _, v =>
    inferInstanceAs (Decidable (2 < (utf8 v).length ∨ utf8 v = [] ∨ lengthAligns lb ub = true))
  | .sequence _ _ fs, v => fs.decRelayable v
  | .sequenceOf lb ub ext e, v =>
    @instDecidableAnd _ _
      (inferInstanceAs (Decidable (if ext then List.length v < 16384 else SizeOk lb ub (List.length v))))
      (decAll e.decRelayable v)
  | .choice _ _ _ as, v => as.decRelayable v
  | .openType as, v => as.decRelayable v
  | .boolean, _ | .null, _ | .integer .., _ | .enumerated .., _ | .bitstring .., _ | .octetstring .., _
  | .objectIdentifier, _ => .isTrue trivial

def Fields.decRelayable : (fs : Fields) → (v : fs.Val) → Decidable (fs.Relayable v)
  | .nil, _ => .isTrue trivial
  | .required _ t rest, v =>
    @instDecidableAnd (t.Relayable v.1) (rest.Relayable v.2) (t.decRelayable v.1) (rest.decRelayable v.2)
  | .optional _ t rest, (some x, vs) =>
    @instDecidableAnd (t.Relayable x) (rest.Relayable vs) (t.decRelayable x) (rest.decRelayable vs)
  | .optional _ _ rest, (none, vs) =>
    @instDecidableAnd True (rest.Relayable vs) (.isTrue trivial) (rest.decRelayable vs)

def Alts.decRelayable : (as : Alts) → (v : as.Val) → Decidable (as.Relayable v)
  | .cons _ _ t _, .inl v => t.decRelayable v
  | .cons _ _ _ rest, .inr v => rest.decRelayable v

end

instance (t : Ty) (v : t.Val) : Decidable (t.Relayable v) := t.decRelayable v

/-- The octets meet what `C129_relay_partial` asks, and are not what the encoder writes. -/
def Ty.rewrites (t : Ty) (octets : List UInt8) : Bool :=
  match t.decode (Codec.fromSlice octets) with
  | .ok v _ => decide (t.Relayable v) && (t.track v false).isSome && (match t.encode v Codec.new with
    | .ok _ u => decide (u.intoBytes ≠ octets)
    | _ => false)
  | _ => false

/-- `setupRequest` as another encoder may write it: the length of the message is written in two octets, and
the extension bit of the message is set. -/
def setupRequestVariant : List UInt8 :=
  [0x00, 0x15, 0x40, 0x80, 0x4a, 0x80, 0x00, 0x04] ++ setupRequest.drop 7

-- A list of numbers whose count is written in two octets where the encoder writes one.
example : ∃ t : Ty, t.Usual = true ∧ t.Framed ∧ t.rewrites [0x80, 0x02, 0x01, 0x05, 0x01, 0x07] = true :=
  ⟨.sequenceOf none none false (.integer .i64 none none false), by decide, by decide, by decide +kernel⟩

-- A variant of the message of the project's own test.
example : Ngap.NGAP_PDU.rewrites setupRequestVariant = true := by decide +kernel

-- An ERROR INDICATION (NGAP and S1AP) and a DIRECT TRANSFER (RANAP), with such lengths and extension bits: messages that
-- are not among the exceptions.
example : Ngap.NGAP_PDU.rewrites [0, 9, 0x40, 0x80, 9, 0x80, 0, 1, 0, 10, 0x40, 2, 0, 5] = true ∧
    (match Ngap.NGAP_PDU.decode (Codec.fromSlice [0, 9, 0x40, 0x80, 9, 0x80, 0, 1, 0, 10, 0x40, 2, 0, 5]) with
      | .ok v _ => decide (procedure ngap 0 v ∉ ngapExcept)
      | _ => false) = true := by
  constructor <;> decide +kernel

example : S1ap.S1AP_PDU.rewrites [0, 15, 0x40, 0x80, 9, 0x80, 0, 1, 0, 0, 0x40, 2, 0, 5] = true ∧
    (match S1ap.S1AP_PDU.decode (Codec.fromSlice [0, 15, 0x40, 0x80, 9, 0x80, 0, 1, 0, 0, 0x40, 2, 0, 5]) with
      | .ok v _ => decide (procedure s1ap 0 v ∉ s1apExcept)
      | _ => false) = true := by
  constructor <;> decide +kernel

example : Ranap.RANAP_PDU.rewrites [0, 20, 0x40, 0x80, 10, 0x80, 0, 1, 0, 16, 0x40, 3, 2, 7, 65] = true ∧
    (match Ranap.RANAP_PDU.decode (Codec.fromSlice [0, 20, 0x40, 0x80, 10, 0x80, 0, 1, 0, 16, 0x40, 3, 2, 7, 65]) with
      | .ok v _ => decide (procedure ranap 0 v ∉ ranapExcept)
      | _ => false) = true := by
  constructor <;> decide +kernel

/-! ## Where it fails -/

/-- An S1 SETUP REQUEST with one tracking area of seven PLMNs, one more than permitted. -/
def sevenPlmns : List UInt8 :=
  [0x00, 0x11, 0x00, 0x20, 0x00, 0x00, 0x01, 0x00, 0x40, 0x00, 0x19, 0x00, 0x00, 0x00, 0x70,
   0x00, 0xf1, 0x01, 0x00, 0xf1, 0x02, 0x00, 0xf1, 0x03, 0x00, 0xf1, 0x04, 0x00, 0xf1, 0x05, 0x00, 0xf1, 0x06,
   0x00, 0xf1, 0x07]

/-- The value received, encoded and received again has another size. -/
def Ty.alters (t : Ty) (octets : List UInt8) : Bool :=
  match t.decode (Codec.fromSlice octets) with
  | .ok v _ =>
    match t.encode v Codec.new with
    | .ok _ u =>
      match t.decode (Codec.fromSlice u.intoBytes) with
      | .ok w _ => t.size v != t.size w
      | _ => false
    | _ => false
  | _ => false

theorem Ty.alters_spec {t : Ty} {octets : List UInt8} (h : t.alters octets = true) :
    ∃ v w s u r, t.decode (Codec.fromSlice octets) = .ok v s ∧ t.encode v Codec.new = .ok () u ∧
      t.decode (Codec.fromSlice u.intoBytes) = .ok w r ∧ v ≠ w := by
  unfold Ty.alters at h
  split at h
  · next v s h1 =>
    split at h
    · next x u h2 =>
      split at h
      · next w r h3 =>
        refine ⟨v, w, s, u, r, h1, h2, h3, ?_⟩
        rintro rfl
        simp at h
      · cases h
    · cases h
  · cases h

/-- **C129 is violated**: the seven PLMNs are received, and passed on as one, without an error. -/
theorem C129_s1ap_violated : ∃ v w s u r,
    S1ap.S1AP_PDU.decode (Codec.fromSlice sevenPlmns) = .ok v s ∧ S1ap.S1AP_PDU.encode v Codec.new = .ok () u ∧
      S1ap.S1AP_PDU.decode (Codec.fromSlice u.intoBytes) = .ok w r ∧ v ≠ w :=
  Ty.alters_spec (by decide +kernel)

/-- A truth value and a text of one or two characters. -/
def flaggedText : Ty :=
  .sequence false 0 (.required false .boolean (.required false (.charstring .printable (some 1) (some 2) false) .nil))

instance : DecidableEq flaggedText.Val := inferInstanceAs (DecidableEq (Bool × String × Unit))

/-- **C129 is violated**: "A" is received, and passed on it is received as "P". -/
theorem C129_text_violated : ∃ s u r,
    flaggedText.decode (Codec.fromSlice [0x01, 0x40]) = .ok (show Bool × String × Unit from (false, "A", ())) s ∧
      flaggedText.encode (show Bool × String × Unit from (false, "A", ())) Codec.new = .ok () u ∧
      flaggedText.decode (Codec.fromSlice u.intoBytes) = .ok (show Bool × String × Unit from (false, "P", ())) r := by
  refine ⟨⟨bytesBits [0x01, 0x40], 10, none⟩,
    ⟨[false, false, false, true, false, false, false, false, false, true], 0, none⟩,
    ⟨bytesBits [0x10, 0x40], 10, none⟩, ?_, ?_, ?_⟩
  · decide +kernel
  · decide +kernel
  · decide +kernel

end Hampi
