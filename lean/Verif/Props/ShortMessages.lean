import Verif.Props.Short
import Verif.Props.Messages
/-!
# C111: short messages and the three protocols

The two ways in which octets bring down a receiver (`C111_violated`, `C111_empty_message_violated`) are all there are
for messages of up to 18 octets.
-/
namespace Hampi.ShortMessages

/-- The messages of a kind that may bring down the receiver although they are short. -/
def fragile (kind : Nat) : Alts → List (Nat × Int)
  | .nil => []
  | .cons k _ t rest => (if t.sane true then [] else [(kind, k)]) ++ fragile kind rest

/-- The same for all kinds, numbered from `first`. -/
def fragiles (first : Nat) : List Alts → List (Nat × Int)
  | [] => []
  | as :: rest => fragile first as ++ fragiles (first + 1) rest

theorem alts_quiet (kind : Nat) (key : Int) : (as : Alts) → (kind, key) ∉ fragile kind as →
    Quiet (limitOf true) (as.decode key)
  | .nil, _ => .of .fail
  | .cons k x t rest, h => by
    rw [fragile, List.mem_append, not_or] at h
    refine .ite (fun hk => ?_) fun _ => .bind (rest.decode_reader key) (alts_quiet kind key rest h.2) fun _ => .pure _
    refine .bind t.decode_reader (t.quiet true ?_) fun _ => .pure _
    apply Decidable.byContradiction
    intro hn
    refine h.1 ?_
    rw [if_neg hn, hk]
    exact List.mem_singleton_self _

theorem panic_bind {α β : Type} {m : M α} {g : α → M β} {s : Codec} (h : (m >>= g) s = .panic) :
    m s = .panic ∨ ∃ a t, m s = .ok a t ∧ g a t = .panic := by
  rw [M.bind_apply] at h
  cases hm : m s with
  | ok a t => rw [hm] at h; exact .inr ⟨a, t, rfl, h⟩
  | err t => rw [hm] at h; cases h
  | panic => exact .inl rfl

theorem unsigned_ok {n : Nat} (h0 : 0 < n) (h1 : n < 127) {s t : Codec} {v : Int}
    (h : decodeBitsAsInteger n false s = .ok v t) :
    v = (bitsToNat ((s.bits.drop s.off).take n) : Nat) ∧ t = { s with off := s.off + n } ∧ s.off + n ≤ s.bits.length := by
  unfold decodeBitsAsInteger at h
  split at h
  · cases h
  · split at h
    · cases h
    · next h2 h3 =>
      dsimp only at h
      rw [if_pos (by decide), if_neg (by omega), if_neg (by omega), M.bind_apply] at h
      unfold advanceMaybeErr at h
      rw [if_neg (by omega)] at h
      have hb : bitsToNat ((s.bits.drop s.off).take n) < 2 ^ 127 := by
        have := bitsToNat_lt ((s.bits.drop s.off).take n)
        refine Nat.lt_of_lt_of_le this (Nat.pow_le_pow_right (by decide) ?_)
        rw [List.length_take]
        omega
      have hv : v = signExtend 128 (bitsToNat ((s.bits.drop s.off).take n)) := by cases h; rfl
      have ht : t = { s with off := s.off + n } := by cases h; rfl
      refine ⟨?_, ht, by omega⟩
      rw [hv]
      unfold signExtend
      have hm : bitsToNat ((s.bits.drop s.off).take n) % 2 ^ 128 = bitsToNat ((s.bits.drop s.off).take n) :=
        Nat.mod_eq_of_lt (Nat.lt_trans hb (by decide))
      dsimp only
      rw [hm, if_pos hb]

theorem bool_ok {s t : Codec} {b : Bool} (h : decodeBoolM s = .ok b t) :
    s.bits[s.off]? = some b ∧ t = { s with off := s.off + 1 } := by
  unfold decodeBoolM at h
  split at h
  · cases h
  · split at h
    · cases h
    · next bit hb =>
      have hlt := (List.getElem?_eq_some_iff.1 hb).1
      rw [M.bind_apply] at h
      unfold advanceMaybeErr at h
      rw [if_neg (by omega)] at h
      cases h
      exact ⟨hb, rfl⟩

theorem align_ok {s t : Codec} (ho : s.off = 3) (h : decodeAlign s = .ok () t) :
    ((s.bits.drop 3).take 5).all (fun b => !b) = true ∧ t = { s with off := 8 } := by
  unfold decodeAlign at h
  rw [if_neg (by omega)] at h
  dsimp only at h
  split at h
  · cases h
  · split at h
    · next h1 =>
      rw [ho] at h1 h
      cases h
      exact ⟨h1, rfl⟩
    · cases h

theorem chk_ok {v w : Int} {s t : Codec} (h : chkI128 v s = .ok w t) : w = v ∧ t = s := by
  unfold chkI128 at h
  split at h
  · cases h; exact ⟨rfl, rfl⟩
  · cases h

theorem choice_ok {ub : Int} (hu : ub = 2 ∨ ub = 3) {s t : Codec} {v : Int} (ho : s.off = 0)
    (h : decodeChoiceIdx 0 ub true s = .ok (v, false) t) :
    s.bits[0]? = some false ∧ v = (bitsToNat ((s.bits.drop 1).take 2) : Nat) ∧ t = { s with off := 3 } := by
  unfold decodeChoiceIdx at h
  rw [if_pos rfl] at h
  obtain ⟨x, s1, h1, h⟩ := bind_ok h
  obtain ⟨hb, rfl⟩ := bool_ok h1
  rw [ho] at hb
  cases x with
  | true =>
    obtain ⟨_, _, _, h⟩ := bind_ok (m := decodeNormallySmallNonNegative) h
    cases h
  | false =>
    obtain ⟨r, s2, h2, h⟩ := bind_ok (m := decodeInteger (some 0) (some ub) false) h
    have hs2 : s2 = t := by cases h; rfl
    have hr : r.1 = v := by cases h; rfl
    subst hs2
    obtain ⟨w, s3, h3, h2⟩ := bind_ok (m := decodeIntegerValue (some 0) (some ub) false)
      (g := fun value => (Pure.pure (value, false) : M (Int × Bool))) h2
    have hs3 : s3 = s2 := by cases h2; rfl
    have hw : w = r.1 := by cases h2; rfl
    subst hs3
    have h3 : decodeConstrained 0 ub { s with off := s.off + 1 } = .ok w s3 := h3
    unfold decodeConstrained decodeConstrainedWith at h3
    obtain ⟨d, u, e1, h3⟩ := bind_ok h3
    obtain ⟨rfl, rfl⟩ := chk_ok e1
    obtain ⟨d, u, e1, h3⟩ := bind_ok h3
    obtain ⟨rfl, rfl⟩ := chk_ok e1
    rw [if_neg (by omega)] at h3
    obtain ⟨d, u, e1, h3⟩ := bind_ok h3
    obtain ⟨e, rfl⟩ := chk_ok h3
    unfold decodeConstrainedField at e1
    rw [if_pos (by omega)] at e1
    have hf : decFieldBits (ub - 0 + 1) = 2 := by rcases hu with rfl | rfl <;> decide
    rw [hf] at e1
    obtain ⟨q1, q2, -⟩ := unsigned_ok (by decide) (by decide) e1
    refine ⟨hb, ?_, ?_⟩
    · rw [← hr, ← hw, e, q1, Int.add_zero]
      dsimp only
      rw [ho]
    · rw [q2]
      dsimp only
      rw [ho]

theorem code_ok {s t : Codec} {v : Int} (ho : s.off = 3)
    (h : (Ty.integer .u8 (some 0) (some 255) false).decode s = .ok v t) :
    ((s.bits.drop 3).take 5).all (fun b => !b) = true ∧
    v = (bitsToNat ((s.bits.drop 8).take 8) : Nat) ∧ t = { s with off := 16 } ∧ 16 ≤ s.bits.length := by
  obtain ⟨r, s2, h2, h⟩ := bind_ok (m := decodeInteger (some 0) (some 255) false) h
  have hs2 : s2 = t := by cases h; rfl
  have hr : Width.u8.cast r.1 = v := by cases h; rfl
  subst hs2
  obtain ⟨w, s3, h3, h2⟩ := bind_ok (m := decodeIntegerValue (some 0) (some 255) false)
    (g := fun value => (Pure.pure (value, false) : M (Int × Bool))) h2
  have hs3 : s3 = s2 := by cases h2; rfl
  have hw : w = r.1 := by cases h2; rfl
  subst hs3
  have h3 : decodeConstrained 0 255 s = .ok w s3 := h3
  unfold decodeConstrained decodeConstrainedWith at h3
  obtain ⟨d, u, e1, h4⟩ := bind_ok h3
  obtain ⟨hd, hu⟩ := chk_ok e1
  rw [hd, hu] at h4
  obtain ⟨d', u', e2, h5⟩ := bind_ok h4
  obtain ⟨hd', hu'⟩ := chk_ok e2
  rw [hd', hu', if_neg (by omega)] at h5
  obtain ⟨d, u, e1, h6⟩ := bind_ok h5
  obtain ⟨e, rfl⟩ := chk_ok h6
  unfold decodeConstrainedField at e1
  rw [if_neg (by omega), if_pos (by omega)] at e1
  obtain ⟨_, u', e0, e1⟩ := bind_ok e1
  obtain ⟨p1, rfl⟩ := align_ok ho e0
  obtain ⟨q1, q2, q3⟩ := unsigned_ok (by decide) (by decide) e1
  dsimp only at q1 q2 q3
  refine ⟨p1, ?_, q2, by omega⟩
  have hlt : bitsToNat ((s.bits.drop 8).take 8) < 256 := by
    have := bitsToNat_lt ((s.bits.drop 8).take 8)
    have h8 : ((s.bits.drop 8).take 8).length ≤ 8 := by rw [List.length_take]; omega
    exact Nat.lt_of_lt_of_le this (Nat.pow_le_pow_right (n := 2) (by decide) h8)
  rw [← hr, ← hw, e, q1, Int.add_zero]
  show ((bitsToNat ((s.bits.drop 8).take 8) : Nat) : Int) % 2 ^ 8 = _
  omega

theorem first_octet (a : UInt8) (h0 : (byteBits a)[0]? = some false)
    (h1 : ((byteBits a).drop 3).all (fun b => !b) = true) : a.toNat = 32 * bitsToNat (((byteBits a).drop 1).take 2) := by
  have key : ∀ n : Fin 256, (natToBits 8 n)[0]? = some false → ((natToBits 8 n).drop 3).all (fun b => !b) = true →
      n.val = 32 * bitsToNat (((natToBits 8 n).drop 1).take 2) := by decide +kernel
  exact key ⟨a.toNat, a.toNat_lt⟩ h0 h1

theorem after_dec {α : Type} {m : M α} (hd : IsDec m) {s t : Codec} {a : α} (hs : OctetBuffer s) (h : m s = .ok a t) :
    OctetBuffer t ∧ t.bits = s.bits ∧ t.key = s.key := by
  refine ⟨Safe.after hd hs h, ?_, ?_⟩
  · have := hd.reader.frame s
    rw [h] at this
    exact this.1
  · have := hd.key s
    rw [h] at this
    exact this

/-- A short message that makes the decoder of an envelope panic begins with the kind and the code of a fragile
message. -/
theorem envelope_short {as : Alts} {kind : Nat} {octets : List UInt8} (hl : octets.length ≤ 18) (key : Option Int)
    (h : (envelope as).decode ⟨bytesBits octets, 3, key⟩ = .panic) (h3 : 3 ≤ 8 * octets.length)
    (h0 : (bytesBits octets)[0]? = some false) (h1 : (kind : Int) = (bitsToNat (((bytesBits octets).drop 1).take 2) : Nat)) :
    ∃ code : UInt8, (kind, (code.toNat : Int)) ∈ fragile kind as ∧ octets.take 2 = [UInt8.ofNat (32 * kind), code] := by
  have hoct : OctetBuffer ⟨bytesBits octets, 3, key⟩ := by unfold OctetBuffer; simp; omega
  have h : (Fields.decode (.required true (.integer .u8 (some 0) (some 255) false)
    (.required false (.enumerated .u8 (some 0) (some 2) false)
    (.required false (.openType as) .nil))) []) ⟨bytesBits octets, 3, key⟩ = .panic := h
  unfold Fields.decode at h
  rcases panic_bind h with h | ⟨v, t, hv, h⟩
  · exact absurd h (Ty.quiet true (.integer .u8 (some 0) (some 255) false) (by decide) _ hoct (by
      simp [limitOf]; omega))
  obtain ⟨p1, p2, rfl, p4⟩ := code_ok rfl hv
  dsimp only at p1 p2 p4
  rcases panic_bind h with h | ⟨_, t, ht, h⟩
  · cases h
  have ht' : t = ⟨bytesBits octets, 16, some v⟩ := by cases ht; rfl
  subst ht'
  rcases panic_bind h with h | ⟨_, _, _, h⟩
  case inr => cases h
  have hoct : OctetBuffer ⟨bytesBits octets, 16, some v⟩ := by unfold OctetBuffer; simp at p4 ⊢; omega
  have hq : (bytesBits octets).length < 145 := by rw [bytesBits_length]; omega
  unfold Fields.decode at h
  rcases panic_bind h with h | ⟨c, t, hc, h⟩
  · exact absurd h (Ty.quiet true (.enumerated .u8 (some 0) (some 2) false) (by decide) _ hoct hq)
  obtain ⟨o1, b1, k1⟩ := after_dec (.bind (.enumerated (some 0) (some 2) false) fun _ => .pure _) hoct hc
  rcases panic_bind h with h | ⟨_, t', ht', h⟩
  · cases h
  have e : t' = t := by cases ht'; rfl
  rw [e] at h
  rcases panic_bind h with h | ⟨_, _, _, h⟩
  case inr => cases h
  unfold Fields.decode at h
  rcases panic_bind h with h | ⟨_, t1, ht1, h⟩
  case inr =>
    rcases panic_bind h with h | ⟨_, _, _, h⟩
    · cases h
    · rcases panic_bind h with h | ⟨_, _, _, h⟩ <;> cases h
  rcases panic_bind (m := decodeLength none none false) h with h | ⟨n, t1, hn, h⟩
  · exact absurd h (Safe.length' (by rintro (⟨l, h, _⟩ | ⟨l, h, _⟩ | ⟨l, u, h, _⟩) <;> cases h) _ o1)
  obtain ⟨o2, b2, k2⟩ := after_dec (.length none none false) o1 hn
  rcases panic_bind (m := requireKey) h with h | ⟨k, t2, hk, h⟩
  · exact absurd h (Quiet.requireKey (limit := 145) _ o2 (by rw [b2, b1]; exact hq))
  have hkey : k = v ∧ t2 = t1 := by
    unfold requireKey at hk
    rw [k2, k1] at hk
    cases hk
    exact ⟨rfl, rfl⟩
  rw [hkey.1, hkey.2] at h
  have hf : (kind, v) ∈ fragile kind as := by
    apply Classical.byContradiction
    intro hn
    exact alts_quiet kind v as hn _ o2 (by rw [b2, b1]; exact hq) h
  match octets, h0, h1, p1, p2, p4 with
  | [], _, _, _, _, p4 => exact absurd p4 (by decide)
  | [_], _, _, _, _, p4 => exact absurd p4 (by rw [bytesBits_length, List.length_singleton]; decide)
  | a :: b :: rest, h0, h1, p1, p2, _ =>
    have hla := byteBits_length a
    have hlb := byteBits_length b
    rw [bytesBits_cons, bytesBits_cons] at h0 h1 p1 p2
    rw [List.getElem?_append_left (by omega)] at h0
    rw [List.drop_append_of_le_length (by omega), List.take_append_of_le_length (by rw [List.length_drop]; omega)] at h1 p1
    rw [List.drop_append, List.drop_eq_nil_of_le (by omega), hla, List.nil_append, List.drop_zero,
      List.take_append_of_le_length (by omega), List.take_of_length_le (by omega)] at p2
    rw [List.take_of_length_le (by rw [List.length_drop]; omega)] at p1
    have hb : (b.toNat : Int) = v := by
      rw [p2]
      exact congrArg Int.ofNat (bitsToNat_natToBits_of_lt b.toNat_lt).symm
    refine ⟨b, by rw [hb]; exact hf, ?_⟩
    have ha := first_octet a h0 p1
    have h2 : bitsToNat (((byteBits a).drop 1).take 2) = kind := by omega
    rw [h2] at ha
    rw [← ha]
    simp

theorem envelopes_panic {s : Codec} : (kinds : List Alts) → (first : Nat) → (index : Int) →
    (envelopes first kinds).decode index s = .panic →
    ∃ (kind : Nat) (as : Alts), index = kind ∧ (envelope as).decode s = .panic ∧
      ∀ p, p ∈ fragile kind as → p ∈ fragiles first kinds
  | [], _, _, h => by cases h
  | as :: rest, first, index, h => by
    have h : (Alts.cons (first : Int) false (envelope as) (envelopes ((first + 1 : Nat) : Int) rest)).decode index s =
        .panic := h
    unfold Alts.decode at h
    split at h
    · next hi =>
      rcases panic_bind h with h | ⟨_, _, _, h⟩
      · exact ⟨first, as, hi, h, fun p hp => List.mem_append_left _ hp⟩
      · cases h
    · rcases panic_bind h with h | ⟨_, _, _, h⟩
      · obtain ⟨kind, as', h1, h2, h3⟩ := envelopes_panic rest (first + 1) index h
        exact ⟨kind, as', h1, h2, fun p hp => List.mem_append_right _ (h3 p hp)⟩
      · cases h

theorem pdu_short {kinds : List Alts} (hk : kinds.length = 3 ∨ kinds.length = 4) {octets : List UInt8}
    (hl : octets.length ≤ 18) (h : (pdu kinds).decode (Codec.fromSlice octets) = .panic) :
    ∃ (kind : Nat) (code : UInt8), (kind, (code.toNat : Int)) ∈ fragiles 0 kinds ∧
      octets.take 2 = [UInt8.ofNat (32 * kind), code] := by
  have hu : (kinds.length : Int) - 1 = 2 ∨ (kinds.length : Int) - 1 = 3 := by omega
  have hoct : OctetBuffer (Codec.fromSlice octets) := by
    unfold OctetBuffer Codec.fromSlice
    simp
  rcases panic_bind (m := decodeChoiceIdx 0 (kinds.length - 1) true) h with h | ⟨r, t, hr, h⟩
  · refine absurd h (Quiet.choiceIdx (short := true) (.inl rfl) (by decide) ?_ _ hoct ?_)
    · rcases hu with hu | hu <;> rw [hu] <;> decide
    · show (bytesBits octets).length < 145
      rw [bytesBits_length]
      omega
  · obtain ⟨v, x⟩ := r
    cases x with
    | true => cases h
    | false =>
      obtain ⟨h0, h1, rfl⟩ := choice_ok hu rfl hr
      have hin := Safe.after (.choiceIdx _ _ _) hoct hr
      obtain ⟨kind, as, e, h2, h3⟩ := envelopes_panic kinds 0 v h
      have h4 : 3 ≤ 8 * octets.length := by
        have := hin.1
        dsimp only [Codec.fromSlice] at this
        rw [bytesBits_length] at this
        exact this
      obtain ⟨code, h5, h6⟩ := envelope_short (kind := kind) hl _ h2 h4 h0 (by rw [← e, h1]; rfl)
      exact ⟨kind, code, h3 _ h5, h6⟩

/-- **C111 (partial).** No message of up to 18 octets makes the receiver of S1AP panic; one that makes the receiver of NGAP
panic is an OVERLOAD STOP, and one that makes the receiver of RANAP panic is one of four initiating messages, two of which
are RELOCATION COMPLETE (13) and RELOCATION DETECT (12). What is missing is excluded by `C111_violated`
(with 19 octets all three panic) and `C111_empty_message_violated`. -/
theorem C111_short_partial (octets : List UInt8) (hl : octets.length ≤ 18) :
    S1ap.S1AP_PDU.decode (Codec.fromSlice octets) ≠ .panic ∧
    (Ngap.NGAP_PDU.decode (Codec.fromSlice octets) = .panic → octets.take 2 = [0, 23]) ∧
    (Ranap.RANAP_PDU.decode (Codec.fromSlice octets) = .panic →
      octets.take 2 ∈ [[0, 12], [0, 13], [0, 46], [0, 47]]) := by
  refine ⟨?_, fun h => ?_, fun h => ?_⟩
  · exact C105_short_partial S1ap.S1AP_PDU (by decide +kernel) octets hl 0 (by omega) none
  · rw [ngap_pdu] at h
    obtain ⟨kind, code, h1, h2⟩ := pdu_short (.inl (by decide)) hl h
    have e : fragiles 0 ngap = [(0, 23)] := by decide +kernel
    rw [e, List.mem_singleton, Prod.mk.injEq] at h1
    have hc : code = 23 := UInt8.toNat_inj.1 (by have := h1.2; simp at this ⊢; omega)
    rw [h2, h1.1, hc]
    rfl
  · rw [ranap_pdu] at h
    obtain ⟨kind, code, h1, h2⟩ := pdu_short (.inr (by decide)) hl h
    have e : fragiles 0 ranap = [(0, 13), (0, 12), (0, 46), (0, 47)] := by decide +kernel
    rw [e] at h1
    rw [h2]
    simp only [List.mem_cons, Prod.mk.injEq, List.not_mem_nil, or_false] at h1
    rcases h1 with ⟨rfl, h1⟩ | ⟨rfl, h1⟩ | ⟨rfl, h1⟩ | ⟨rfl, h1⟩
    · have hc : code = 13 := UInt8.toNat_inj.1 (by simp; omega)
      rw [hc]; decide
    · have hc : code = 12 := UInt8.toNat_inj.1 (by simp; omega)
      rw [hc]; decide
    · have hc : code = 46 := UInt8.toNat_inj.1 (by simp; omega)
      rw [hc]; decide
    · have hc : code = 47 := UInt8.toNat_inj.1 (by simp; omega)
      rw [hc]; decide

/-- **C111, violated by valid messages (second part).** The other two messages of `C111_short_partial`: the SRVCC CS KEYS
REQUEST (46) and the UE RADIO CAPABILITY MATCH REQUEST (47) of RANAP, both of seven octets. -/
theorem C111_more_empty_messages_violated :
    Ranap.RANAP_PDU.decode (Codec.fromSlice (emptyMessage 46)) = .panic ∧
    Ranap.RANAP_PDU.decode (Codec.fromSlice (emptyMessage 47)) = .panic := by
  refine ⟨?_, ?_⟩
  · rw [ranap_pdu]
    refine empty_message_spins (n := 1) (e := Ranap.SRVCC_CSKeysRequestProtocolIEs_Entry) (by decide +kernel)
      (by decide +kernel) (by decide +kernel) (by decide +kernel) rfl ?_ (fun s => ⟨(), rfl⟩) (by decide +kernel)
    exact ⟨([false], false), ⟨bytesBits (emptyMessage 46), 34, some 46⟩, by decide +kernel,
      ⟨bytesBits (emptyMessage 46), 56, some 46⟩, by decide +kernel⟩
  · rw [ranap_pdu]
    refine empty_message_spins (n := 1) (e := Ranap.UeRadioCapabilityMatchRequestProtocolIEs_Entry) (by decide +kernel)
      (by decide +kernel) (by decide +kernel) (by decide +kernel) rfl ?_ (fun s => ⟨(), rfl⟩) (by decide +kernel)
    exact ⟨([false], false), ⟨bytesBits (emptyMessage 47), 34, some 47⟩, by decide +kernel,
      ⟨bytesBits (emptyMessage 47), 56, some 47⟩, by decide +kernel⟩

/-- Seven octets of which the receiver of S1AP makes something other than a panic. -/
example : [0x00, 23, 0x40, 3, 0, 0, 0].length ≤ 18 ∧
    (match S1ap.S1AP_PDU.decode (Codec.fromSlice [0x00, 23, 0x40, 3, 0, 0, 0]) with
      | .panic => false
      | _ => true) = true := by decide +kernel

end Hampi.ShortMessages
