import Verif.Lemmas.Release
import Verif.Props.Derived
import Verif.Props.Hostile
import Verif.Props.Messages
import Verif.Props.EncodePanics
/-!
# C112, C113: release builds

The theorems of the other files are about the code compiled with overflow checks, as `cargo build` and `cargo test`
compile it. `cargo build --release` leaves the checks out.
-/
namespace Hampi

/-! ## C112 -/

/-- **C112.** Where the derived encoder of a debug build returns, that of a release build returns the same and writes
the same bits. -/
theorem C112_encode (t : Ty) (v : t.Val) : SameUnlessPanic (t.encode v) (Release.encodeTy t v) := Same.encTy t v

/-- **C112.** Where the derived decoder of a debug build returns, that of a release build returns the same and stops
at the same position. -/
theorem C112_decode (t : Ty) : SameUnlessPanic t.decode (Release.decodeTy t) := Same.decTy t

/-- **C112**, the run-time library: decoders. -/
theorem C112_library_decoders (lb ub : Option Int) (l u : Int) (ext : Bool) (count : Nat) :
    SameUnlessPanic (decodeInteger lb ub ext) (Release.decodeInteger lb ub ext) ∧
    SameUnlessPanic (decodeEnumerated lb ub ext) (Release.decodeEnumerated lb ub ext) ∧
    SameUnlessPanic (decodeBitstring lb ub ext) (Release.decodeBitstring lb ub ext) ∧
    SameUnlessPanic (decodeOctetstring lb ub ext) (Release.decodeOctetstring lb ub ext) ∧
    SameUnlessPanic (decodeString lb ub ext) (Release.decodeString lb ub ext) ∧
    SameUnlessPanic (decodeChoiceIdx l u ext) (Release.decodeChoiceIdx l u ext) ∧
    SameUnlessPanic (decodeSequenceHeader ext count) (Release.decodeSequenceHeader ext count) ∧
    SameUnlessPanic (decodeLength lb ub ext) (Release.decodeLength lb ub ext) :=
  ⟨Same.integer _ _ _, Same.enumerated _ _ _, Same.bitstring _ _ _, Same.octetstring _ _ _, Same.string _ _ _,
    Same.choiceIdx _ _ _, Same.sequenceHeader _ _, Same.length _ _ _⟩

/-- **C112**, the run-time library: encoders. -/
theorem C112_library_encoders (lb ub : Option Int) (l u v : Int) (ext extended : Bool) (bits : List Bool)
    (octets : List UInt8) (text : String) (n : Nat) :
    SameUnlessPanic (encodeInteger lb ub ext v extended) (Release.encodeInteger lb ub ext v extended) ∧
    SameUnlessPanic (encodeEnumerated lb ub ext v extended) (Release.encodeEnumerated lb ub ext v extended) ∧
    SameUnlessPanic (encodeBitstring lb ub ext bits extended) (Release.encodeBitstring lb ub ext bits extended) ∧
    SameUnlessPanic (encodeOctetstring lb ub ext octets extended)
      (Release.encodeOctetstring lb ub ext octets extended) ∧
    SameUnlessPanic (encodeString lb ub ext text extended) (Release.encodeString lb ub ext text extended) ∧
    SameUnlessPanic (encodeChoiceIdx l u ext v extended) (Release.encodeChoiceIdx l u ext v extended) ∧
    SameUnlessPanic (encodeLength lb ub ext n) (Release.encodeLength lb ub ext n) :=
  ⟨Same.encInteger _ _ _ _ _, Same.encEnumerated _ _ _ _ _, Same.encBitstring _ _ _ _ _,
    Same.encOctetstring _ _ _ _ _, Same.encString _ _ _ _ _, Same.encChoiceIdx _ _ _ _ _, Same.encLength _ _ _ _⟩

/-- **C112**, round trips. A release build encodes every permitted value, and reads back what it has written. -/
theorem C112_round_trip (t : Ty) (ht : t.Closed) (v : t.Val) (hp : t.Permitted v) (hv : t.Wf v) (s : Codec) :
    ∃ w, Release.encodeTy t v s = .ok () { s with bits := s.bits ++ w } ∧
      ∀ (before after : List Bool) (key : Option Int), before.length % 8 = s.bits.length % 8 → t.KeysOk v key →
        Release.decodeTy t ⟨before ++ w ++ after, before.length, key⟩ =
          .ok v ⟨before ++ w ++ after, before.length + w.length, t.keyAfter v key⟩ := by
  obtain ⟨s', h⟩ := t.encode_ok v hp s
  obtain ⟨w, rfl, hw⟩ := C36_round_trip_partial t ht v hv s s' h
  refine ⟨w, ?_, fun before after key hb hk => ?_⟩
  · rw [C112_encode t v s (by rw [h]; exact fun e => nomatch e), h]
  · have := hw before after key hb hk
    rw [C112_decode t _ (by rw [this]; exact fun e => nomatch e), this]

/-- **C112**, hostile octets. A release build withstands what a debug build withstands. -/
theorem C112_no_panic (t : Ty) (ht : t.Sane) (octets : List UInt8) (hlen : 8 * octets.length < 2 ^ 64)
    (position : Nat) (hp : position ≤ 8 * octets.length) (key : Option Int) :
    Release.decodeTy t ⟨bytesBits octets, position, key⟩ ≠ .panic := by
  have h := C105_no_panic_partial t ht octets hlen position hp key
  rw [C112_decode t _ h]
  exact h

-- The statements are about something: a message with a nested list, an open type and a CHOICE.
example : ∃ s', Release.encodeTy Msg msg Codec.new = .ok () s' := ⟨_, rfl⟩

/-! ## C113 -/

/-- The range of `v - lb` in an `i128` is left: the release build writes another number. -/
theorem C113_semi_constrained (lb v : Int) (hl : IsI128 lb) (hv : IsI128 v) (h : 2 ^ 127 ≤ v - lb) (s : Codec) :
    encodeSemiConstrained lb v s = .panic ∧
    Release.encodeSemiConstrained lb v s = Release.encodeUnconstrained (v - lb - 2 ^ 128) s := by
  have hn : ¬ v < lb := by omega
  have hc : ¬ IsI128 (v - lb) := fun ⟨_, h2⟩ => by omega
  refine ⟨?_, ?_⟩
  · unfold encodeSemiConstrained
    rw [if_neg hn]
    unfold chkI128
    rw [if_neg hc]
    rfl
  · unfold Release.encodeSemiConstrained
    rw [if_neg hn]
    have e : signExtend 128 ((v - lb) % 2 ^ 128).toNat = v - lb - 2 ^ 128 := by
      obtain ⟨h1, h2⟩ := hl
      obtain ⟨h3, h4⟩ := hv
      simp only [signExtend]
      have : (((v - lb) % 2 ^ 128).toNat : Int) = (v - lb) % 2 ^ 128 := Int.toNat_of_nonneg (Int.emod_nonneg _ (by decide))
      split <;> omega
    show (Release.chkI128 (v - lb) >>= _) s = _
    unfold Release.chkI128
    rw [e]
    rfl

-- The bounds of C113_semi_constrained can be met by a value an `i64` holds.
example : IsI128 (-(2 ^ 127)) ∧ IsI128 5 ∧ 2 ^ 127 ≤ 5 - (-(2 ^ 127) : Int) := by unfold IsI128; decide

/-- **C113 (partial).** Full statement: a release build returns `Ok` only where a debug build does. Proved for the values
of `Ty.Encodable`; then the two write the same bits. Missing, because false: see the violations below. -/
theorem C113_encode_partial (t : Ty) (v : t.Val) (h : t.Encodable v) (s : Codec) :
    Release.encodeTy t v s = t.encode v s :=
  C112_encode t v s (C114_no_panic_partial t v h s)

/-- **C113 (partial).** The same for decoding: with the types of `Ty.Sane`, the two builds return the same on all octets. -/
theorem C113_decode_partial (t : Ty) (ht : t.Sane) (octets : List UInt8) (hlen : 8 * octets.length < 2 ^ 64)
    (position : Nat) (hp : position ≤ 8 * octets.length) (key : Option Int) :
    Release.decodeTy t ⟨bytesBits octets, position, key⟩ = t.decode ⟨bytesBits octets, position, key⟩ :=
  C112_decode t _ (C105_no_panic_partial t ht octets hlen position hp key)

/-- **C113 is violated**: with a lower bound and no upper one, a value far above the bound is written as another: the
greatest `i128` is written as the single octet of -1 and read back as a number below the lower bound. -/
theorem C113_semi_constrained_violated :
    encodeInteger (some (-(2 ^ 127))) none false (2 ^ 127 - 1) false Codec.new = .panic ∧
    Release.encodeInteger (some (-(2 ^ 127))) none false (2 ^ 127 - 1) false Codec.new =
      .ok () ⟨bytesBits [1, 255], 0, none⟩ ∧
    Release.decodeInteger (some (-(2 ^ 127))) none false (Codec.fromSlice [1, 255]) =
      .ok (-(2 ^ 127) + 255, false) ⟨bytesBits [1, 255], 16, none⟩ := by decide +kernel

/-- **C113 is violated**: a release build reads an INTEGER (1..MAX) as a negative number. -/
theorem C113_below_bound_violated :
    let octets := 16 :: 127 :: List.replicate 15 255
    decodeInteger (some 1) none false (Codec.fromSlice octets) = .panic ∧
    Release.decodeInteger (some 1) none false (Codec.fromSlice octets) =
      .ok (-(2 ^ 127), false) ⟨bytesBits octets, 136, none⟩ := by decide +kernel

/-- **C113 is violated**: an empty list of an extensible size is written as the length of a list of 64 elements. -/
theorem C113_empty_list_violated (lb ub : Option Int) (e : Ty) (s : Codec) :
    (Ty.sequenceOf lb ub true e).encode ([] : List e.Val) s = .panic ∧
    Release.encodeTy (Ty.sequenceOf lb ub true e) ([] : List e.Val) s =
      .ok () { s with bits := s.bits ++ false :: List.replicate 6 true } := by
  refine ⟨rfl, ?_⟩
  have e : (natToBits 8 ((0 + (2 ^ 64 - 1)) % 256)).drop 2 = List.replicate 6 true := by decide +kernel
  have h : Release.encodeNormallySmallLength 0 s =
      .ok () { s with bits := s.bits ++ false :: List.replicate 6 true } := by
    unfold Release.encodeNormallySmallLength
    rw [if_pos (by decide), e]
    show Res.ok () (⟨(s.bits ++ [false]) ++ List.replicate 6 true, s.off, s.key⟩ : Codec) = _
    rw [List.append_assoc]
    rfl
  show M.bind (Release.encodeNormallySmallLength 0).ignoreErr (fun _ => pure ()) s = _
  unfold M.bind M.ignoreErr
  rw [h]
  rfl

/-- What is read back from it, whatever follows: 64 elements, or an error. -/
theorem C113_empty_list_read_violated (lb ub : Option Int) (e : Ty) (before after : List Bool) (key : Option Int) :
    Release.decodeTy (Ty.sequenceOf lb ub true e)
        ⟨before ++ (false :: List.replicate 6 true) ++ after, before.length, key⟩ =
      decodeTimes (Release.decodeTy e) 64
        ⟨before ++ (false :: List.replicate 6 true) ++ after, before.length + 7, key⟩ := by
  have d : Decodes decodeNormallySmallLength before.length (false :: List.replicate 6 true) 64 :=
    Decodes.bind (w := [false]) (.boolM _ false) (.map (.nat (n := 6) (x := 63) _ (by decide) (by decide) (by decide))
      fun l => asUsize l + 1)
  have h := d before after key rfl
  have r := Same.normallySmallLength _ (by rw [h]; exact fun e => nomatch e)
  rw [h] at r
  show M.bind Release.decodeNormallySmallLength (fun n => decodeLoop (Release.decodeTy e) n) _ = _
  unfold M.bind
  rw [r]
  rfl

/-- **C113**, panics that stay: nineteen octets bring down the release builds of NGAP, S1AP and RANAP as well. -/
theorem C113_hostile_octets :
    Release.decodeTy Ngap.NGAP_PDU (Codec.fromSlice hostile) = .panic ∧
    Release.decodeTy S1ap.S1AP_PDU (Codec.fromSlice hostile) = .panic ∧
    Release.decodeTy Ranap.RANAP_PDU (Codec.fromSlice hostile) = .panic := by
  have key : ∀ t : Ty, (match Release.decodeTy t (Codec.fromSlice hostile) with | .panic => true | _ => false) = true →
      Release.decodeTy t (Codec.fromSlice hostile) = .panic := by
    intro t h
    split at h
    · assumption
    · cases h
  exact ⟨key _ (by decide +kernel), key _ (by decide +kernel), key _ (by decide +kernel)⟩

/-- An open type without content, on which a debug build panics, is refused by a release build. -/
theorem C113_empty_open_type (as : Alts) (v : as.Val) (s' : Codec)
    (h : Release.encodeAlts as v Codec.new = .ok () s') (h0 : s'.bits = []) (s : Codec) :
    ∃ s1, Release.encodeTy (.openType as) v s = .err s1 := by
  obtain ⟨b, o, k⟩ := s'
  cases h0
  show ∃ s1, Release.encodeOpen (Release.encodeAlts as v) s = _
  unfold Release.encodeOpen
  rw [h]
  have hl : ∃ s1, Release.encodeLength none none false ((2 ^ 64 - 1) / 8 + 1) s = .err s1 := by
    show ∃ s1, (align >>= fun _ => if (2 ^ 64 - 1) / 8 + 1 < 128 then _ else if (2 ^ 64 - 1) / 8 + 1 < 16384 then _ else M.fail) s = _
    rw [if_neg (by decide), if_neg (by decide)]
    rw [M.bind_apply]
    cases ha : align s with
    | ok a t => exact ⟨t, rfl⟩
    | err t => exact ⟨t, rfl⟩
    | panic => exact absurd ha (Returns.align s)
  obtain ⟨s1, hl⟩ := hl
  refine ⟨s1, ?_⟩
  show M.bind (Release.encodeLength none none false ((2 ^ 64 - 1) / 8 + 1)) _ s = _
  unfold M.bind
  rw [hl]

-- NULL is such a content.
example : Release.encodeAlts (.cons 1 false .null .nil) (.inl ()) Codec.new = .ok () Codec.new := rfl

end Hampi
