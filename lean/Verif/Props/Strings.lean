import Verif.Props.Lengths
/-!
# C11-C15: bit, octet and character strings
-/
namespace Hampi

open Spec (ReadsBack Succeeds Refuses SizeBounds Within)

variable {α : Type}

/-! ## C11, C12 -/

/-- **C11.** A bit string accepted by `encode_bitstring` is returned by `decode_bitstring`. -/
theorem C11_bitstring_round_trip (lb ub : Option Int) (hb : SizeBounds lb ub) (ext extended : Bool)
    (v : List Bool) :
    ReadsBack (encodeBitstring lb ub ext v extended) (decodeBitstring lb ub ext) v :=
  (RT.bitstring hb v ext extended).readsBack

example : ReadsBack (encodeBitstring (some 0) (some 20) true [true, false, true] false)
    (decodeBitstring (some 0) (some 20) true) [true, false, true] :=
  C11_bitstring_round_trip _ _ ⟨by rintro _ ⟨⟩; decide, by rintro _ ⟨⟩; decide⟩ true false _
example : Succeeds (encodeBitstring (some 0) (some 20) true [true, false, true] false Codec.new) := ⟨(), _, rfl⟩

/-- **C12.** An octet string accepted by `encode_octetstring` is returned by `decode_octetstring`. -/
theorem C12_octetstring_round_trip (lb ub : Option Int) (hb : SizeBounds lb ub)
    (ext extended : Bool) (v : List UInt8) :
    ReadsBack (encodeOctetstring lb ub ext v extended) (decodeOctetstring lb ub ext) v :=
  (RT.octetstring hb v ext extended).readsBack

example : ReadsBack (encodeOctetstring (some 1) none false [7, 9, 11] false)
    (decodeOctetstring (some 1) none false) [7, 9, 11] :=
  C12_octetstring_round_trip _ _ ⟨by rintro _ ⟨⟩; decide, by rintro _ ⟨⟩⟩ false false _
example : Succeeds (encodeOctetstring (some 1) none false [7, 9, 11] false ⟨[true], 0, none⟩) := ⟨(), _, rfl⟩

theorem encodeLength_ok {lb ub : Option Int} (hb : SizeBounds lb ub) {n : Nat}
    (hw : Within lb ub n) (hn : Expressible ub n) (s : Codec) :
    ∃ t, encodeLength lb ub false n s = .ok () t := by
  obtain ⟨_, t, h⟩ := (C10_accepted_lengths lb ub hb n s).1 ⟨hw, hn⟩
  exact ⟨t, h⟩

theorem encodeExtBit_ok (e x : Bool) (s : Codec) : ∃ t, encodeExtBit e x s = .ok () t := by
  cases e
  · exact ⟨_, rfl⟩
  · exact ⟨_, rfl⟩

theorem units_ok (c : Bool) (w : List Bool) (s : Codec) :
    ∃ t, (alignIf c >>= fun _ => appendBits w) s = .ok () t :=
  ⟨_, Writes.bind (g := fun _ => appendBits w) (.alignIf s.bits.length c) (.append _ w) s rfl⟩

/-- **C11.** Every bit string within the size bounds and below 16K bits is accepted. -/
theorem C11_bitstring_accepted (lb ub : Option Int) (hb : SizeBounds lb ub) (ext : Bool)
    (v : List Bool) (hw : Within lb ub v.length) (hn : v.length < 16384) (s : Codec) :
    Succeeds (encodeBitstring lb ub ext v false s) := by
  unfold encodeBitstring
  simp only [Bool.false_eq_true, if_false]
  obtain ⟨t, h1⟩ := encodeExtBit_ok ext false s
  rw [M.bind_apply, h1]
  dsimp only
  rw [if_neg (by omega)]
  obtain ⟨t2, h2⟩ := encodeLength_ok hb hw (.inr hn) t
  rw [M.bind_apply, h2]
  dsimp only
  split
  · obtain ⟨t3, h3⟩ := units_ok (decide (16 < v.length)) v t2
    exact ⟨(), t3, h3⟩
  · exact ⟨(), t2, rfl⟩

example (s : Codec) : Succeeds (encodeBitstring (some 0) (some 20) true [true, false, true] false s) :=
  C11_bitstring_accepted _ _ ⟨by rintro _ ⟨⟩; decide, by rintro _ ⟨⟩; decide⟩ true _
    ⟨by rintro _ ⟨⟩; decide, by rintro _ ⟨⟩; decide⟩ (by decide) s

/-- **C12.** Every octet string within the size bounds and below 16K octets is accepted. -/
theorem C12_octetstring_accepted (lb ub : Option Int) (hb : SizeBounds lb ub) (ext : Bool)
    (v : List UInt8) (hw : Within lb ub v.length) (hn : v.length < 16384) (s : Codec) :
    Succeeds (encodeOctetstring lb ub ext v false s) := by
  unfold encodeOctetstring
  simp only [Bool.false_eq_true, if_false]
  obtain ⟨t, h1⟩ := encodeExtBit_ok ext false s
  rw [M.bind_apply, h1]
  dsimp only
  rw [if_neg (by omega)]
  obtain ⟨t2, h2⟩ := encodeLength_ok hb hw (.inr hn) t
  rw [M.bind_apply, h2]
  dsimp only
  split
  · obtain ⟨t3, h3⟩ := units_ok (decide (2 < v.length)) (bytesBits v) t2
    exact ⟨(), t3, h3⟩
  · exact ⟨(), t2, rfl⟩

example (s : Codec) : Succeeds (encodeOctetstring (some 1) none true [7, 9, 11] false s) :=
  C12_octetstring_accepted _ _ ⟨by rintro _ ⟨⟩; decide, by rintro _ ⟨⟩⟩ true _
    ⟨by rintro _ ⟨⟩; decide, by rintro _ ⟨⟩⟩ (by decide) s

/-- At most one bit is written for a bit string that is too long. -/
theorem C11_bitstring_too_long_refused (lb ub : Option Int) (ext extended : Bool) (v : List Bool)
    (hn : 16384 ≤ v.length) (s : Codec) : Refuses (encodeBitstring lb ub ext v extended s) := by
  unfold encodeBitstring
  cases extended with
  | true => exact ⟨_, rfl⟩
  | false =>
    simp only [Bool.false_eq_true, if_false]
    obtain ⟨t, h1⟩ := encodeExtBit_ok ext false s
    rw [M.bind_apply, h1]
    dsimp only
    rw [if_pos hn]
    exact ⟨_, rfl⟩

example (s : Codec) : Refuses (encodeBitstring none none true (List.replicate 16384 true) false s) :=
  C11_bitstring_too_long_refused none none true false _ (by rw [List.length_replicate]; decide) s

/-- An octet string of 16K octets or more is refused. -/
theorem C12_octetstring_too_long_refused (lb ub : Option Int) (ext extended : Bool)
    (v : List UInt8) (hn : 16384 ≤ v.length) (s : Codec) :
    Refuses (encodeOctetstring lb ub ext v extended s) := by
  unfold encodeOctetstring
  cases extended with
  | true => exact ⟨_, rfl⟩
  | false =>
    simp only [Bool.false_eq_true, if_false]
    obtain ⟨t, h1⟩ := encodeExtBit_ok ext false s
    rw [M.bind_apply, h1]
    dsimp only
    rw [if_pos hn]
    exact ⟨_, rfl⟩

example : SizeBounds (some 0) (some 20) ∧ Within (some 0) (some 20) ([true, false] : List Bool).length := by
  constructor <;> constructor <;> intro l h <;> cases h <;> decide

/-! ## C13 -/

/-- **C13 (partial).** Full statement: every accepted character string is returned by the decoder.
Proved for strings above two octets, for empty strings and for one- and two-octet strings whose
encoding ends on an octet boundary. Missing: the other one- and two-octet strings, for which it is
false, see `C13_short_unaligned_violated`. -/
theorem C13_string_round_trip_partial (lb ub : Option Int) (hb : SizeBounds lb ub)
    (ext extended : Bool) (v : String) (s s' : Codec)
    (h : encodeString lb ub ext v extended s = .ok () s')
    (hal : 2 < (utf8 v).length ∨ utf8 v = [] ∨ s'.bits.length % 8 = 0) :
    s.bits <+: s'.bits ∧ ∀ (suffix : List Bool) (key : Option Int),
      decodeString lb ub ext ⟨s'.bits ++ suffix, s.bits.length, key⟩ =
        .ok v ⟨s'.bits ++ suffix, s'.bits.length, key⟩ := by
  obtain ⟨w, rfl, -, hd⟩ := string_rt hb h (hal.imp_right Or.symm)
  refine ⟨⟨w, rfl⟩, fun suf key => ?_⟩
  have := hd s.bits suf key rfl
  simpa using this

-- "abc" after one bit; the position does not matter as it is longer than two octets.
example : ∃ s', encodeString (some 3) (some 8) false "abc" false ⟨[true], 0, none⟩ = .ok () s' ∧
    decodeString (some 3) (some 8) false ⟨s'.bits, 1, none⟩ = .ok "abc" ⟨s'.bits, s'.bits.length, none⟩ := by
  obtain ⟨s', h⟩ : ∃ s', encodeString (some 3) (some 8) false "abc" false ⟨[true], 0, none⟩ = .ok () s' := ⟨_, rfl⟩
  have := (C13_string_round_trip_partial _ _ ⟨by rintro _ ⟨⟩; decide, by rintro _ ⟨⟩; decide⟩ false false "abc" _ s' h
    (.inl (by decide))).2 [] none
  rw [List.append_nil] at this
  exact ⟨s', h, this⟩

/-- **C13.** Every string within the bounds whose length is expressible is accepted. -/
theorem C13_string_accepted (lb ub : Option Int) (hb : SizeBounds lb ub) (ext : Bool)
    (v : String) (hw : Within lb ub (utf8 v).length) (hn : Expressible ub (utf8 v).length)
    (s : Codec) : Succeeds (encodeString lb ub ext v false s) := by
  unfold encodeString
  simp only [Bool.false_eq_true, if_false]
  obtain ⟨t, h1⟩ := encodeExtBit_ok ext false s
  rw [M.bind_apply, h1]
  dsimp only
  obtain ⟨t2, h2⟩ := encodeLength_ok hb hw hn t
  rw [M.bind_apply, h2]
  dsimp only
  obtain ⟨t3, h3⟩ := units_ok (decide (2 < (utf8 v).length)) (bytesBits (utf8 v)) t2
  exact ⟨(), t3, h3⟩

example : (utf8 "abc").length = 3 := by decide

/-- **C13 is violated**: "B" written after one bit is read back as "!". -/
theorem C13_short_unaligned_violated :
    encodeString (some 1) (some 1) false "B" false ⟨[true], 0, none⟩ =
      .ok () ⟨[true, false, true, false, false, false, false, true, false], 0, none⟩ ∧
    decodeString (some 1) (some 1) false
      ⟨[true, false, true, false, false, false, false, true, false], 1, none⟩ =
      .ok "!" ⟨[true, false, true, false, false, false, false, true, false], 9, none⟩ := by
  constructor
  · decide
  · have h : decodeString (some 1) (some 1) false
        ⟨[true, false, true, false, false, false, false, true, false], 1, none⟩ =
        decodeText (1, [false, true, false, false, false, false, true, false])
          ⟨[true, false, true, false, false, false, false, true, false], 9, none⟩ := by rfl
    have h2 : fromUtf8 (loadChunks 1 [false, true, false, false, false, false, true, false]) =
        some "!" := fromUtf8_eq_some_iff.mpr (by decide)
    rw [h]
    unfold decodeText
    rw [h2]
    rfl

/-! ## C14 -/

theorem takeBits_ok {n : Nat} {s s' : Codec} {l : List Bool} (h : takeBits n s = .ok l s') :
    l = (s.bits.drop s.off).take n ∧ s' = { s with off := s.off + n } ∧
      s.off + n ≤ s.bits.length := by
  unfold takeBits at h
  split at h
  · cases h
  · split at h
    · cases h
    · cases h; exact ⟨rfl, rfl, by omega⟩

theorem getBitvecStored_ok {n : Nat} {s s' : Codec} {r : Nat × List Bool}
    (h : getBitvecStored n s = .ok r s') :
    r = (s.off % 8, (s.bits.drop s.off).take n) ∧ s' = { s with off := s.off + n } ∧
      s.off + n ≤ s.bits.length := by
  rw [getBitvecStored_apply] at h
  cases hr : takeBits n s with
  | ok l t =>
    rw [hr] at h
    obtain ⟨h1, h2, h3⟩ := takeBits_ok hr
    cases h
    exact ⟨by rw [h1], h2, h3⟩
  | err _ => rw [hr] at h; cases h
  | panic => rw [hr] at h; cases h

/-- Each octet is a group of eight wire bits, rotated by the storage offset. -/
theorem loadChunks_getElem {h : Nat} (hh : h < 8) : ∀ (n : Nat) (l : List Bool), l.length = 8 * n →
    (loadChunks h l).length = n ∧ ∀ i b, (loadChunks h l)[i]? = some b →
      byteBits b = ((l.drop (8 * i)).take 8).rotateRight h := by
  intro n
  induction n with
  | zero =>
    intro l hl
    have : l = [] := List.eq_nil_of_length_eq_zero (by omega)
    subst this
    simp [loadChunks]
  | succ n ih =>
    intro l hl
    obtain ⟨c, r, rfl, hc⟩ : ∃ c r, l = c ++ r ∧ c.length = 8 :=
      ⟨l.take 8, l.drop 8, (List.take_append_drop 8 l).symm, by simp; omega⟩
    rw [List.length_append] at hl
    obtain ⟨h1, h2⟩ := ih r (by omega)
    rw [loadChunks_eight_append hc]
    refine ⟨by simp [h1], fun i b hb => ?_⟩
    cases i with
    | zero =>
      cases hb
      rw [Nat.mul_zero, List.drop_zero, List.take_left' hc]
      unfold loadLE8
      rw [byteBits_ofNat (by simp; omega)]
      unfold List.rotateRight
      simp only [hc]
      rw [if_neg (by omega), Nat.mod_eq_of_lt hh]
    | succ i =>
      rw [show 8 * (i + 1) = 8 * i + c.length by omega, Nat.add_comm (8 * i),
        List.drop_length_add_append]
      exact h2 i b (by simpa using hb)

theorem decodeText_ok {r : Nat × List Bool} {s s' : Codec} {v : String}
    (h : decodeText r s = .ok v s') : utf8 v = loadChunks r.1 r.2 ∧ s' = s := by
  unfold decodeText at h
  cases hs : fromUtf8 (loadChunks r.1 r.2) with
  | none => rw [hs] at h; cases h
  | some str => rw [hs] at h; cases h; exact ⟨fromUtf8_eq_some_iff.mp hs, rfl⟩

/-- **C14.** A decoded string's UTF-8 octets are, one by one, the groups of eight bits before the
final position, each rotated right by that position modulo 8 (not at all on an octet boundary). -/
theorem C14_text_is_wire_octets (lb ub : Option Int) (ext : Bool) (s s' : Codec) (v : String)
    (h : decodeString lb ub ext s = .ok v s') :
    s'.bits = s.bits ∧ 8 * (utf8 v).length ≤ s'.off ∧ s'.off ≤ s.bits.length ∧
    ∀ i b, (utf8 v)[i]? = some b → byteBits b =
      ((s.bits.drop (s'.off - 8 * (utf8 v).length + 8 * i)).take 8).rotateRight (s'.off % 8) := by
  have hf := (IsDec.string lb ub ext).reader.frame s
  rw [h] at hf
  obtain ⟨hbits, -, -⟩ := hf
  unfold decodeString at h
  obtain ⟨x, s1, h1, h⟩ := bind_ok h
  obtain ⟨n, s2, h2, h⟩ := bind_ok h
  obtain ⟨_, s3, h3, h⟩ := bind_ok h
  obtain ⟨r, s4, h4, h⟩ := bind_ok h
  obtain ⟨hr, e4, hle⟩ := getBitvecStored_ok h4
  obtain ⟨hu, e5⟩ := decodeText_ok h
  subst e5 e4 hr
  dsimp only at hbits hu
  have hlen : ((s3.bits.drop s3.off).take (n * 8)).length = 8 * n := by simp; omega
  obtain ⟨hl, hg⟩ := loadChunks_getElem (h := s3.off % 8) (by omega) n _ hlen
  rw [← hu] at hl hg
  refine ⟨hbits, by dsimp only; omega, by dsimp only; rw [← hbits]; exact hle, fun i b hb => ?_⟩
  have hi : i < (utf8 v).length := (List.getElem?_eq_some_iff.mp hb).1
  rw [hg i b hb]
  dsimp only
  rw [← hbits, hl, show s3.off + n * 8 - 8 * n = s3.off by omega,
    show (s3.off + n * 8) % 8 = s3.off % 8 by omega, List.drop_take, List.take_take,
    List.drop_drop, Nat.min_eq_left (by omega)]

example : decodeString (some 2) (some 2) false ⟨bytesBits [97, 98], 0, none⟩ = .ok "ab" ⟨bytesBits [97, 98], 16, none⟩ := by
  decide +kernel

theorem decodeStringLength_fixed {n : Nat} (hn : n < 65536) :
    decodeStringLength false (some (n : Int)) (some (n : Int)) = pure n := by
  have e : toUsizeOrPanic (n : Int) = pure n := by
    unfold toUsizeOrPanic
    rw [if_pos (by omega), Int.toNat_natCast]
  have c1 : (n < 65536) = True := eq_true hn
  unfold decodeStringLength decodeLength lengthLowerBound
  simp only [Bool.false_eq_true, if_false, e, M.pure_bind', c1, if_true]

theorem decodeString_fixed {n : Nat} (hn : n < 65536) :
    decodeString (some (n : Int)) (some (n : Int)) false = (do
      decodeAlignIf (16 < n * 8)
      let bits ← getBitvecStored (n * 8)
      decodeText bits) := by
  have h : ∀ lb ub : Option Int, decodeString lb ub false = (do
      let len ← decodeStringLength false lb ub
      decodeAlignIf (16 < len * 8)
      let bits ← getBitvecStored (len * 8)
      decodeText bits) := fun _ _ => rfl
  rw [h, decodeStringLength_fixed hn, M.pure_bind']

theorem decodeString_fixed_apply {n : Nat} (hn : n < 65536) {octets : List UInt8}
    (ho : octets.length = n) (pre suf : List Bool) (hp : pre.length % 8 = 0) (key : Option Int) :
    decodeString (some (n : Int)) (some (n : Int)) false
        ⟨pre ++ bytesBits octets ++ suf, pre.length, key⟩ =
      decodeText (0, bytesBits octets)
        ⟨pre ++ bytesBits octets ++ suf, pre.length + 8 * n, key⟩ := by
  rw [decodeString_fixed hn]
  have ha := Decodes.alignIf pre.length (decide (16 < n * 8)) pre
    (bytesBits octets ++ suf) key rfl
  have hpad : (if decide (16 < n * 8) = true then pad pre.length else []) = [] := by
    have : padLen pre.length = 0 := by unfold padLen; omega
    split <;> simp [pad, this]
  rw [hpad] at ha
  simp only [List.append_nil, List.length_nil, Nat.add_zero] at ha
  rw [M.bind_apply, List.append_assoc, ha]
  dsimp only
  have hb := Decodes.bitvecStored pre.length (bytesBits octets) pre suf key rfl
  rw [List.append_assoc] at hb
  have hl : n * 8 = (bytesBits octets).length := by rw [bytesBits_length]; omega
  rw [hl, M.bind_apply, hb]
  dsimp only
  rw [hp, bytesBits_length, ho]

/-- **C14.** At an octet boundary a string of fixed size `n` is accepted exactly when its octets are
the UTF-8 form of a text, which is then the result; otherwise the outcome is `Err`. -/
theorem C14_valid_text_iff (n : Nat) (hn : n < 65536) (octets : List UInt8)
    (ho : octets.length = n) (pre suf : List Bool) (hp : pre.length % 8 = 0) (key : Option Int) :
    (∀ v, utf8 v = octets →
      decodeString (some (n : Int)) (some (n : Int)) false
          ⟨pre ++ bytesBits octets ++ suf, pre.length, key⟩ =
        .ok v ⟨pre ++ bytesBits octets ++ suf, pre.length + 8 * n, key⟩) ∧
    ((¬ ∃ v, utf8 v = octets) →
      Refuses (decodeString (some (n : Int)) (some (n : Int)) false
        ⟨pre ++ bytesBits octets ++ suf, pre.length, key⟩)) := by
  rw [decodeString_fixed_apply hn ho pre suf hp key]
  unfold decodeText
  dsimp only
  rw [loadChunks_zero]
  constructor
  · intro v hv
    rw [fromUtf8_eq_some_iff.mpr hv]
    rfl
  · intro hno
    cases hr : fromUtf8 octets with
    | none => exact ⟨_, rfl⟩
    | some v => exact absurd ⟨v, fromUtf8_eq_some_iff.mp hr⟩ hno

example : utf8 "aé" = [97, 195, 169] := by decide

/-! ## C15 -/

/-- One turn of the loop at an octet boundary. -/
theorem Decodes.chunk {f : Nat → M (List α)} {enc : List α → List Bool}
    (hf : ∀ p units, Decodes (f units.length) p (enc units) units) (h0 : enc [] = [])
    (n p : Nat) (hp : p % 8 = 0) (units : List α) :
    Decodes (decodeChunk n f units.length) p (enc units) units := by
  unfold decodeChunk
  split
  · have h1 := Decodes.alignIf p (decide (n < units.length))
    have hpad : (if decide (n < units.length) = true then pad p else []) = [] := by
      have : padLen p = 0 := by unfold padLen; omega
      split <;> simp [pad, this]
    rw [hpad] at h1
    exact Decodes.bind h1 (hf _ units)
  · next h =>
    have : units = [] := List.eq_nil_of_length_eq_zero (by omega)
    subst this
    rw [h0]
    exact .pure _ _

/-- A length of `m` times 16K. -/
theorem Decodes.fragmentLength {m : Nat} (h1 : 1 ≤ m) (h4 : m ≤ 4) (p : Nat) :
    Decodes decodeIndefiniteLength p (pad p ++ (true :: true :: natToBits 6 m)) (16384 * m) := by
  unfold decodeIndefiniteLength
  refine .bind (.align p) (.bind (w := [true]) (w2 := true :: natToBits 6 m) (.boolM _ true)
    (.bind (w := [true]) (w2 := natToBits 6 m) (.boolM _ true) ?_))
  have := Decodes.bind (w2 := []) (g := fun l : Int => if ¬ (1 ≤ l ∧ l ≤ 4) then M.fail
      else (Pure.pure (l * 16384).toNat : M Nat)) (b := 16384 * m)
    (Decodes.nat (p + (pad p).length + 1 + 1) (n := 6) (x := m) (by omega)
      (by omega) (by omega)) (by
        rw [if_neg (by omega)]
        have : ((m : Int) * 16384).toNat = 16384 * m := by omega
        rw [this]
        exact .pure _ _)
  simpa using this

/-- The fragments after the first alignment. -/
def fragWord (enc : List α → List Bool) (frags : List (List α)) (last : List α) : List Bool :=
  frags.flatMap (fun u => (true :: true :: natToBits 6 (u.length / 16384)) ++ enc u) ++
    (indefWord 0 last.length ++ enc last)

theorem fragLoop_decodes {len : M Nat} {f : Nat → M (List α)} {enc : List α → List Bool} (n : Nat)
    (hm : ∀ m p, 1 ≤ m → m ≤ 4 →
      Decodes len p (pad p ++ (true :: true :: natToBits 6 m)) (16384 * m))
    (hl : ∀ k p, k < 16384 → Decodes len p (indefWord p k) k)
    (hf : ∀ p units, Decodes (f units.length) p (enc units) units) (h0 : enc [] = [])
    (h8 : ∀ u : List α, u.length % 16384 = 0 → (enc u).length % 8 = 0)
    (last : List α) (hlast : last.length < 16384) :
    ∀ (frags : List (List α)) (acc : List α) (p : Nat), p % 8 = 0 →
      (∀ u ∈ frags, ∃ m, 1 ≤ m ∧ m ≤ 4 ∧ u.length = 16384 * m) →
      Decodes (fragLoop len n f (frags.length + 1) acc) p (fragWord enc frags last)
        (acc ++ frags.flatten ++ last) := by
  have hpad : ∀ p, p % 8 = 0 → pad p = [] := by
    intro p hp
    have : padLen p = 0 := by unfold padLen; omega
    simp [pad, this]
  intro frags
  induction frags with
  | nil =>
    intro acc p hp _
    simp only [fragLoop, List.length_nil, fragWord, List.flatMap_nil, List.nil_append,
      List.flatten_nil, List.append_nil]
    have h1 := hl last.length p hlast
    have e : indefWord p last.length = indefWord 0 last.length := by
      unfold indefWord; rw [hpad p hp, hpad 0 rfl]
    rw [e] at h1
    have h8' : (indefWord 0 last.length).length % 8 = 0 := by
      unfold indefWord; rw [hpad 0 rfl]; split <;> simp
    refine .bind h1 ?_
    have h2 := Decodes.chunk hf h0 n (p + (indefWord 0 last.length).length) (by omega) last
    have := Decodes.bind (w2 := []) (g := fun c => if 16384 ≤ last.length then
        M.panic else (pure (acc ++ c) : M (List α))) (b := acc ++ last) h2
      (by rw [if_neg (by omega)]; exact .pure _ _)
    simpa using this
  | cons u frags ih =>
    intro acc p hp hu
    obtain ⟨m, hm1, hm4, hlen⟩ := hu u List.mem_cons_self
    have h1 := hm m p hm1 hm4
    rw [hpad p hp, List.nil_append] at h1
    have hdiv : u.length / 16384 = m := by omega
    have hw : fragWord enc (u :: frags) last =
        (true :: true :: natToBits 6 m) ++ (enc u ++ fragWord enc frags last) := by
      simp [fragWord, hdiv, List.append_assoc]
    rw [hw]
    have hfr : fragLoop len n f ((u :: frags).length + 1) acc = (do
        let length ← len
        let chunk ← decodeChunk n f length
        if 16384 ≤ length then fragLoop len n f (frags.length + 1) (acc ++ chunk)
        else pure (acc ++ chunk)) := rfl
    rw [hfr]
    refine .bind h1 ?_
    have hpos : (p + (true :: true :: natToBits 6 m).length) % 8 = 0 := by simp; omega
    have h2 := Decodes.chunk hf h0 n _ hpos u
    rw [hlen] at h2
    refine .bind h2 ?_
    rw [if_pos (by omega)]
    have h3 := ih (acc ++ u) (p + (true :: true :: natToBits 6 m).length + (enc u).length)
      (by have := h8 u (by omega); omega) (fun v hv => hu v (List.mem_cons_of_mem _ hv))
    simpa [List.append_assoc] using h3

theorem decodeFragments_decodes {len : M Nat} {f : Nat → M (List α)} {enc : List α → List Bool}
    (n : Nat)
    (hm : ∀ m p, 1 ≤ m → m ≤ 4 →
      Decodes len p (pad p ++ (true :: true :: natToBits 6 m)) (16384 * m))
    (hl : ∀ k p, k < 16384 → Decodes len p (indefWord p k) k)
    (hf : ∀ p units, Decodes (f units.length) p (enc units) units) (h0 : enc [] = [])
    (h8 : ∀ u : List α, u.length % 16384 = 0 → (enc u).length % 8 = 0)
    (last : List α) (hlast : last.length < 16384) (frags : List (List α))
    (hu : ∀ u ∈ frags, ∃ m, 1 ≤ m ∧ m ≤ 4 ∧ u.length = 16384 * m) (p : Nat)
    (hd : len = (decodeAlign >>= fun _ => len)) :
    Decodes (decodeFragments len n f) p (pad p ++ fragWord enc frags last)
      (frags.flatten ++ last) := by
  have hq : (p + (pad p).length) % 8 = 0 := by rw [pad_length]; exact padLen_add p
  have h1 := fragLoop_decodes n hm hl hf h0 h8 last hlast frags [] (p + (pad p).length) hq hu
  have hcomb : Decodes (fragLoop len n f (frags.length + 1) []) p (pad p ++ fragWord enc frags last)
      (frags.flatten ++ last) := by
    have e : fragLoop len n f (frags.length + 1) [] =
        (decodeAlign >>= fun _ => fragLoop len n f (frags.length + 1) []) := by
      funext s
      have hs : len s = (decodeAlign >>= fun _ => len) s := congrFun hd s
      rw [M.bind_apply] at hs ⊢
      simp only [fragLoop, M.bind_apply, hs]
      cases decodeAlign s <;> rfl
    rw [e]
    have := Decodes.bind (g := fun _ => fragLoop len n f (frags.length + 1) []) (Decodes.align p) h1
    simpa using this
  intro pre suf k hp
  have h2 := hcomb pre suf k hp
  unfold decodeFragments
  rw [fragLoop_mono n (frags.length + 1) _ _ _ ?_ (by rw [h2]; simp), h2]
  have hlen : frags.length ≤ (fragWord enc frags last).length := by
    unfold fragWord
    clear h1 h2 hcomb hu hd hq
    rw [List.length_append]
    refine Nat.le_trans ?_ (Nat.le_add_right _ _)
    induction frags with
    | nil => simp
    | cons u frags ih =>
      rw [List.flatMap_cons, List.length_append, List.length_cons]
      simp only [List.length_append, List.length_cons] at ih ⊢
      omega
  simp only [List.length_append]
  omega

theorem decodeAlign_idem : decodeAlign = (decodeAlign >>= fun _ => decodeAlign) := by
  funext s
  rw [M.bind_apply]
  unfold decodeAlign
  by_cases h : s.off % 8 = 0
  · simp only [if_pos h]
  · simp only [if_neg h]
    split
    · rfl
    · split
      · dsimp only
        rw [if_pos (by omega)]
      · rfl

theorem decodeIndefinite_align :
    decodeIndefiniteLength = (decodeAlign >>= fun _ => decodeIndefiniteLength) := by
  unfold decodeIndefiniteLength
  conv => lhs; rw [decodeAlign_idem]
  funext s
  simp only [M.bind_apply]
  cases h : decodeAlign s with
  | ok a t => dsimp only
  | err _ => rfl
  | panic => rfl

/-- What X.691 prescribes for a string cut into `frags` of 16K to 64K units and a `last` one, at
position `p`; `enc` turns units into bits. -/
def Spec.fragmented (enc : List α → List Bool) (p : Nat) (frags : List (List α)) (last : List α) :
    List Bool :=
  Spec.alignment p ++ frags.flatMap (fun u => Spec.fragment (u.length / 16384) (enc u)) ++
    Spec.generalLength 0 last.length ++ enc last

theorem fragmented_eq (enc : List α → List Bool) (p : Nat) (frags : List (List α))
    (last : List α) : Spec.fragmented enc p frags last = pad p ++ fragWord enc frags last := by
  unfold Spec.fragmented fragWord Spec.fragment
  rw [← indefWord_eq, alignment_eq]
  simp only [be_eq, List.append_assoc, List.cons_append, List.nil_append]

end Hampi
