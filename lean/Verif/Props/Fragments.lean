import Verif.Props.Align
import Verif.Props.Integers
/-!
# C15, C31: strings received in fragments, long extension additions

X.691 cuts a string of 16384 units or more, when its length is written as a general length, into
fragments of 16K, 32K, 48K or 64K units. That is the case of a type without upper size bound or with
one of 65536 or more, and of an extension addition whatever the bounds.
-/
namespace Hampi

open Spec (SizeBounds)

variable {α : Type}

/-- The lengths of strings with these bounds are general lengths: there is no upper bound, or one of
65536 or more. -/
def Spec.GeneralBounds (lb ub : Option Int) : Prop :=
  SizeBounds lb ub ∧ ∀ u, ub = some u → 65536 ≤ u

theorem stringLength_general {lb ub : Option Int} (h : Spec.GeneralBounds lb ub) :
    decodeStringLength false lb ub = decodeIndefiniteLength := by
  show decodeLength lb ub false = _
  unfold decodeLength
  rw [lengthLowerBound_eq h.1]
  cases ub with
  | none => rfl
  | some u =>
    have h1 := h.1.2 u rfl
    have h2 := h.2 u rfl
    have e : toUsizeOrPanic u = Pure.pure u.toNat := by
      simp only [toUsizeOrPanic, if_pos h1]
    show (toUsizeOrPanic u >>= fun u => if u < 65536 then _ else decodeIndefiniteLength) = _
    rw [e]
    show (if u.toNat < 65536 then _ else decodeIndefiniteLength) = _
    rw [if_neg (by omega)]

theorem bit_fragments_decode (frags : List (List Bool)) (last : List Bool)
    (hu : ∀ u ∈ frags, ∃ m, 1 ≤ m ∧ m ≤ 4 ∧ u.length = 16384 * m) (hl : last.length < 16384)
    (p : Nat) : Decodes (decodeFragments decodeIndefiniteLength 16 getBitvec) p
      (Spec.fragmented id p frags last) (frags.flatten ++ last) := by
  rw [fragmented_eq]
  exact decodeFragments_decodes 16 (len := decodeIndefiniteLength) (f := getBitvec) (enc := id)
    (fun m p h1 h4 => .fragmentLength h1 h4 p)
    (fun k p h => decodeIndefinite_decodes h p) (fun p u => .bitvec p u) rfl
    (fun u h => by simp; omega) last hl frags hu p decodeIndefinite_align

theorem octet_fragments_decode (frags : List (List UInt8)) (last : List UInt8)
    (hu : ∀ u ∈ frags, ∃ m, 1 ≤ m ∧ m ≤ 4 ∧ u.length = 16384 * m) (hl : last.length < 16384)
    (p : Nat) : Decodes (decodeFragments decodeIndefiniteLength 2 getBytes) p
      (Spec.fragmented Spec.octetBits p frags last) (frags.flatten ++ last) := by
  rw [fragmented_eq, show Spec.octetBits = bytesBits from funext octetBits_eq]
  exact decodeFragments_decodes 2 (len := decodeIndefiniteLength) (f := getBytes) (enc := bytesBits)
    (fun m p h1 h4 => .fragmentLength h1 h4 p)
    (fun k p h => decodeIndefinite_decodes h p) (fun p u => .bytes p u) rfl
    (fun u h => by simp) last hl frags hu p decodeIndefinite_align

/-- The first fragment of a character string, and nothing else, is read. -/
theorem text_fragment_decode (str : String) {m : Nat} (h1 : 1 ≤ m) (h4 : m ≤ 4)
    (hs : (utf8 str).length = 16384 * m) (p : Nat) :
    Decodes (decodeIndefiniteLength >>= fun len => decodeAlignIf (16 < len * 8) >>= fun _ =>
      getBitvecStored (len * 8) >>= decodeText) p
      (pad p ++ (true :: true :: natToBits 6 m) ++ bytesBits (utf8 str)) str := by
  refine Decodes.bind (Decodes.fragmentLength h1 h4 p) ?_
  rw [← hs]
  have h0 : (p + (pad p ++ true :: true :: natToBits 6 m).length) % 8 = 0 := by
    simp only [List.length_append, List.length_cons, natToBits_length, pad_length]
    have := padLen_add p
    omega
  have := Decodes.text (str := str) (.inr (.inl h0))
  rw [pad_zero h0] at this
  simpa using this

/-! ## C15 -/

/-- **C15.** A BIT STRING whose length is a general length is reassembled. -/
theorem C15_bitstring_fragments (lb ub : Option Int) (hb : Spec.GeneralBounds lb ub)
    (frags : List (List Bool)) (last : List Bool)
    (hu : ∀ u ∈ frags, ∃ m, 1 ≤ m ∧ m ≤ 4 ∧ u.length = 16384 * m) (hl : last.length < 16384)
    (pre suf : List Bool) (key : Option Int) :
    let w := Spec.fragmented id pre.length frags last
    decodeBitstring lb ub false ⟨pre ++ w ++ suf, pre.length, key⟩ =
      .ok (frags.flatten ++ last) ⟨pre ++ w ++ suf, pre.length + w.length, key⟩ := by
  dsimp only
  have e : decodeBitstring lb ub false = decodeFragments decodeIndefiniteLength 16 getBitvec := by
    rw [← stringLength_general hb]; rfl
  rw [e]
  exact bit_fragments_decode frags last hu hl pre.length pre suf key rfl

example : Spec.GeneralBounds none none ∧ Spec.GeneralBounds (some 1) (some 100000) := by
  constructor <;> refine ⟨⟨fun l h => ?_, fun u h => ?_⟩, fun u h => ?_⟩ <;> cases h <;> decide

example : ∀ u ∈ [List.replicate 16384 true, List.replicate 65536 false], ∃ m, 1 ≤ m ∧ m ≤ 4 ∧ u.length = 16384 * m := by
  intro u hu
  rcases List.mem_cons.1 hu with rfl | hu
  · exact ⟨1, by decide, by decide, by rw [List.length_replicate]⟩
  · rw [List.mem_singleton.1 hu]
    exact ⟨4, by decide, by decide, by rw [List.length_replicate]⟩

/-- **C15.** An OCTET STRING whose length is a general length is reassembled. -/
theorem C15_octetstring_fragments (lb ub : Option Int) (hb : Spec.GeneralBounds lb ub)
    (frags : List (List UInt8)) (last : List UInt8)
    (hu : ∀ u ∈ frags, ∃ m, 1 ≤ m ∧ m ≤ 4 ∧ u.length = 16384 * m) (hl : last.length < 16384)
    (pre suf : List Bool) (key : Option Int) :
    let w := Spec.fragmented Spec.octetBits pre.length frags last
    decodeOctetstring lb ub false ⟨pre ++ w ++ suf, pre.length, key⟩ =
      .ok (frags.flatten ++ last) ⟨pre ++ w ++ suf, pre.length + w.length, key⟩ := by
  dsimp only
  have e : decodeOctetstring lb ub false = decodeFragments decodeIndefiniteLength 2 getBytes := by
    rw [← stringLength_general hb]; rfl
  rw [e]
  exact octet_fragments_decode frags last hu hl pre.length pre suf key rfl

example : ∀ u ∈ [List.replicate 16384 (7 : UInt8), List.replicate 65536 1],
    ∃ m, 1 ≤ m ∧ m ≤ 4 ∧ u.length = 16384 * m := by
  intro u hu
  simp only [List.mem_cons, List.not_mem_nil, or_false] at hu
  rcases hu with rfl | rfl
  · exact ⟨1, by omega, by omega, List.length_replicate⟩
  · exact ⟨4, by omega, by omega, List.length_replicate⟩

/-- What X.691 prescribes for a string in fragments is the first fragment followed by the rest. -/
theorem fragmented_cons (p : Nat) (first : List UInt8) (frags : List (List UInt8))
    (last : List UInt8) {m : Nat} (hm : first.length = 16384 * m) :
    Spec.fragmented Spec.octetBits p (first :: frags) last =
      (pad p ++ (true :: true :: natToBits 6 m) ++ bytesBits first) ++
        fragWord bytesBits frags last := by
  rw [fragmented_eq, show Spec.octetBits = bytesBits from funext octetBits_eq]
  unfold fragWord
  rw [List.flatMap_cons, hm, Nat.mul_div_cancel_left _ (by omega)]
  simp [List.append_assoc]

theorem fragWord_pos (frags : List (List UInt8)) (last : List UInt8) :
    0 < (fragWord bytesBits frags last).length := by
  unfold fragWord
  simp only [List.length_append]
  have : 0 < (indefWord 0 last.length).length := by
    unfold indefWord
    simp only [List.length_append]
    split <;> simp <;> omega
  omega

/-- **C15 is violated for character strings.** Whatever character string a peer sends in fragments,
the decoder returns `Ok` with the text of the first fragment alone (when that is text), and stops
there: the remaining fragments are left to be taken for the next field. -/
theorem C15_string_fragments_violated (lb ub : Option Int) (hb : Spec.GeneralBounds lb ub)
    (str : String) (m : Nat) (h1 : 1 ≤ m) (h4 : m ≤ 4) (hs : (utf8 str).length = 16384 * m)
    (frags : List (List UInt8)) (last : List UInt8) (pre suf : List Bool) (key : Option Int) :
    let w := Spec.fragmented Spec.octetBits pre.length (utf8 str :: frags) last
    ∃ n, n < w.length ∧ decodeString lb ub false ⟨pre ++ w ++ suf, pre.length, key⟩ =
      .ok str ⟨pre ++ w ++ suf, pre.length + n, key⟩ := by
  dsimp only
  rw [fragmented_cons _ _ _ _ hs]
  have e : decodeString lb ub false = (decodeIndefiniteLength >>= fun len =>
      decodeAlignIf (16 < len * 8) >>= fun _ => getBitvecStored (len * 8) >>= decodeText) := by
    rw [← stringLength_general hb]; rfl
  rw [e]
  refine ⟨(pad pre.length ++ (true :: true :: natToBits 6 m) ++ bytesBits (utf8 str)).length, ?_, ?_⟩
  · have := fragWord_pos frags last
    rw [List.length_append (bs := fragWord bytesBits frags last)]
    omega
  · have := text_fragment_decode str h1 h4 hs pre.length pre (fragWord bytesBits frags last ++ suf)
      key rfl
    simpa [List.append_assoc] using this

/-- A text of one fragment. -/
theorem utf8_ones (n : Nat) : (utf8 (String.ofList (List.replicate n '1'))).length = n := by
  induction n with
  | zero => decide +kernel
  | succ n ih =>
    have e : String.ofList (List.replicate (n + 1) '1') =
        String.ofList ['1'] ++ String.ofList (List.replicate n '1') := by
      rw [← String.ofList_append]; rfl
    rw [e, utf8_append, List.length_append, ih,
      show (utf8 (String.ofList ['1'])).length = 1 by decide +kernel]
    omega

example : ∃ str, (utf8 str).length = 16384 * 2 := ⟨_, utf8_ones (16384 * 2)⟩

/-! ## C31 -/

/-- **C31 is violated for INTEGERs of 9 to 15 octets.** -/
theorem C31_integer_extension_violated (lb ub : Option Int) (k : Nat) (v : Int)
    (h9 : 9 ≤ k) (h15 : k ≤ 15) (pre suf : List Bool) (key : Option Int) :
    let w := [true] ++ Spec.unconstrained (pre.length + 1) k v
    ∃ t, decodeInteger lb ub true ⟨pre ++ w ++ suf, pre.length, key⟩ = .err t := by
  dsimp only
  unfold Spec.unconstrained
  rw [← indefWord_eq]
  obtain ⟨t, ht⟩ := decodeUnconstrained_err (k := k) (by omega) (by unfold SignedOctets; omega)
    (pre ++ [true]) (Spec.be (8 * k) (Spec.twos (8 * k) v) ++ suf) key
  refine ⟨t, ?_⟩
  have hb := Decodes.boolM pre.length true pre
    (indefWord (pre.length + 1) k ++ Spec.be (8 * k) (Spec.twos (8 * k) v) ++ suf) key rfl
  rw [List.length_append, List.length_singleton] at ht
  show (decodeBoolM >>= fun e => decodeIntegerValue lb ub e >>= fun x => pure (x, e)) _ = _
  rw [M.bind_apply]
  simp only [List.append_assoc] at hb ht ⊢
  rw [hb]
  show (decodeUnconstrained >>= fun x => pure (x, true)) _ = _
  rw [M.bind_apply, List.length_singleton, ht]

/-- **C31.** A BIT STRING extension addition in fragments. -/
theorem C31_bitstring_fragments (lb ub : Option Int) (frags : List (List Bool)) (last : List Bool)
    (hu : ∀ u ∈ frags, ∃ m, 1 ≤ m ∧ m ≤ 4 ∧ u.length = 16384 * m) (hl : last.length < 16384)
    (pre suf : List Bool) (key : Option Int) :
    let w := [true] ++ Spec.fragmented id (pre.length + 1) frags last
    decodeBitstring lb ub true ⟨pre ++ w ++ suf, pre.length, key⟩ =
      .ok (frags.flatten ++ last) ⟨pre ++ w ++ suf, pre.length + w.length, key⟩ := by
  dsimp only
  refine (?_ : Decodes (decodeBitstring lb ub true) pre.length _ _) pre suf key rfl
  exact Decodes.bind (g := fun e => decodeFragments (decodeStringLength e lb ub) 16 getBitvec)
    (.boolM pre.length true) (bit_fragments_decode frags last hu hl (pre.length + 1))

/-- **C31.** An OCTET STRING extension addition in fragments. -/
theorem C31_octetstring_fragments (lb ub : Option Int) (frags : List (List UInt8))
    (last : List UInt8) (hu : ∀ u ∈ frags, ∃ m, 1 ≤ m ∧ m ≤ 4 ∧ u.length = 16384 * m)
    (hl : last.length < 16384) (pre suf : List Bool) (key : Option Int) :
    let w := [true] ++ Spec.fragmented Spec.octetBits (pre.length + 1) frags last
    decodeOctetstring lb ub true ⟨pre ++ w ++ suf, pre.length, key⟩ =
      .ok (frags.flatten ++ last) ⟨pre ++ w ++ suf, pre.length + w.length, key⟩ := by
  dsimp only
  refine (?_ : Decodes (decodeOctetstring lb ub true) pre.length _ _) pre suf key rfl
  exact Decodes.bind (g := fun e => decodeFragments (decodeStringLength e lb ub) 2 getBytes)
    (.boolM pre.length true) (octet_fragments_decode frags last hu hl (pre.length + 1))

/-- **C31 is violated for character strings in fragments.** The decoder stops after the first. -/
theorem C31_string_fragments_violated (lb ub : Option Int) (str : String) (m : Nat)
    (h1 : 1 ≤ m) (h4 : m ≤ 4) (hs : (utf8 str).length = 16384 * m)
    (frags : List (List UInt8)) (last : List UInt8) (pre suf : List Bool) (key : Option Int) :
    let w := [true] ++ Spec.fragmented Spec.octetBits (pre.length + 1) (utf8 str :: frags) last
    ∃ n, n < w.length ∧ decodeString lb ub true ⟨pre ++ w ++ suf, pre.length, key⟩ =
      .ok str ⟨pre ++ w ++ suf, pre.length + n, key⟩ := by
  dsimp only
  rw [fragmented_cons _ _ _ _ hs]
  refine ⟨([true] ++ (pad (pre.length + 1) ++ (true :: true :: natToBits 6 m) ++
    bytesBits (utf8 str))).length, ?_, ?_⟩
  · have := fragWord_pos frags last
    generalize pad (pre.length + 1) ++ (true :: true :: natToBits 6 m) ++ bytesBits (utf8 str) = a
    simp only [List.length_append]
    omega
  · have : Decodes (decodeString lb ub true) pre.length _ str :=
      Decodes.bind (.boolM pre.length true) (text_fragment_decode str h1 h4 hs (pre.length + 1))
    have := this pre (fragWord bytesBits frags last ++ suf) key rfl
    simpa [List.append_assoc] using this

end Hampi
