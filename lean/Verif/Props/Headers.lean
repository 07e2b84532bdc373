import Verif.Lemmas.Items
import Verif.Props.Lengths
/-!
# C16-C19: enumerations, choice indexes, sequence headers, booleans
-/
namespace Hampi

open Spec (ReadsBack Succeeds Refuses)

/-- **C16.** ENUMERATED round trip. -/
theorem C16_enumerated_round_trip (lb ub v : Int) (hv : IsI128 v) (ext extended : Bool) :
    ReadsBack (encodeEnumerated (some lb) (some ub) ext v extended)
      (decodeEnumerated (some lb) (some ub) ext) (v, false) :=
  (RT.enumerated hv (fun h => by cases h) ext extended).readsBack

example : ReadsBack (encodeEnumerated (some 0) (some 5) true 3 false) (decodeEnumerated (some 0) (some 5) true)
    (3, false) := C16_enumerated_round_trip 0 5 3 (by decide) true false

/-- **C17.** CHOICE index round trip. -/
theorem C17_choice_round_trip (lb ub v : Int) (hv : IsI128 v) (ext extended : Bool) :
    ReadsBack (encodeChoiceIdx lb ub ext v extended) (decodeChoiceIdx lb ub ext) (v, false) :=
  (RT.choiceIdx hv ext extended).readsBack

example : ReadsBack (encodeChoiceIdx 0 5 true 3 false) (decodeChoiceIdx 0 5 true) (3, false) :=
  C17_choice_round_trip 0 5 3 (by decide) true false

theorem encodeInteger_in_bounds {lb ub v : Int} (h1 : lb ≤ v) (h2 : v ≤ ub)
    (hr : ub - lb < 65536) (s : Codec) :
    ∃ t, encodeInteger (some lb) (some ub) false v false s = .ok () t := by
  unfold encodeInteger encodeExtBit
  simp only [Bool.false_eq_true, if_false, M.pure_bind']
  exact ⟨_, encodeConstrained_writes (InRange.of h1 h2 (by omega)) (by omega) s.bits.length s rfl⟩

/-- **C16.** Every root index is accepted (up to 65536 root values). -/
theorem C16_enumerated_accepted (lb ub v : Int) (h1 : lb ≤ v) (h2 : v ≤ ub) (hr : ub - lb < 65536)
    (ext : Bool) (s : Codec) :
    Succeeds (encodeEnumerated (some lb) (some ub) ext v false s) := by
  unfold encodeEnumerated
  simp only [Bool.false_eq_true, if_false]
  cases ext
  · obtain ⟨t, ht⟩ := encodeInteger_in_bounds h1 h2 hr s
    exact ⟨(), t, ht⟩
  · obtain ⟨t, ht⟩ := encodeInteger_in_bounds h1 h2 hr { s with bits := s.bits ++ [false] }
    exact ⟨(), t, ht⟩

example (s : Codec) : Succeeds (encodeEnumerated (some 0) (some 500) true 300 false s) :=
  C16_enumerated_accepted 0 500 300 (by decide) (by decide) (by decide) true s

/-- **C17.** Every root index is accepted (up to 65536 root alternatives). -/
theorem C17_choice_accepted (lb ub v : Int) (h1 : lb ≤ v) (h2 : v ≤ ub) (hr : ub - lb < 65536)
    (ext : Bool) (s : Codec) : Succeeds (encodeChoiceIdx lb ub ext v false s) := by
  unfold encodeChoiceIdx
  simp only [Bool.false_eq_true, if_false]
  cases ext
  · obtain ⟨t, ht⟩ := encodeInteger_in_bounds h1 h2 hr s
    exact ⟨(), t, ht⟩
  · obtain ⟨t, ht⟩ := encodeInteger_in_bounds h1 h2 hr { s with bits := s.bits ++ [false] }
    exact ⟨(), t, ht⟩

example : encodeEnumerated (some 0) (some 5) true 3 false Codec.new =
  .ok () ⟨[false, false, true, true], 0, none⟩ := by decide
example : encodeChoiceIdx 0 2 true 2 false Codec.new =
  .ok () ⟨[false, true, false], 0, none⟩ := by decide

/-- **C18.** SEQUENCE header round trip. -/
theorem C18_header_round_trip (ext extended : Bool) (bitmap : List Bool) :
    ReadsBack (encodeSequenceHeader ext bitmap extended)
      (decodeSequenceHeader ext bitmap.length) (bitmap, false) :=
  (RT.sequenceHeader ext bitmap extended).readsBack

example : ReadsBack (encodeSequenceHeader true [true, false, true] false) (decodeSequenceHeader true 3)
    ([true, false, true], false) := C18_header_round_trip true false [true, false, true]

/-- **C18.** The header is the extension bit of an extensible type and then the bitmap. -/
theorem C18_header_layout (ext : Bool) (bitmap : List Bool) (s : Codec) :
    encodeSequenceHeader ext bitmap false s =
      .ok () { s with bits := s.bits ++ ((if ext then [false] else []) ++ bitmap) } := by
  cases ext
  · rfl
  · show Res.ok () _ = _
    simp

example : encodeSequenceHeader true [true, false, true] false Codec.new =
  .ok () ⟨[false, true, false, true], 0, none⟩ := by decide

/-- **C19.** BOOLEAN round trip. -/
theorem C19_bool_round_trip (v : Bool) : ReadsBack (encodeBool v) decodeBool v :=
  (RT.boolM v).readsBack

/-- **C19.** `encode_bool` writes exactly one bit. -/
theorem C19_bool_writes_one_bit (v : Bool) (s : Codec) :
    encodeBool v s = .ok () { s with bits := s.bits ++ [v] } := rfl

example : encodeBool true ⟨[false], 0, none⟩ = .ok () ⟨[false, true], 0, none⟩ := C19_bool_writes_one_bit true _

/-- **C19.** `decode_bool` reads exactly the next bit, if there is one, and is `Err` at the end. -/
theorem C19_bool_reads_one_bit (s : Codec) :
    (∀ h : s.off < s.bits.length,
      decodeBool s = .ok (s.bits[s.off]'h) { s with off := s.off + 1 }) ∧
    (s.off = s.bits.length → decodeBool s = .err s) := by
  constructor
  · intro h
    unfold decodeBool decodeBoolM
    rw [if_neg (by omega), List.getElem?_eq_getElem h]
    dsimp only
    rw [M.bind_apply, advance_eq (by omega)]
    rfl
  · intro h
    unfold decodeBool decodeBoolM
    rw [if_pos h.symm]

example : decodeBool ⟨[true, false], 1, none⟩ = .ok false ⟨[true, false], 2, none⟩ := by decide

end Hampi
