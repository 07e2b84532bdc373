import Verif.Codec.Encode
import Verif.Codec.Decode
/-!
# The unit tests of the run-time library, asked of the model

These are tests, not proofs of any property: every `#[test]` of `/repo/codecs/src` is transcribed and evaluated
by the kernel in the model. They guard the transcription of the code, which no theorem can check.
-/
namespace Hampi.Tests

/-- What is written into an empty buffer. -/
def written {α : Type} (m : M α) : Option (List UInt8) :=
  match m Codec.new with
  | .ok _ s => some s.intoBytes
  | _ => none

/-- What is read from the octets, and how many bits are left. -/
def readBack {α : Type} (m : M α) (bytes : List UInt8) : Option (α × Nat) :=
  match m (Codec.fromSlice bytes) with
  | .ok a s => some (a, s.bits.length - s.off)
  | _ => none

/-- What is read from the buffer just written. -/
def again {α β : Type} (w : M α) (r : M β) : Option β :=
  match w Codec.new with
  | .ok _ s => (match r s with | .ok b _ => some b | _ => none)
  | _ => none

/-- The call returns an error, and does not panic. -/
def isErr {α : Type} (m : M α) : Bool :=
  match m Codec.new with
  | .err _ => true
  | _ => false

-- codecs/src/aper/decode/decode_internal.rs:210-218
example : (readBack (do advanceMaybeErr 1 false; decodeConstrained 14 14) [0x70, 0, 0, 0]).map (·.1)
    = some 14 := by decide +kernel
-- codecs/src/aper/decode/decode_internal.rs:221-229
example : (readBack (do advanceMaybeErr 1 false; decodeConstrained 7 14) [0x70, 0, 0, 0]).map (·.1)
    = some 14 := by decide +kernel
-- codecs/src/aper/decode/decode_internal.rs:232-240
example : (readBack (do advanceMaybeErr 1 false; decodeConstrained 0 255) [0x80, 0x70, 0, 0]).map (·.1)
    = some 0x70 := by decide +kernel
-- codecs/src/aper/decode/decode_internal.rs:243-251
example : (readBack (do advanceMaybeErr 12 false; decodeConstrained 0 64000) [0x00, 0x70, 0x00, 1]).map (·.1)
    = some 1 := by decide +kernel
-- codecs/src/aper/decode/decode_internal.rs:254-259
example : readBack (decodeConstrained 0 68719476735) [0x00, 0x7B] = some (123, 0) := by decide +kernel
-- codecs/src/aper/decode/decode_internal.rs:261-287
example : readBack (do advanceMaybeErr 12 false; decodeConstrained 0 20000000) [0x00, 0x78, 0x01, 1, 0x01, 0x02]
    = some (65793, 8) := by decide +kernel

-- codecs/src/aper/mod.rs:388-394
example : (readBack (do let _ ← getBitvec 4; getBytes 1) [0x0f, 0xf0]).map (·.1) = some [0xff] := by
  decide +kernel

/-- The numbers of the test (codecs/src/aper/mod.rs:398-426). -/
def numbers : List Int := [
  140737488355328, 140737488355327, 549755813888, 549755813887, 2147483648, 2147483647, 8388608, 8388607,
  32768, 32767, 128, 127, 1, 0, -1, -128, -129, -32768, -32769, -8388608, -8388609, -2147483648, -2147483649,
  -549755813888, -549755813889, -140737488355328, -140737488355329]

-- codecs/src/aper/mod.rs:396-438
example : ∀ v ∈ numbers, again (encodeInteger none none false v false) (decodeInteger none none false)
    = some (v, false) := by decide +kernel
-- codecs/src/aper/mod.rs:441-446
example : again (appendBits [true, false, true, false]) (getBitvec 4) = some [true, false, true, false] := by
  decide +kernel
-- codecs/src/aper/mod.rs:449-455
example : again (appendBits (byteBits 0xaf)) (getBytes 1) = some [0xaf] := by decide +kernel
-- codecs/src/aper/mod.rs:457-464
example : again (encodePrintableString none none false "hello" false) (decodePrintableString none none false)
    = some "hello" := by decide +kernel
-- codecs/src/aper/mod.rs:466-473
example : again (encodePrintableString none none false "" false) (decodePrintableString none none false)
    = some "" := by decide +kernel

-- codecs/src/aper/encode/encode_internal.rs:148-153
example : written (encodeUnconstrained 1) = some [0x01, 0x01] := by decide +kernel
-- codecs/src/aper/encode/encode_internal.rs:155-160
example : written (encodeConstrained (-2) 5 (-1)) = some [0x20] := by decide +kernel
-- codecs/src/aper/encode/encode_internal.rs:162-167
example : written (encodeConstrained 0 1000 1) = some [0x00, 0x01] := by decide +kernel
-- codecs/src/aper/encode/encode_internal.rs:169-174
example : written (encodeConstrained 0 100000 1) = some [0x00, 0x01] := by decide +kernel
-- codecs/src/aper/encode/encode_internal.rs:176-181
example : written (encodeIndefiniteLength 1) = some [0x01] := by decide +kernel
-- codecs/src/aper/encode/encode_internal.rs:183-188
example : written (encodeIndefiniteLength 16383) = some [0xbf, 0xff] := by decide +kernel
-- codecs/src/aper/encode/encode_internal.rs:190-195
example : written (encodeNormallySmallLength 32) = some [0x3e] := by decide +kernel
-- codecs/src/aper/encode/encode_internal.rs:197-203
example : written (do pushBit true; encodeConstrained 0 255 1) = some [0x80, 0x01] := by decide +kernel
-- codecs/src/aper/encode/encode_internal.rs:205-210
example : written (encodeConstrained 0 68719476735 123) = some [0x00, 0x7B] := by decide +kernel

-- codecs/src/aper/encode/mod.rs:410-418
example : encodeBool true Codec.new = .ok () ⟨[true], 0, none⟩ := by decide +kernel
-- codecs/src/aper/encode/mod.rs:420-435
example : isErr (encodeInteger (some 1) none false 0 false) ∧ isErr (encodeInteger (some (-1)) (some 0) false 1 false) := by
  decide +kernel
-- codecs/src/aper/encode/mod.rs:438-461
example : isErr (encodeOctetstring (some 2) none false [0] false) ∧
    isErr (encodeOctetstring none (some 1) false [0, 0] false) := by decide +kernel
-- codecs/src/aper/encode/mod.rs:463-487
example : isErr (encodeVisibleString (some 2) none false "a" false) ∧
    isErr (encodeVisibleString none (some 1) false "aa" false) := by decide +kernel
-- codecs/src/aper/encode/mod.rs:489-511
example : isErr (encodeLength (some 2) none false 1) ∧ isErr (encodeLength none (some 1) false 2) ∧
    isErr (encodeLength none (some 65536) false 65537) := by decide +kernel
-- codecs/src/aper/encode/mod.rs:514-538
example : isErr (encodeBitstring (some 2) none false [false] false) ∧
    isErr (encodeBitstring none (some 1) false [false, false] false) := by decide +kernel

end Hampi.Tests
