import Verif.Codec.Buffer
/-!
# Decoders (codecs/src/aper/decode/mod.rs, decode_internal.rs, decode_charstrings.rs)
-/
namespace Hampi

/-- `decode_indefinite_length_determinent` (codecs/src/aper/decode/decode_internal.rs:108-130). -/
def decodeIndefiniteLength : M Nat := do
  decodeAlign
  let first ← decodeBoolM
  if !first then
    let l ← decodeBitsAsInteger 7 false
    pure l.toNat
  else
    let second ← decodeBoolM
    if !second then
      let l ← decodeBitsAsInteger 14 false
      pure l.toNat
    else
      let l ← decodeBitsAsInteger 6 false
      if ¬ (1 ≤ l ∧ l ≤ 4) then M.fail
      else pure (l * 16384).toNat

/-- The bit-field width table of `decode_constrained_whole_number`
(codecs/src/aper/decode/decode_internal.rs:175-185), for `1 ≤ range < 256`. -/
def decFieldBits (range : Int) : Nat :=
  if range ≤ 1 then 0
  else if range = 2 then 1
  else if range ≤ 4 then 2
  else if range ≤ 8 then 3
  else if range ≤ 16 then 4
  else if range ≤ 32 then 5
  else if range ≤ 64 then 6
  else if range ≤ 128 then 7
  else 8

/-- The field read by `decode_constrained_whole_number` for a given positive range
(codecs/src/aper/decode/decode_internal.rs:174-199); `large` reads the field of a range above
65536. -/
def decodeConstrainedField (large : Int → M Int) (range : Int) : M Int :=
  if range < 256 then decodeBitsAsInteger (decFieldBits range) false
  else if range = 256 then do
    decodeAlign
    decodeBitsAsInteger 8 false
  else if range ≤ 65536 then do
    decodeAlign
    decodeBitsAsInteger 16 false
  else large range

/-- `decode_constrained_whole_number` up to its recursive branch
(codecs/src/aper/decode/decode_internal.rs:168-202). -/
def decodeConstrainedWith (large : Int → M Int) (lb ub : Int) : M Int := do
  let d ← chkI128 (ub - lb)
  let range ← chkI128 (d + 1)
  if range ≤ 0 then M.fail
  else
    let value ← decodeConstrainedField large range
    chkI128 (value + lb)

/-- The innermost call for the length field of a large range. -/
def decodeConstrainedSmall (lb ub : Int) : M Int :=
  decodeConstrainedWith (fun _ => M.panic) lb ub

/-- `decode_constrained_length_determinent` as called with bounds `1..=bytes_needed` at
codecs/src/aper/decode/decode_internal.rs:196 (definition at lines 80-104). -/
def decodeConstrainedLengthSmall (lb ub : Nat) : M Nat := do
  if ub < lb then M.panic
  else if ub - lb + 1 ≤ 65536 then do
    let l ← decodeConstrainedSmall lb ub
    pure (asUsize l)
  else M.panic

/-- `decode_constrained_whole_number` (codecs/src/aper/decode/decode_internal.rs:161-203). The length
field at line 196 has bounds `1..=bytes_needed ≤ 16`, so the recursion is one level deep. -/
def decodeConstrained (lb ub : Int) : M Int :=
  decodeConstrainedWith (fun range => do
    let length ← decodeConstrainedLengthSmall 1 (bytesNeededForRange range)
    decodeAlign
    decodeBitsAsInteger (length * 8) false) lb ub

/-- `decode_constrained_length_determinent` (codecs/src/aper/decode/decode_internal.rs:80-104);
`ub - lb` underflows (panic) when `ub < lb`, and larger ranges are `unimplemented!`. -/
def decodeConstrainedLength (lb ub : Nat) : M Nat := do
  if ub < lb then M.panic
  else if ub - lb + 1 ≤ 65536 then do
    let l ← decodeConstrained lb ub
    pure (asUsize l)
  else M.panic

/-- `decode_normally_small_length_determinent` (codecs/src/aper/decode/decode_internal.rs:27-36). -/
def decodeNormallySmallLength : M Nat := do
  let isSmall ← decodeBoolM
  if !isSmall then
    let l ← decodeBitsAsInteger 6 false
    pure (asUsize l + 1)
  else decodeIndefiniteLength

/-- `i128::try_into::<usize>().unwrap()` (codecs/src/aper/decode/decode_internal.rs:56, 62). -/
def toUsizeOrPanic (v : Int) : M Nat :=
  if 0 ≤ v ∧ v < 2 ^ 64 then pure v.toNat else M.panic

/-- The lower bound of a length (codecs/src/aper/decode/decode_internal.rs:55-59). -/
def lengthLowerBound : Option Int → M Nat
  | some l => toUsizeOrPanic l
  | none => pure 0

/-- `decode_length_determinent` (codecs/src/aper/decode/decode_internal.rs:41-77). -/
def decodeLength (lb ub : Option Int) (normallySmall : Bool) : M Nat :=
  if normallySmall then decodeNormallySmallLength
  else do
    let l ← lengthLowerBound lb
    match ub with
    | some u =>
      let u ← toUsizeOrPanic u
      if u < 65536 then
        if l = u then pure u else decodeConstrainedLength l u
      else decodeIndefiniteLength
    | none => decodeIndefiniteLength

/-- `decode_unconstrained_whole_number` (codecs/src/aper/decode/decode_internal.rs:133-141). -/
def decodeUnconstrained : M Int := do
  let length ← decodeLength none none false
  decodeBitsAsInteger (length * 8) true

/-- `decode_semi_constrained_whole_number` (codecs/src/aper/decode/decode_internal.rs:144-156). -/
def decodeSemiConstrained (lb : Int) : M Int := do
  let length ← decodeLength none none false
  let val ← decodeBitsAsInteger (length * 8) false
  chkI128 (val + lb)

/-- `decode_normally_small_non_negative_whole_number`
(codecs/src/aper/decode/decode_internal.rs:11-20). -/
def decodeNormallySmallNonNegative : M Int := do
  let isSmall ← decodeBoolM
  if !isSmall then decodeBitsAsInteger 6 false
  else decodeSemiConstrained 0

/-- The extension bit read by every decoder for an extensible type
(e.g. codecs/src/aper/decode/mod.rs:103-107). -/
def decodeExtBit (isExtensible : Bool) : M Bool :=
  if isExtensible then decodeBoolM else pure false

/-- The value part of `decode_integer` (codecs/src/aper/decode/mod.rs:109-134). -/
def decodeIntegerValue (lb ub : Option Int) (extended : Bool) : M Int :=
  if extended then decodeUnconstrained
  else match lb, ub with
    | none, _ => decodeUnconstrained
    | some l, none => decodeSemiConstrained l
    | some l, some u => decodeConstrained l u

/-- `decode_integer` (codecs/src/aper/decode/mod.rs:90-139). -/
def decodeInteger (lb ub : Option Int) (isExtensible : Bool) : M (Int × Bool) := do
  let extended ← decodeExtBit isExtensible
  let value ← decodeIntegerValue lb ub extended
  pure (value, extended)

/-- `decode_choice_idx` (codecs/src/aper/decode/mod.rs:18-48). -/
def decodeChoiceIdx (lb ub : Int) (isExtensible : Bool) : M (Int × Bool) := do
  if isExtensible then
    let extended ← decodeBoolM
    if !extended then
      let r ← decodeInteger (some lb) (some ub) false
      pure (r.1, extended)
    else
      let idx ← decodeNormallySmallNonNegative
      pure (idx, extended)
  else
    let r ← decodeInteger (some lb) (some ub) false
    pure (r.1, false)

/-- The presence bitmap (codecs/src/aper/decode/mod.rs:68-71). -/
def decodeBitmap (optionalCount : Nat) : M (List Bool) :=
  if 0 < optionalCount then getBitvec optionalCount else pure []

/-- `decode_sequence_header` (codecs/src/aper/decode/mod.rs:55-75). -/
def decodeSequenceHeader (isExtensible : Bool) (optionalCount : Nat) : M (List Bool × Bool) := do
  let extended ← decodeExtBit isExtensible
  let bitmap ← decodeBitmap optionalCount
  pure (bitmap, extended)

/-- `decode_bool` (codecs/src/aper/decode/mod.rs:144-152). -/
def decodeBool : M Bool := decodeBoolM

/-- The value part of `decode_enumerated` (codecs/src/aper/decode/mod.rs:179-184). -/
def decodeEnumeratedValue (lb ub : Option Int) (isExtended : Bool) : M Int :=
  if !isExtended then do
    let d ← decodeInteger lb ub false
    pure d.1
  else decodeNormallySmallNonNegative

/-- `decode_enumerated` (codecs/src/aper/decode/mod.rs:160-189). -/
def decodeEnumerated (lb ub : Option Int) (isExtensible : Bool) : M (Int × Bool) := do
  let isExtended ← decodeExtBit isExtensible
  let decoded ← decodeEnumeratedValue lb ub isExtended
  pure (decoded, isExtended)

/-- The length read at each turn of the string loops (codecs/src/aper/decode/mod.rs:215-219). -/
def decodeStringLength (isExtended : Bool) (lb ub : Option Int) : M Nat :=
  if isExtended then decodeLength none none false else decodeLength lb ub false

/-- The units of one turn of the string loops (codecs/src/aper/decode/mod.rs:221-226, 271-276). -/
def decodeChunk {α : Type} (alignAbove : Nat) (getUnits : Nat → M (List α)) (length : Nat) :
    M (List α) :=
  if 0 < length then do
    decodeAlignIf (alignAbove < length)
    getUnits length
  else pure []

/-- The loop shared in shape by `decode_bitstring` and `decode_octetstring`
(codecs/src/aper/decode/mod.rs:214-234 and 264-284): read a length, then that many units (aligned
when above `alignAbove`), and again while the length was at least 16384.

The Rust loop is unbounded. Each turn that continues consumes at least 16384 bits, so the fuel given
by the callers (one more than the bits available) is never exhausted: `fragLoop_fuel` in
`Verif/Lemmas/Strings.lean`. Running out of fuel is `panic` so that it cannot be mistaken for a
normal outcome. -/
def fragLoop {α : Type} (len : M Nat) (alignAbove : Nat) (getUnits : Nat → M (List α)) :
    Nat → List α → M (List α)
  | 0, _ => M.panic
  | fuel + 1, acc => do
    let length ← len
    let chunk ← decodeChunk alignAbove getUnits length
    if 16384 ≤ length then fragLoop len alignAbove getUnits fuel (acc ++ chunk)
    else pure (acc ++ chunk)

/-- The string loop with enough fuel for the buffer at hand. -/
def decodeFragments {α : Type} (len : M Nat) (alignAbove : Nat) (getUnits : Nat → M (List α)) :
    M (List α) := fun s =>
  fragLoop len alignAbove getUnits (s.bits.length + 1) [] s

/-- `decode_bitstring` (codecs/src/aper/decode/mod.rs:194-239). -/
def decodeBitstring (lb ub : Option Int) (isExtensible : Bool) : M (List Bool) := do
  let isExtended ← decodeExtBit isExtensible
  decodeFragments (decodeStringLength isExtended lb ub) 16 getBitvec

/-- `decode_octetstring` (codecs/src/aper/decode/mod.rs:244-289). -/
def decodeOctetstring (lb ub : Option Int) (isExtensible : Bool) : M (List UInt8) := do
  let isExtended ← decodeExtBit isExtensible
  decodeFragments (decodeStringLength isExtended lb ub) 2 getBytes

/-- `c.load::<u8>()` on an 8-bit chunk whose first bit has storage offset `h` within its byte, on a
little-endian target (codecs/src/aper/decode/decode_charstrings.rs:87). The chunk's first `8 - h`
bits lie in the first storage byte and become the low-order part; the remaining `h` bits lie in the
second byte and become the high-order part. -/
def loadLE8 (h : Nat) (chunk : List Bool) : UInt8 :=
  UInt8.ofNat (bitsToNat (chunk.drop (8 - h) ++ chunk.take (8 - h)))

/-- `bits.chunks_exact(8).map(|c| c.load::<u8>())`
(codecs/src/aper/decode/decode_charstrings.rs:85-88). `h` is the storage offset of the first bit,
which `get_bitvec` keeps (`BitVec::from_bitslice`); `h < 8`. -/
def loadChunks (h : Nat) : List Bool → List UInt8
  | b0 :: b1 :: b2 :: b3 :: b4 :: b5 :: b6 :: b7 :: rest =>
      loadLE8 h [b0, b1, b2, b3, b4, b5, b6, b7] :: loadChunks h rest
  | _ => []

/-- `get_bitvec` together with the storage offset of its first bit within a storage byte, which
`BitVec::from_bitslice` keeps (codecs/src/aper/mod.rs:261). -/
def getBitvecStored (n : Nat) : M (Nat × List Bool) := fun s =>
  (getBitvec n >>= fun l => pure (s.off % 8, l)) s

/-- `std::str::from_utf8` (codecs/src/aper/decode/decode_charstrings.rs:92). -/
def fromUtf8 (bytes : List UInt8) : Option String := String.fromUTF8? ⟨bytes.toArray⟩

/-- The octets of a string and their check (codecs/src/aper/decode/decode_charstrings.rs:84-94). -/
def decodeText (bits : Nat × List Bool) : M String :=
  match fromUtf8 (loadChunks bits.1 bits.2) with
  | some str => pure str
  | none => M.fail

/-- `decode_string` (codecs/src/aper/decode/decode_charstrings.rs:61-95). -/
def decodeString (lb ub : Option Int) (isExtensible : Bool) : M String := do
  let isExtended ← decodeExtBit isExtensible
  let len ← decodeStringLength isExtended lb ub
  decodeAlignIf (16 < len * 8)
  let bits ← getBitvecStored (len * 8)
  decodeText bits

/-- `decode_visible_string` (codecs/src/aper/decode/decode_charstrings.rs:11-24). -/
def decodeVisibleString := decodeString
/-- `decode_printable_string` (codecs/src/aper/decode/decode_charstrings.rs:27-40). -/
def decodePrintableString := decodeString
/-- `decode_utf8_string` (codecs/src/aper/decode/decode_charstrings.rs:46-59). -/
def decodeUtf8String := decodeString

end Hampi
