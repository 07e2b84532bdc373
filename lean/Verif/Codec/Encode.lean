import Verif.Codec.Buffer
/-!
# Encoders (codecs/src/aper/encode/mod.rs and encode_internal.rs)
-/
namespace Hampi

/-- `encode_indefinite_length_determinent` (codecs/src/aper/encode/encode_internal.rs:109-126).
`value as u16 | 0x8000` is `value + 0x8000` because `value < 16384` there. -/
def encodeIndefiniteLength (value : Nat) : M Unit := do
  align
  if value < 128 then appendBits (natToBits 8 (value % 256))
  else if value < 16384 then appendBits (natToBits 16 ((value % 65536) ||| 0x8000))
  else M.fail

/-- The bit-field width table of `encode_constrained_whole_number`
(codecs/src/aper/encode/encode_internal.rs:72-87) for ranges up to 255; `none` is the
`unreachable!` arm. -/
def encFieldBits (range : Int) : Option Nat :=
  if range = 1 then some 0
  else if range = 2 then some 1
  else if 3 ≤ range ∧ range ≤ 4 then some 2
  else if 5 ≤ range ∧ range ≤ 8 then some 3
  else if 9 ≤ range ∧ range ≤ 16 then some 4
  else if 17 ≤ range ∧ range ≤ 32 then some 5
  else if 33 ≤ range ∧ range ≤ 64 then some 6
  else if 65 ≤ range ∧ range ≤ 128 then some 7
  else if 129 ≤ range ∧ range ≤ 255 then some 8
  else none

/-- The branches of `encode_constrained_whole_number` that do not recurse
(codecs/src/aper/encode/encode_internal.rs:53-92): `large` is called with the range and the offset
value when the range exceeds 65536. -/
def encodeConstrainedWith (large : Int → Int → M Unit) (lb ub value : Int) : M Unit := do
  if value < lb then M.fail
  else if value > ub then M.fail
  else
    let d ← chkI128 (ub - lb)
    let range ← chkI128 (d + 1)
    let v ← chkI128 (value - lb)
    if range ≤ 256 then
      if range = 256 then
        align
        appendBits (natToBits 8 (asU8 v))
      else match encFieldBits range with
        | some n => appendBits ((natToBits 8 (asU8 v)).drop (8 - n))
        | none => M.panic
    else if range ≤ 65536 then
      align
      appendBits (natToBits 16 (asU16 v))
    else large range v

/-- The innermost call of the length field: its range is at most 17, so the large branch is not
reached (proved in `Verif/Lemmas/Constrained.lean`, `encodeConstrained_small`). -/
def encodeConstrainedSmall (lb ub value : Int) : M Unit :=
  encodeConstrainedWith (fun _ _ => M.panic) lb ub value

/-- `encode_constrained_whole_number` (codecs/src/aper/encode/encode_internal.rs:47-107). The
recursive call at line 97 has bounds `1..=bytes_needed_for_range ≤ 16` and is the non-recursive
`encodeConstrainedSmall`. -/
def encodeConstrained (lb ub value : Int) : M Unit :=
  encodeConstrainedWith (fun range v => do
    let n := bytesNeededForRange range
    let bytes := i128Bytes v
    let firstNonZero := bytes.findIdx (fun x => x ≠ 0)
    encodeConstrainedSmall 1 n (16 - (firstNonZero : Int))
    align
    appendBits ((bytes.drop firstNonZero).flatMap (natToBits 8))) lb ub value

/-- `encode_normally_small_length_determinent` (codecs/src/aper/encode/encode_internal.rs:128-141);
`value - 1` underflows (panic) at 0. -/
def encodeNormallySmallLength (value : Nat) : M Unit := do
  if value ≤ 32 then
    if value = 0 then M.panic
    else
      pushBit false
      appendBits ((natToBits 8 ((value - 1) % 256)).drop 2)
  else
    pushBit true
    encodeIndefiniteLength value

/-- `encode_length_determinent` (codecs/src/aper/encode/mod.rs:262-314). -/
def encodeLength (lb ub : Option Int) (normallySmall : Bool) (value : Nat) : M Unit :=
  if normallySmall then encodeNormallySmallLength value
  else
    let indefinite : M Unit :=
      if ub.any (fun u => decide (value > asUsize u)) then M.fail
      else if lb.any (fun l => decide (value < asUsize l)) then M.fail
      else encodeIndefiniteLength value
    match ub with
    | some u => if u < 65536 then encodeConstrained (lb.getD 0) u value else indefinite
    | none => indefinite

/-- Octet count of `encode_unconstrained_whole_number`
(codecs/src/aper/encode/encode_internal.rs:10-25). -/
def unconstrainedBytes (value : Int) : Nat :=
  let lead := if value < 0 then leadingOnes128 value else leadingZeros128 value
  if lead % 8 = 0 then 16 - lead / 8 + 1 else 16 - lead / 8

/-- `encode_unconstrained_whole_number` (codecs/src/aper/encode/encode_internal.rs:6-30). The slice
`bytes[16 - bytes_needed..]` underflows (panic) if more than 16 octets are needed. -/
def encodeUnconstrained (value : Int) : M Unit := do
  let n := unconstrainedBytes value
  encodeLength none none false n
  if 16 < n then M.panic
  else appendBits ((i128Bits value).drop (8 * (16 - n)))

/-- `encode_semi_constrained_whole_number` (codecs/src/aper/encode/encode_internal.rs:32-45). -/
def encodeSemiConstrained (lb value : Int) : M Unit := do
  if value < lb then M.fail
  else
    let d ← chkI128 (value - lb)
    encodeUnconstrained d

/-- The extension bit written by every encoder for an extensible type
(e.g. codecs/src/aper/encode/mod.rs:104-106). -/
def encodeExtBit (isExtensible extended : Bool) : M Unit :=
  if isExtensible then pushBit extended else pure ()

/-- `encode_integer` (codecs/src/aper/encode/mod.rs:81-117). -/
def encodeInteger (lb ub : Option Int) (isExtensible : Bool) (value : Int) (extended : Bool) :
    M Unit := do
  if extended then M.fail
  else
    encodeExtBit isExtensible extended
    match lb, ub with
    | none, _ => encodeUnconstrained value
    | some l, none => encodeSemiConstrained l value
    | some l, some u => encodeConstrained l u value

/-- `encode_choice_idx` (codecs/src/aper/encode/mod.rs:14-42). -/
def encodeChoiceIdx (lb ub : Int) (isExtensible : Bool) (idx : Int) (extended : Bool) : M Unit := do
  if extended then M.fail
  else
    encodeExtBit isExtensible extended
    encodeInteger (some lb) (some ub) false idx false

/-- `encode_sequence_header` (codecs/src/aper/encode/mod.rs:45-73). -/
def encodeSequenceHeader (isExtensible : Bool) (optionals : List Bool) (extended : Bool) :
    M Unit := do
  if extended then M.fail
  else
    encodeExtBit isExtensible extended
    appendBits optionals

/-- `encode_bool` (codecs/src/aper/encode/mod.rs:122-128). -/
def encodeBool (value : Bool) : M Unit := pushBit value

/-- `encode_enumerated` (codecs/src/aper/encode/mod.rs:131-163). -/
def encodeEnumerated (lb ub : Option Int) (isExtensible : Bool) (value : Int) (extended : Bool) :
    M Unit := do
  if extended then M.fail
  else
    encodeExtBit isExtensible extended
    encodeInteger lb ub false value false

/-- `encode_bitstring` (codecs/src/aper/encode/mod.rs:166-211). -/
def encodeBitstring (lb ub : Option Int) (isExtensible : Bool) (bs : List Bool) (extended : Bool) :
    M Unit := do
  if extended then M.fail
  else
    encodeExtBit isExtensible extended
    if 16384 ≤ bs.length then M.fail
    else
      encodeLength lb ub false bs.length
      if 0 < bs.length then do
        alignIf (16 < bs.length)
        appendBits bs
      else pure ()

/-- `encode_octetstring` (codecs/src/aper/encode/mod.rs:214-259). -/
def encodeOctetstring (lb ub : Option Int) (isExtensible : Bool) (os : List UInt8)
    (extended : Bool) : M Unit := do
  if extended then M.fail
  else
    encodeExtBit isExtensible extended
    if 16384 ≤ os.length then M.fail
    else
      encodeLength lb ub false os.length
      if 0 < os.length then do
        alignIf (2 < os.length)
        appendBits (bytesBits os)
      else pure ()

/-- The octets of a Rust `String` (`value.as_bits()`, `value.len()`): its UTF-8 form. -/
def utf8 (s : String) : List UInt8 := s.toUTF8.data.toList

/-- `encode_string` (codecs/src/aper/encode/mod.rs:316-341). -/
def encodeString (lb ub : Option Int) (isExtensible : Bool) (value : String) (extended : Bool) :
    M Unit := do
  if extended then M.fail
  else
    encodeExtBit isExtensible extended
    encodeLength lb ub false (utf8 value).length
    alignIf (2 < (utf8 value).length)
    appendBits (bytesBits (utf8 value))

/-- `encode_visible_string` (codecs/src/aper/encode/mod.rs:344-362). -/
def encodeVisibleString := encodeString
/-- `encode_printable_string` (codecs/src/aper/encode/mod.rs:365-383). -/
def encodePrintableString := encodeString
/-- `encode_utf8_string` (codecs/src/aper/encode/mod.rs:386-404). -/
def encodeUtf8String := encodeString

end Hampi
