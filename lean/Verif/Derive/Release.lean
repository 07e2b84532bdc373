import Verif.Derive.Model
/-!
# The run-time library and the derived code in a release build

The same Rust code, compiled without overflow checks (the default release profile; no `Cargo.toml` of /repo
says otherwise): where `Verif/Codec` and `Verif/Derive/Model.lean` panic because an arithmetic operation
overflows, the result wraps around here and the computation goes on. Panics that are not overflows stay: slices and
indices out of range, `unwrap`, `unreachable!`, `unimplemented!`, `load_be` above 128 bits.

Only functions that contain such an operation, or call one that does, are defined again, in the namespace
`Hampi.Release` and under the same name. `usize` has 64 bits. As in `Verif/Codec`, an offset is not bounded.
-/
namespace Hampi.Release

/-- Result of an `i128` operation without overflow check. -/
def chkI128 (v : Int) : M Int := pure (signExtend 128 (v % 2 ^ 128).toNat)

/-! ## The buffer -/

/-- `AperCodecData::advance_maybe_err` (codecs/src/aper/mod.rs:214-233): the difference at line 220, which goes
into the error text, wraps. -/
def advanceMaybeErr (n : Nat) (ignore : Bool) : M Unit := fun s =>
  if s.bits.length < s.off + n then
    if ignore then .ok () { s with off := s.bits.length } else .err s
  else .ok () { s with off := s.off + n }

/-- `AperCodecData::decode_bits_as_integer` (codecs/src/aper/mod.rs:96-212). When the offset is beyond the buffer,
`remaining` at line 101 wraps to a number above `bits`; then no bits are no number for `advance_maybe_err`, unsupported
signed widths are refused, and the slices of all others panic. -/
def decodeBitsAsInteger (n : Nat) (signed : Bool) : M Int := fun s =>
  if s.bits.length < s.off then
    if signed then (if n ∈ signedWidths then .panic else .err s)
    else if n = 0 then .err s else .panic
  else Hampi.decodeBitsAsInteger n signed s

/-- `AperCodecData::get_bitvec` (codecs/src/aper/mod.rs:250-265): the difference in the error text wraps. -/
def getBitvec (n : Nat) : M (List Bool) := fun s =>
  if s.bits.length < n + s.off then .err s
  else (advanceMaybeErr n true >>= fun _ => pure ((s.bits.drop s.off).take n)) s

/-- `AperCodecData::get_bytes` (codecs/src/aper/mod.rs:267-283): the difference in the error text wraps. -/
def getBytes (len : Nat) : M (List UInt8) := fun s =>
  if s.bits.length < len * 8 + s.off then .err s
  else (advanceMaybeErr (len * 8) true >>= fun _ => pure (bitsBytes ((s.bits.drop s.off).take (len * 8)))) s

/-- `AperCodecData::get_bit` (codecs/src/aper/mod.rs:235-248): the difference in the error text wraps. -/
def getBit : M Bool := fun s =>
  if s.bits.length ≤ s.off then .err s
  else match s.bits[s.off]? with
    | none => .panic
    | some bit => .ok bit s

/-- `AperCodecData::length_in_bytes` (codecs/src/aper/mod.rs:361-363): `len - 1` wraps on an empty buffer. -/
def lengthInBytes : M Nat := fun s =>
  if s.bits.length = 0 then .ok ((2 ^ 64 - 1) / 8 + 1) s else .ok ((s.bits.length - 1) / 8 + 1) s

/-! ## Decoders -/

/-- `decode_indefinite_length_determinent` (codecs/src/aper/decode/decode_internal.rs:108-130). -/
def decodeIndefiniteLength : M Nat := do
  decodeAlign
  let first ← decodeBoolM
  if !first then
    let l ← decodeBitsAsInteger 7 false
    pure l.toNat
  else
    let second ← decodeBoolM
    if !second then
      let l ← decodeBitsAsInteger 14 false
      pure l.toNat
    else
      let l ← decodeBitsAsInteger 6 false
      if ¬ (1 ≤ l ∧ l ≤ 4) then M.fail
      else pure (l * 16384).toNat

/-- The field read by `decode_constrained_whole_number` for a given positive range
(codecs/src/aper/decode/decode_internal.rs:174-199); `large` reads the field of a range above
65536. -/
def decodeConstrainedField (large : Int → M Int) (range : Int) : M Int :=
  if range < 256 then decodeBitsAsInteger (decFieldBits range) false
  else if range = 256 then do
    decodeAlign
    decodeBitsAsInteger 8 false
  else if range ≤ 65536 then do
    decodeAlign
    decodeBitsAsInteger 16 false
  else large range

/-- `decode_constrained_whole_number` up to its recursive branch
(codecs/src/aper/decode/decode_internal.rs:168-202). -/
def decodeConstrainedWith (large : Int → M Int) (lb ub : Int) : M Int := do
  let d ← chkI128 (ub - lb)
  let range ← chkI128 (d + 1)
  if range ≤ 0 then M.fail
  else
    let value ← decodeConstrainedField large range
    chkI128 (value + lb)

/-- The innermost call for the length field of a large range. -/
def decodeConstrainedSmall (lb ub : Int) : M Int :=
  decodeConstrainedWith (fun _ => M.panic) lb ub

/-- `decode_constrained_length_determinent` as called with bounds `1..=bytes_needed` at
codecs/src/aper/decode/decode_internal.rs:196 (definition at lines 80-104). -/
def decodeConstrainedLengthSmall (lb ub : Nat) : M Nat := do
  if (ub + (2 ^ 64 - lb) + 1) % 2 ^ 64 ≤ 65536 then do
    let l ← decodeConstrainedSmall lb ub
    pure (asUsize l)
  else M.panic

/-- `decode_constrained_whole_number` (codecs/src/aper/decode/decode_internal.rs:161-203). The length
field at line 196 has bounds `1..=bytes_needed ≤ 16`, so the recursion is one level deep. -/
def decodeConstrained (lb ub : Int) : M Int :=
  decodeConstrainedWith (fun range => do
    let length ← decodeConstrainedLengthSmall 1 (bytesNeededForRange range)
    decodeAlign
    decodeBitsAsInteger (length * 8) false) lb ub

/-- `decode_constrained_length_determinent` (codecs/src/aper/decode/decode_internal.rs:80-104);
`ub - lb + 1` wraps around when `ub < lb`, and larger ranges are `unimplemented!`. -/
def decodeConstrainedLength (lb ub : Nat) : M Nat := do
  if (ub + (2 ^ 64 - lb) + 1) % 2 ^ 64 ≤ 65536 then do
    let l ← decodeConstrained lb ub
    pure (asUsize l)
  else M.panic

/-- `decode_normally_small_length_determinent` (codecs/src/aper/decode/decode_internal.rs:27-36). -/
def decodeNormallySmallLength : M Nat := do
  let isSmall ← decodeBoolM
  if !isSmall then
    let l ← decodeBitsAsInteger 6 false
    pure (asUsize l + 1)
  else decodeIndefiniteLength

/-- `decode_length_determinent` (codecs/src/aper/decode/decode_internal.rs:41-77). -/
def decodeLength (lb ub : Option Int) (normallySmall : Bool) : M Nat :=
  if normallySmall then decodeNormallySmallLength
  else do
    let l ← lengthLowerBound lb
    match ub with
    | some u =>
      let u ← toUsizeOrPanic u
      if u < 65536 then
        if l = u then pure u else decodeConstrainedLength l u
      else decodeIndefiniteLength
    | none => decodeIndefiniteLength

/-- `decode_unconstrained_whole_number` (codecs/src/aper/decode/decode_internal.rs:133-141). -/
def decodeUnconstrained : M Int := do
  let length ← decodeLength none none false
  decodeBitsAsInteger (length * 8) true

/-- `decode_semi_constrained_whole_number` (codecs/src/aper/decode/decode_internal.rs:144-156). -/
def decodeSemiConstrained (lb : Int) : M Int := do
  let length ← decodeLength none none false
  let val ← decodeBitsAsInteger (length * 8) false
  chkI128 (val + lb)

/-- `decode_normally_small_non_negative_whole_number`
(codecs/src/aper/decode/decode_internal.rs:11-20). -/
def decodeNormallySmallNonNegative : M Int := do
  let isSmall ← decodeBoolM
  if !isSmall then decodeBitsAsInteger 6 false
  else decodeSemiConstrained 0

/-- The value part of `decode_integer` (codecs/src/aper/decode/mod.rs:109-134). -/
def decodeIntegerValue (lb ub : Option Int) (extended : Bool) : M Int :=
  if extended then decodeUnconstrained
  else match lb, ub with
    | none, _ => decodeUnconstrained
    | some l, none => decodeSemiConstrained l
    | some l, some u => decodeConstrained l u

/-- `decode_integer` (codecs/src/aper/decode/mod.rs:90-139). -/
def decodeInteger (lb ub : Option Int) (isExtensible : Bool) : M (Int × Bool) := do
  let extended ← decodeExtBit isExtensible
  let value ← decodeIntegerValue lb ub extended
  pure (value, extended)

/-- `decode_choice_idx` (codecs/src/aper/decode/mod.rs:18-48). -/
def decodeChoiceIdx (lb ub : Int) (isExtensible : Bool) : M (Int × Bool) := do
  if isExtensible then
    let extended ← decodeBoolM
    if !extended then
      let r ← decodeInteger (some lb) (some ub) false
      pure (r.1, extended)
    else
      let idx ← decodeNormallySmallNonNegative
      pure (idx, extended)
  else
    let r ← decodeInteger (some lb) (some ub) false
    pure (r.1, false)

/-- The presence bitmap (codecs/src/aper/decode/mod.rs:68-71). -/
def decodeBitmap (optionalCount : Nat) : M (List Bool) :=
  if 0 < optionalCount then getBitvec optionalCount else pure []

/-- `decode_sequence_header` (codecs/src/aper/decode/mod.rs:55-75). -/
def decodeSequenceHeader (isExtensible : Bool) (optionalCount : Nat) : M (List Bool × Bool) := do
  let extended ← decodeExtBit isExtensible
  let bitmap ← decodeBitmap optionalCount
  pure (bitmap, extended)

/-- The value part of `decode_enumerated` (codecs/src/aper/decode/mod.rs:179-184). -/
def decodeEnumeratedValue (lb ub : Option Int) (isExtended : Bool) : M Int :=
  if !isExtended then do
    let d ← decodeInteger lb ub false
    pure d.1
  else decodeNormallySmallNonNegative

/-- `decode_enumerated` (codecs/src/aper/decode/mod.rs:160-189). -/
def decodeEnumerated (lb ub : Option Int) (isExtensible : Bool) : M (Int × Bool) := do
  let isExtended ← decodeExtBit isExtensible
  let decoded ← decodeEnumeratedValue lb ub isExtended
  pure (decoded, isExtended)

/-- The length read at each turn of the string loops (codecs/src/aper/decode/mod.rs:215-219). -/
def decodeStringLength (isExtended : Bool) (lb ub : Option Int) : M Nat :=
  if isExtended then decodeLength none none false else decodeLength lb ub false

/-- `decode_bitstring` (codecs/src/aper/decode/mod.rs:194-239). -/
def decodeBitstring (lb ub : Option Int) (isExtensible : Bool) : M (List Bool) := do
  let isExtended ← decodeExtBit isExtensible
  decodeFragments (decodeStringLength isExtended lb ub) 16 getBitvec

/-- `decode_octetstring` (codecs/src/aper/decode/mod.rs:244-289). -/
def decodeOctetstring (lb ub : Option Int) (isExtensible : Bool) : M (List UInt8) := do
  let isExtended ← decodeExtBit isExtensible
  decodeFragments (decodeStringLength isExtended lb ub) 2 getBytes

/-- `get_bitvec` together with the storage offset of its first bit within a storage byte, which
`BitVec::from_bitslice` keeps (codecs/src/aper/mod.rs:261). -/
def getBitvecStored (n : Nat) : M (Nat × List Bool) := fun s =>
  (getBitvec n >>= fun l => pure (s.off % 8, l)) s

/-- `decode_string` (codecs/src/aper/decode/decode_charstrings.rs:61-95). -/
def decodeString (lb ub : Option Int) (isExtensible : Bool) : M String := do
  let isExtended ← decodeExtBit isExtensible
  let len ← decodeStringLength isExtended lb ub
  decodeAlignIf (16 < len * 8)
  let bits ← getBitvecStored (len * 8)
  decodeText bits

/-- `decode_visible_string` (codecs/src/aper/decode/decode_charstrings.rs:11-24). -/
def decodeVisibleString := decodeString
/-- `decode_printable_string` (codecs/src/aper/decode/decode_charstrings.rs:27-40). -/
def decodePrintableString := decodeString
/-- `decode_utf8_string` (codecs/src/aper/decode/decode_charstrings.rs:46-59). -/
def decodeUtf8String := decodeString

/-! ## Encoders -/

/-- The branches of `encode_constrained_whole_number` that do not recurse
(codecs/src/aper/encode/encode_internal.rs:53-92): `large` is called with the range and the offset
value when the range exceeds 65536. -/
def encodeConstrainedWith (large : Int → Int → M Unit) (lb ub value : Int) : M Unit := do
  if value < lb then M.fail
  else if value > ub then M.fail
  else
    let d ← chkI128 (ub - lb)
    let range ← chkI128 (d + 1)
    let v ← chkI128 (value - lb)
    if range ≤ 256 then
      if range = 256 then
        align
        appendBits (natToBits 8 (asU8 v))
      else match encFieldBits range with
        | some n => appendBits ((natToBits 8 (asU8 v)).drop (8 - n))
        | none => M.panic
    else if range ≤ 65536 then
      align
      appendBits (natToBits 16 (asU16 v))
    else large range v

/-- The innermost call of the length field: its range is at most 17, so the large branch is not
reached (proved in `Verif/Lemmas/Constrained.lean`, `encodeConstrained_small`). -/
def encodeConstrainedSmall (lb ub value : Int) : M Unit :=
  encodeConstrainedWith (fun _ _ => M.panic) lb ub value

/-- `encode_constrained_whole_number` (codecs/src/aper/encode/encode_internal.rs:47-107). The
recursive call at line 97 has bounds `1..=bytes_needed_for_range ≤ 16` and is the non-recursive
`encodeConstrainedSmall`. -/
def encodeConstrained (lb ub value : Int) : M Unit :=
  encodeConstrainedWith (fun range v => do
    let n := bytesNeededForRange range
    let bytes := i128Bytes v
    let firstNonZero := bytes.findIdx (fun x => x ≠ 0)
    encodeConstrainedSmall 1 n (16 - (firstNonZero : Int))
    align
    appendBits ((bytes.drop firstNonZero).flatMap (natToBits 8))) lb ub value

/-- `encode_normally_small_length_determinent` (codecs/src/aper/encode/encode_internal.rs:128-141);
`value - 1` wraps around at 0. -/
def encodeNormallySmallLength (value : Nat) : M Unit := do
  if value ≤ 32 then
    pushBit false
    appendBits ((natToBits 8 ((value + (2 ^ 64 - 1)) % 256)).drop 2)
  else
    pushBit true
    encodeIndefiniteLength value

/-- `encode_length_determinent` (codecs/src/aper/encode/mod.rs:262-314). -/
def encodeLength (lb ub : Option Int) (normallySmall : Bool) (value : Nat) : M Unit :=
  if normallySmall then encodeNormallySmallLength value
  else
    let indefinite : M Unit :=
      if ub.any (fun u => decide (value > asUsize u)) then M.fail
      else if lb.any (fun l => decide (value < asUsize l)) then M.fail
      else encodeIndefiniteLength value
    match ub with
    | some u => if u < 65536 then encodeConstrained (lb.getD 0) u value else indefinite
    | none => indefinite

/-- `encode_unconstrained_whole_number` (codecs/src/aper/encode/encode_internal.rs:6-30). The slice
`bytes[16 - bytes_needed..]` would still panic if more than 16 octets were needed. -/
def encodeUnconstrained (value : Int) : M Unit := do
  let n := unconstrainedBytes value
  encodeLength none none false n
  if 16 < n then M.panic
  else appendBits ((i128Bits value).drop (8 * (16 - n)))

/-- `encode_semi_constrained_whole_number` (codecs/src/aper/encode/encode_internal.rs:32-45). -/
def encodeSemiConstrained (lb value : Int) : M Unit := do
  if value < lb then M.fail
  else
    let d ← chkI128 (value - lb)
    encodeUnconstrained d

/-- `encode_integer` (codecs/src/aper/encode/mod.rs:81-117). -/
def encodeInteger (lb ub : Option Int) (isExtensible : Bool) (value : Int) (extended : Bool) :
    M Unit := do
  if extended then M.fail
  else
    encodeExtBit isExtensible extended
    match lb, ub with
    | none, _ => encodeUnconstrained value
    | some l, none => encodeSemiConstrained l value
    | some l, some u => encodeConstrained l u value

/-- `encode_choice_idx` (codecs/src/aper/encode/mod.rs:14-42). -/
def encodeChoiceIdx (lb ub : Int) (isExtensible : Bool) (idx : Int) (extended : Bool) : M Unit := do
  if extended then M.fail
  else
    encodeExtBit isExtensible extended
    encodeInteger (some lb) (some ub) false idx false

/-- `encode_enumerated` (codecs/src/aper/encode/mod.rs:131-163). -/
def encodeEnumerated (lb ub : Option Int) (isExtensible : Bool) (value : Int) (extended : Bool) :
    M Unit := do
  if extended then M.fail
  else
    encodeExtBit isExtensible extended
    encodeInteger lb ub false value false

/-- `encode_bitstring` (codecs/src/aper/encode/mod.rs:166-211). -/
def encodeBitstring (lb ub : Option Int) (isExtensible : Bool) (bs : List Bool) (extended : Bool) :
    M Unit := do
  if extended then M.fail
  else
    encodeExtBit isExtensible extended
    if 16384 ≤ bs.length then M.fail
    else
      encodeLength lb ub false bs.length
      if 0 < bs.length then do
        alignIf (16 < bs.length)
        appendBits bs
      else pure ()

/-- `encode_octetstring` (codecs/src/aper/encode/mod.rs:214-259). -/
def encodeOctetstring (lb ub : Option Int) (isExtensible : Bool) (os : List UInt8)
    (extended : Bool) : M Unit := do
  if extended then M.fail
  else
    encodeExtBit isExtensible extended
    if 16384 ≤ os.length then M.fail
    else
      encodeLength lb ub false os.length
      if 0 < os.length then do
        alignIf (2 < os.length)
        appendBits (bytesBits os)
      else pure ()

/-- `encode_string` (codecs/src/aper/encode/mod.rs:316-341). -/
def encodeString (lb ub : Option Int) (isExtensible : Bool) (value : String) (extended : Bool) :
    M Unit := do
  if extended then M.fail
  else
    encodeExtBit isExtensible extended
    encodeLength lb ub false (utf8 value).length
    alignIf (2 < (utf8 value).length)
    appendBits (bytesBits (utf8 value))

/-- `encode_visible_string` (codecs/src/aper/encode/mod.rs:344-362). -/
def encodeVisibleString := encodeString
/-- `encode_printable_string` (codecs/src/aper/encode/mod.rs:365-383). -/
def encodePrintableString := encodeString
/-- `encode_utf8_string` (codecs/src/aper/encode/mod.rs:386-404). -/
def encodeUtf8String := encodeString

/-! ## Derived code -/

/-- The encoder of an open type once its variant's encoder is known
(codecs_derive/src/aper/open.rs:21-29): encode into a fresh buffer, write the length in octets, append
the octets. An `Err` of the variant leaves `data` as it was. -/
def encodeOpen (payload : M Unit) : M Unit := fun s =>
  match payload Codec.new with
  | .err _ => .err s
  | .panic => .panic
  | .ok _ inner =>
    match lengthInBytes inner with
    | .ok n inner => (encodeLength none none false n >>= fun _ => appendAligned inner) s
    | .err _ => .err s
    | .panic => .panic

/-- The character string encoders (codecs_derive/src/aper/charstring.rs:122-126). -/
def encodeCharstring : CharKind → Option Int → Option Int → Bool → String → Bool → M Unit
  | .utf8 => encodeUtf8String
  | .printable => encodePrintableString
  | .visible => encodeVisibleString

/-- The character string decoders (codecs_derive/src/aper/charstring.rs:115-120). -/
def decodeCharstring : CharKind → Option Int → Option Int → Bool → M String
  | .utf8 => decodeUtf8String
  | .printable => decodePrintableString
  | .visible => decodeVisibleString

mutual

/-- The generated `encode`: boolean.rs:25-29, null.rs:25-29, integer.rs:48-52, enumerated.rs:50-54,
bitstring.rs:49-53, octetstring.rs:49-53, charstring.rs:122-126, oid.rs:25-29, seq.rs:37-49,
seqof.rs:60-69, choice.rs:43-49 and 86-91, open.rs:19-29 and 53-57 (all in
codecs_derive/src/aper). -/
def encodeTy : (t : Ty) → t.Val → M Unit
  | .boolean, v => encodeBool v
  | .null, _ => pure ()
  | .integer _ lb ub ext, v => encodeInteger lb ub ext v false
  | .enumerated _ lb ub ext, v => encodeEnumerated lb ub ext v false
  | .bitstring lb ub ext, v => encodeBitstring lb ub ext v false
  | .octetstring lb ub ext, v => encodeOctetstring lb ub ext v false
  | .charstring k lb ub ext, v => encodeCharstring k lb ub ext v false
  | .objectIdentifier, _ => M.fail
  | .sequence ext n fs, v => encodeHeader fs v ext n >>= fun _ => encodeFields fs v
  | .sequenceOf lb ub ext e, v =>
      M.ignoreErr (encodeLength lb ub ext (List.length v)) >>= fun _ => encodeAll (encodeTy e) v
  | .choice lb ub ext as, v =>
      encodeChoiceIdx lb ub ext (as.keyOf v) (as.extendedOf v) >>= fun _ => encodeAlts as v
  | .openType as, v => encodeOpen (encodeAlts as v)

/-- The fields of a struct, absent ones skipped (codecs_derive/src/aper/seq.rs:112-124). -/
def encodeFields : (fs : Fields) → fs.Val → M Unit
  | .nil, _ => pure ()
  | .required _ t rest, v => encodeTy t v.1 >>= fun _ => encodeFields rest v.2
  | .optional _ t rest, v =>
      (match v.1 with
        | some x => encodeTy t x
        | none => pure ()) >>= fun _ => encodeFields rest v.2

/-- `v.encode(data)` for the variant at hand (choice.rs:89, open.rs:101). -/
def encodeAlts : (as : Alts) → as.Val → M Unit
  | .cons _ _ t _, .inl v => encodeTy t v
  | .cons _ _ _ rest, .inr v => encodeAlts rest v

end

/-! ## Decoding -/

mutual

/-- The loop of a SEQUENCE OF announced with no elements is the same in a release build: its counter would wrap after
2^64 turns, but the `push` at codecs_derive/src/aper/seqof.rs:51 panics before, for a `Vec` does not hold
2^64 elements.

The generated `decode`: boolean.rs:18-23, null.rs:19-23, integer.rs:42-46, enumerated.rs:42-48,
bitstring.rs:42-47, octetstring.rs:42-47, charstring.rs:115-120, oid.rs:19-23, seq.rs:30-35,
seqof.rs:43-58, choice.rs:29-41, open.rs:36-51 (all in codecs_derive/src/aper). -/
def decodeTy : (t : Ty) → M t.Val
  | .boolean => decodeBool
  | .null => pure ()
  | .integer w lb ub ext => decodeInteger lb ub ext >>= fun d => pure (w.cast d.1)
  | .enumerated w lb ub ext => decodeEnumerated lb ub ext >>= fun d => pure (w.cast d.1)
  | .bitstring lb ub ext => decodeBitstring lb ub ext
  | .octetstring lb ub ext => decodeOctetstring lb ub ext
  | .charstring k lb ub ext => decodeCharstring k lb ub ext
  | .objectIdentifier => M.fail
  | .sequence ext n fs => decodeSequenceHeader ext n >>= fun h => decodeFields fs h.1
  | .sequenceOf lb ub ext e => decodeLength lb ub ext >>= fun n => Hampi.decodeLoop (decodeTy e) n
  | .choice lb ub ext as =>
      decodeChoiceIdx lb ub ext >>= fun r => if !r.2 then decodeAlts as r.1 else M.fail
  | .openType as =>
      decodeLength none none false >>= fun _ => requireKey >>= fun k => decodeAlts as k

/-- The fields of a struct (codecs_derive/src/aper/seq.rs:66-110). -/
def decodeFields : (fs : Fields) → (bitmap : List Bool) → M fs.Val
  | .nil, _ => pure ()
  | .required k t rest, bm =>
      decodeTy t >>= fun v => setKeyFrom k t v >>= fun _ => decodeFields rest bm >>= fun vs => pure (v, vs)
  | .optional i t rest, bm =>
      present bm i >>= fun b =>
        (if b then decodeTy t >>= fun x => pure (some x) else pure none) >>= fun v =>
          decodeFields rest bm >>= fun vs => pure (v, vs)

/-- `match key { .. }`: the first variant with that key (choice.rs:83-85, open.rs:97-99); `Err` if
there is none (choice.rs:36, open.rs:51). -/
def decodeAlts : (as : Alts) → (key : Int) → M as.Val
  | .nil, _ => M.fail
  | .cons k _ t rest, key =>
      if key = k then decodeTy t >>= fun v => pure (.inl v)
      else decodeAlts rest key >>= fun v => pure (.inr v)

end

end Hampi.Release
