import Verif.Bits
/-!
# `AperCodecData`: the bit buffer (codecs/src/aper/mod.rs)
-/
namespace Hampi

/-- `AperCodecData` (codecs/src/aper/mod.rs:32-36). -/
structure Codec where
  bits : List Bool
  off : Nat
  key : Option Int
deriving Repr, DecidableEq, Inhabited

/-- Outcome of a Rust call `fn(&mut AperCodecData, ..) -> Result<α, AperCodecError>`: `Ok`, `Err`
(the message is not modelled, the buffer left behind is) or a panic. -/
inductive Res (α : Type) where
  | ok (a : α) (s : Codec)
  | err (s : Codec)
  | panic
deriving Repr, DecidableEq

/-- A Rust function on `&mut AperCodecData`. `bind` models sequencing with the `?` operator. -/
def M (α : Type) : Type := Codec → Res α

namespace M
variable {α β : Type}

@[inline] protected def pure (a : α) : M α := fun s => .ok a s

@[inline] protected def bind (m : M α) (f : α → M β) : M β := fun s =>
  match m s with
  | .ok a s' => f a s'
  | .err s' => .err s'
  | .panic => .panic

instance : Monad M where
  pure := M.pure
  bind := M.bind

/-- `return Err(..)`. -/
def fail : M α := fun s => .err s

/-- A Rust panic (overflow, out-of-range slice, `unwrap` on `None`, `unreachable!`, ..). -/
def panic : M α := fun _ => .panic

end M

/-- Result of an `i128` operation: panic on overflow (debug build arithmetic). -/
def chkI128 (v : Int) : M Int := if IsI128 v then pure v else M.panic

namespace Codec

/-- `AperCodecData::new` (codecs/src/aper/mod.rs:40-42). -/
def new : Codec := { bits := [], off := 0, key := none }

/-- `AperCodecData::from_slice` (codecs/src/aper/mod.rs:45-51). -/
def fromSlice (bytes : List UInt8) : Codec := { bits := bytesBits bytes, off := 0, key := none }

/-- `AperCodecData::into_bytes` (codecs/src/aper/mod.rs:54-56). -/
def intoBytes (s : Codec) : List UInt8 := bitsBytes s.bits

/-- `AperCodecData::get_inner` (codecs/src/aper/mod.rs:285-287); always `Ok`. -/
def getInner (s : Codec) : List UInt8 := bitsBytes s.bits

/-- `AperCodecData::get_key` (codecs/src/aper/mod.rs:294-296). -/
def getKey (s : Codec) : Option Int := s.key

end Codec

/-! ## Decoding primitives -/

/-- `AperCodecData::decode_align` (codecs/src/aper/mod.rs:59-82). The slice at line 67 panics when it
reaches past the end of the buffer. -/
def decodeAlign : M Unit := fun s =>
  if s.off % 8 = 0 then .ok () s
  else
    let remaining := 8 - s.off % 8
    if s.bits.length < s.off + remaining then .panic
    else if ((s.bits.drop s.off).take remaining).all (fun b => !b) then
      .ok () { s with off := s.off + remaining }
    else .err s

/-- `AperCodecData::advance_maybe_err` (codecs/src/aper/mod.rs:214-233). Line 220 underflows (panic)
when the offset is beyond the buffer. -/
def advanceMaybeErr (n : Nat) (ignore : Bool) : M Unit := fun s =>
  if s.bits.length < s.off + n then
    if ignore then .ok () { s with off := s.bits.length }
    else if s.bits.length < s.off then .panic else .err s
  else .ok () { s with off := s.off + n }

/-- `AperCodecData::decode_bool` (codecs/src/aper/mod.rs:84-94). Line 90: `unwrap` on `None` when the
offset is beyond the buffer. -/
def decodeBoolM : M Bool := fun s =>
  if s.bits.length = s.off then .err s
  else match s.bits[s.off]? with
    | none => .panic
    | some bit => (advanceMaybeErr 1 true >>= fun _ => pure bit) s

/-- The widths for which `decode_bits_as_integer` reads signed numbers
(codecs/src/aper/mod.rs:124-206). -/
def signedWidths : List Nat := [8, 16, 24, 32, 40, 48, 56, 64, 128]

/-- `AperCodecData::decode_bits_as_integer` (codecs/src/aper/mod.rs:96-212). Line 101 underflows
(panic) when the offset is beyond the buffer. Unsigned: `load_be::<u128>` panics above 128 bits, and
`as i128` is two's complement. Signed: the nine supported widths are all sign extensions (the 24, 40,
48 and 56 bit cases set or clear the top bits explicitly, lines 135-188), other widths are `Err`. -/
def decodeBitsAsInteger (n : Nat) (signed : Bool) : M Int := fun s =>
  if s.bits.length < s.off then .panic
  else if s.bits.length - s.off < n then .err s
  else
    let x := bitsToNat ((s.bits.drop s.off).take n)
    if !signed then
      if n = 0 then (advanceMaybeErr n false >>= fun _ => pure 0) s
      else if 128 < n then .panic
      else (advanceMaybeErr n false >>= fun _ => pure (signExtend 128 x)) s
    else if n ∈ signedWidths then
      (advanceMaybeErr n false >>= fun _ => pure (signExtend n x)) s
    else .err s

/-- `AperCodecData::get_bitvec` (codecs/src/aper/mod.rs:250-265). The error message at line 256
underflows (panic) when the offset is beyond the buffer. -/
def getBitvec (n : Nat) : M (List Bool) := fun s =>
  if s.bits.length < n + s.off then
    if s.bits.length < s.off then .panic else .err s
  else (advanceMaybeErr n true >>= fun _ => pure ((s.bits.drop s.off).take n)) s

/-- `AperCodecData::get_bytes` (codecs/src/aper/mod.rs:267-283). `force_align` moves the bits to
storage offset 0 before the octets are taken. -/
def getBytes (len : Nat) : M (List UInt8) := fun s =>
  let n := len * 8
  if s.bits.length < n + s.off then
    if s.bits.length < s.off then .panic else .err s
  else (advanceMaybeErr n true >>= fun _ => pure (bitsBytes ((s.bits.drop s.off).take n))) s

/-- `AperCodecData::get_bit` (codecs/src/aper/mod.rs:235-248). The error message at line 241
underflows (panic) when the offset is beyond the buffer. -/
def getBit : M Bool := fun s =>
  if s.bits.length ≤ s.off then
    if s.bits.length < s.off then .panic else .err s
  else match s.bits[s.off]? with
    | none => .panic
    | some bit => .ok bit s

/-! ## Other state changes -/

/-- `AperCodecData::set_key` (codecs/src/aper/mod.rs:304-306). -/
def setKey (k : Int) : M Unit := fun s => .ok () { s with key := some k }

/-- `AperCodecData::seek` (codecs/src/aper/mod.rs:328-330). -/
def seek (n : Nat) : M Unit := fun s => .ok () { s with off := n }

/-- `AperCodecData::reserve` (codecs/src/aper/mod.rs:321-324). The capacity is not modelled. -/
def reserve (n : Nat) : M Unit := fun s => .ok () { s with off := n }

/-- `AperCodecData::set_bit` (codecs/src/aper/mod.rs:336-338); `BitSlice::set` panics out of range. -/
def setBit (i : Nat) (v : Bool) : M Unit := fun s =>
  if i < s.bits.length then .ok () { s with bits := s.bits.set i v } else .panic

/-- `AperCodecData::swap_bits` (codecs/src/aper/mod.rs:332-334); returns the new contents of `other`.
The slice panics out of range. -/
def swapBits (other : List Bool) (i : Nat) : M (List Bool) := fun s =>
  if s.bits.length < other.length + i then .panic
  else .ok ((s.bits.drop i).take other.length)
    { s with bits := s.bits.take i ++ other ++ s.bits.drop (i + other.length) }

/-! ## Encoding primitives -/

/-- `AperCodecData::encode_bool` (codecs/src/aper/mod.rs:342-344). -/
def pushBit (b : Bool) : M Unit := fun s => .ok () { s with bits := s.bits ++ [b] }

/-- `AperCodecData::append_bits` (codecs/src/aper/mod.rs:347-349). -/
def appendBits (w : List Bool) : M Unit := fun s => .ok () { s with bits := s.bits ++ w }

/-- `AperCodecData::align` (codecs/src/aper/mod.rs:352-357). -/
def align : M Unit := fun s =>
  let remaining := 8 - s.bits.length % 8
  if remaining < 8 then .ok () { s with bits := s.bits ++ List.replicate remaining false }
  else .ok () s

/-- `if cond { data.align(); }` (codecs/src/aper/encode/mod.rs:202-204, 251-253, 334-336). -/
def alignIf (c : Bool) : M Unit := if c then align else pure ()

/-- `if cond { data.decode_align()?; }` (codecs/src/aper/decode/mod.rs:222-224, 272-274,
decode_charstrings.rs:81-83). -/
def decodeAlignIf (c : Bool) : M Unit := if c then decodeAlign else pure ()

/-- `AperCodecData::length_in_bytes` (codecs/src/aper/mod.rs:361-363); `len - 1` underflows (panic)
on an empty buffer. -/
def lengthInBytes : M Nat := fun s =>
  if s.bits.length = 0 then .panic else .ok ((s.bits.length - 1) / 8 + 1) s

/-- `AperCodecData::append_aligned` (codecs/src/aper/mod.rs:367-371). `other` is a separate buffer;
its own final state (aligned) is not returned because every caller drops it. -/
def appendAligned (other : Codec) : M Unit := do
  align
  match align other with
  | .ok _ o => appendBits o.bits
  | .err _ => M.fail
  | .panic => M.panic

/-- `bytes_needed_for_range` (codecs/src/aper/mod.rs:374-381). -/
def bytesNeededForRange (range : Int) : Nat :=
  let bitsNeeded := 128 - leadingZeros128 range
  bitsNeeded / 8 + if bitsNeeded % 8 ≠ 0 then 1 else 0

end Hampi
