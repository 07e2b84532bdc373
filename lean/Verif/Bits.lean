/-!
# Bits, octets and fixed-width integers

The Rust code stores bits in a `BitVec<u8, Msb0>` (crate `bitvec`), modelled as `List Bool`, first
bit first. Fixed-width integers are modelled by `Int`/`Nat` together with explicit conversions.
-/
namespace Hampi

/-- The number denoted by a bit list read most significant bit first.
Models `BitSlice<u8, Msb0>::load_be::<u128>()` as used in codecs/src/aper/mod.rs:120
(without the width check, which the caller models). -/
def bitsToNat : List Bool → Nat
  | [] => 0
  | b :: bs => b.toNat * 2 ^ bs.length + bitsToNat bs

/-- The `n` low-order bits of `v`, most significant first. Models `v.view_bits::<Msb0>()` of an
`n`-bit unsigned integer in big-endian octet order (codecs/src/aper/encode/encode_internal.rs:88,92,116). -/
def natToBits : Nat → Nat → List Bool
  | 0, _ => []
  | n + 1, v => v.testBit n :: natToBits n v

/-- The eight bits of an octet (`view_bits::<Msb0>()` on `u8`). -/
def byteBits (b : UInt8) : List Bool := natToBits 8 b.toNat

/-- The bits of an octet sequence. Models `BitSlice::from_slice(bytes)` (codecs/src/aper/mod.rs:47)
and `octet_string.view_bits()` (codecs/src/aper/encode/mod.rs:254). -/
def bytesBits (bs : List UInt8) : List Bool := bs.flatMap byteBits

/-- Cuts a bit list into octets, zero-filling the last one. Models `BitVec::into_vec` on a vector
starting at storage offset 0 (codecs/src/aper/mod.rs:55, 282, 286). -/
def bitsBytes : List Bool → List UInt8
  | b0 :: b1 :: b2 :: b3 :: b4 :: b5 :: b6 :: b7 :: rest =>
      UInt8.ofNat (bitsToNat [b0, b1, b2, b3, b4, b5, b6, b7]) :: bitsBytes rest
  | [] => []
  | l => [UInt8.ofNat (bitsToNat (l ++ List.replicate (8 - l.length) false))]

/-- `v` is a value of Rust's `i128`. -/
def IsI128 (v : Int) : Prop := -(2 ^ 127) ≤ v ∧ v < 2 ^ 127

instance (v : Int) : Decidable (IsI128 v) := inferInstanceAs (Decidable (_ ∧ _))

/-- Two's complement pattern of an `i128` as a natural below `2^128` (`v as u128`). -/
def toU128 (v : Int) : Nat := (v % 2 ^ 128).toNat

/-- `n`-bit two's complement reading of a natural (`x as iN`, low `n` bits of `x`). -/
def signExtend (n : Nat) (x : Nat) : Int :=
  let m := x % 2 ^ n
  if m < 2 ^ (n - 1) then (m : Int) else (m : Int) - 2 ^ n

/-- The 128 bits of `value.to_be_bytes()` for an `i128`
(codecs/src/aper/encode/encode_internal.rs:27, 95). -/
def i128Bits (v : Int) : List Bool := natToBits 128 (toU128 v)

/-- The 16 octets of `value.to_be_bytes()` as numbers (codecs/src/aper/encode/encode_internal.rs:95). -/
def i128Bytes (v : Int) : List Nat :=
  (List.range 16).map fun i => toU128 v / 2 ^ (8 * (15 - i)) % 256

/-- `i128::leading_zeros` (codecs/src/aper/mod.rs:375, encode_internal.rs:19). -/
def leadingZeros128 (v : Int) : Nat := ((i128Bits v).takeWhile (fun b => !b)).length

/-- `i128::leading_ones` (codecs/src/aper/encode/encode_internal.rs:11). -/
def leadingOnes128 (v : Int) : Nat := ((i128Bits v).takeWhile (fun b => b)).length

/-- `v as usize` on a 64-bit target for an `i128` (truncation). -/
def asUsize (v : Int) : Nat := (v % 2 ^ 64).toNat

/-- `v as u8` (truncation), codecs/src/aper/encode/encode_internal.rs:71. -/
def asU8 (v : Int) : Nat := (v % 2 ^ 8).toNat

/-- `v as u16` (truncation), codecs/src/aper/encode/encode_internal.rs:91. -/
def asU16 (v : Int) : Nat := (v % 2 ^ 16).toNat

end Hampi
