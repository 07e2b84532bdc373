import Verif.Codec.Encode
import Verif.Codec.Decode
/-!
# The public encode and decode functions, as data

`Kind` names a public encode/decode pair with its fixed parameters; `Kind.encode` and `Kind.decode`
are exactly the modelled functions. This lets a property quantify over all functions and over all
histories of calls.
-/
namespace Hampi

/-- A pair of public functions with the parameters shared by both. -/
inductive Kind where
  | integer (lb ub : Option Int) (ext : Bool)
  | enumerated (lb ub : Option Int) (ext : Bool)
  | choiceIdx (lb ub : Int) (ext : Bool)
  | sequenceHeader (ext : Bool) (count : Nat)
  | bool
  | bitstring (lb ub : Option Int) (ext : Bool)
  | octetstring (lb ub : Option Int) (ext : Bool)
  | visibleString (lb ub : Option Int) (ext : Bool)
  | printableString (lb ub : Option Int) (ext : Bool)
  | utf8String (lb ub : Option Int) (ext : Bool)
  | length (lb ub : Option Int) (normallySmall : Bool)

/-- The Rust type of the value given to the encoder. -/
def Kind.In : Kind → Type
  | .integer .. | .enumerated .. | .choiceIdx .. => Int
  | .sequenceHeader .. | .bitstring .. => List Bool
  | .bool => Bool
  | .octetstring .. => List UInt8
  | .visibleString .. | .printableString .. | .utf8String .. => String
  | .length .. => Nat

/-- The Rust type returned by the decoder. -/
def Kind.Out : Kind → Type
  | .integer .. | .enumerated .. | .choiceIdx .. => Int × Bool
  | .sequenceHeader .. => List Bool × Bool
  | .bool => Bool
  | .bitstring .. => List Bool
  | .octetstring .. => List UInt8
  | .visibleString .. | .printableString .. | .utf8String .. => String
  | .length .. => Nat

/-- Call the encoder. `extended` is its last argument where it has one. -/
def Kind.encode : (k : Kind) → k.In → (extended : Bool) → M Unit
  | .integer lb ub e, v, x => encodeInteger lb ub e v x
  | .enumerated lb ub e, v, x => encodeEnumerated lb ub e v x
  | .choiceIdx lb ub e, v, x => encodeChoiceIdx lb ub e v x
  | .sequenceHeader e _, v, x => encodeSequenceHeader e v x
  | .bool, v, _ => encodeBool v
  | .bitstring lb ub e, v, x => encodeBitstring lb ub e v x
  | .octetstring lb ub e, v, x => encodeOctetstring lb ub e v x
  | .visibleString lb ub e, v, x => encodeVisibleString lb ub e v x
  | .printableString lb ub e, v, x => encodePrintableString lb ub e v x
  | .utf8String lb ub e, v, x => encodeUtf8String lb ub e v x
  | .length lb ub ns, v, _ => encodeLength lb ub ns v

/-- Call the decoder. -/
def Kind.decode : (k : Kind) → M k.Out
  | .integer lb ub e => decodeInteger lb ub e
  | .enumerated lb ub e => decodeEnumerated lb ub e
  | .choiceIdx lb ub e => decodeChoiceIdx lb ub e
  | .sequenceHeader e n => decodeSequenceHeader e n
  | .bool => decodeBool
  | .bitstring lb ub e => decodeBitstring lb ub e
  | .octetstring lb ub e => decodeOctetstring lb ub e
  | .visibleString lb ub e => decodeVisibleString lb ub e
  | .printableString lb ub e => decodePrintableString lb ub e
  | .utf8String lb ub e => decodeUtf8String lb ub e
  | .length lb ub ns => decodeLength lb ub ns

/-- What the decoder should return for an encoded value: the value, flagged as not extended. -/
def Kind.expected : (k : Kind) → k.In → k.Out
  | .integer .., v | .enumerated .., v | .choiceIdx .., v => (v, false)
  | .sequenceHeader .., v => (v, false)
  | .bool, v | .bitstring .., v | .octetstring .., v => v
  | .visibleString .., v | .printableString .., v | .utf8String .., v => v
  | .length .., v => v

/-- One call of a public encode function. -/
structure EncOp where
  kind : Kind
  value : kind.In
  extended : Bool

/-- Calls of decode functions and of the reading primitives of `AperCodecData`. -/
inductive DecOp where
  | item (k : Kind)
  | align
  | bit
  | bitvec (n : Nat)
  | bytes (n : Nat)
  | bits (n : Nat) (signed : Bool)

/-- What a call returns. -/
def DecOp.Out : DecOp → Type
  | .item k => k.Out
  | .align => Unit
  | .bit => Bool
  | .bitvec _ => List Bool
  | .bytes _ => List UInt8
  | .bits .. => Int

/-- Make the call. -/
def DecOp.run : (o : DecOp) → M o.Out
  | .item k => k.decode
  | .align => decodeAlign
  | .bit => decodeBoolM
  | .bitvec n => getBitvec n
  | .bytes n => getBytes n
  | .bits n sg => decodeBitsAsInteger n sg

/-- A call of any kind, including `set_key`. -/
inductive Op where
  | enc (o : EncOp)
  | dec (o : DecOp)
  | setKey (k : Int)

/-- The buffer a call leaves behind, whether it returned `Ok` or `Err`; `none` after a panic. -/
def Res.left {α : Type} : Res α → Option Codec
  | .ok _ s => some s
  | .err s => some s
  | .panic => none

/-- Make a call, keep only the buffer. -/
def Op.step : Op → Codec → Option Codec
  | .enc o, s => (o.kind.encode o.value o.extended s).left
  | .dec o, s => (o.run s).left
  | .setKey k, s => (Hampi.setKey k s).left

/-- A history: calls made one after the other on one buffer, ignoring returned values and errors.
`none` when one of them panics. -/
def runOps : List Op → Codec → Option Codec
  | [], s => some s
  | o :: os, s => (o.step s).bind (runOps os)

end Hampi
