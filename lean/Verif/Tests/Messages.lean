import Verif.Examples.Ngap
import Verif.Examples.Ranap
/-!
# The messages of the examples, asked of the model

These are tests, not proofs of any property: the messages which `/repo/examples` decodes are decoded by the model of
the derived code of the same generated types.
-/
namespace Hampi.Tests

/-- Whether the octets decode, and what encoding the decoded value gives. -/
def reencoded (t : Ty) (bytes : List UInt8) : Option (Option (List UInt8)) :=
  match t.decode (Codec.fromSlice bytes) with
  | .ok v _ => some (match t.encode v Codec.new with | .ok _ s => some s.intoBytes | _ => none)
  | _ => none

/-- The first message (examples/tests/11-ranap.rs:12704). -/
def ranap1 : List UInt8 := [0x00, 0x01, 0x00, 0x08, 0x00, 0x00, 0x01, 0x00, 0x04, 0x40, 0x01, 0x22]
/-- The second message (examples/tests/11-ranap.rs:12709). -/
def ranap2 : List UInt8 := [0x00, 0x14, 0x40, 0x0f, 0x00, 0x00, 0x02, 0x00, 0x10, 0x40, 0x03, 0x02, 0x83, 0x2a,
  0x00, 0x3b, 0x40, 0x01, 0x00]
/-- An NG SETUP REQUEST (examples/tests/13-ngap.rs:16110). -/
def ngap1 : List UInt8 := [0x00, 0x15, 0x40, 0x4a, 0x00, 0x00, 0x04, 0x00, 0x1b, 0x00, 0x08, 0x40, 0x02, 0xf8, 0x98,
  0x00, 0x00, 0x00, 0x00, 0x00, 0x52, 0x40, 0x0f, 0x06, 0x00, 0x4d, 0x79, 0x20, 0x6c, 0x69, 0x74, 0x74, 0x6c, 0x65,
  0x20, 0x67, 0x4e, 0x42, 0x00, 0x66, 0x00, 0x1f, 0x01, 0x00, 0x00, 0x00, 0x00, 0x00, 0x02, 0xf8, 0x98, 0x00, 0x01,
  0x00, 0x08, 0x00, 0x80, 0x00, 0x00, 0x01, 0x00, 0x02, 0xf8, 0x39, 0x00, 0x01, 0x00, 0x18, 0x81, 0xc0, 0x00, 0x13,
  0x88, 0x00, 0x15, 0x40, 0x01, 0x40]

-- examples/tests/11-ranap.rs:12704-12707: decodes; the model also writes the same octets again
example : reencoded Ranap.RANAP_PDU ranap1 = some (some ranap1) := by decide +kernel
-- examples/tests/11-ranap.rs:12709-12712
example : reencoded Ranap.RANAP_PDU ranap2 = some (some ranap2) := by decide +kernel
-- examples/tests/13-ngap.rs:16110-16122, examples/benches/ngap_bench.rs:7-19
example : reencoded Ngap.NGAP_PDU ngap1 = some (some ngap1) := by decide +kernel

end Hampi.Tests
