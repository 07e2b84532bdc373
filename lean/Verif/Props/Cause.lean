import Verif.Lemmas.Cause
import Verif.Props.ShortMessages
/-!
# C105 and C111: what makes a derived decoder panic
-/
namespace Hampi

/-- **C105**, exactly: octets make the decoder of a type panic if and only if it comes to a component that breaks: to an
extensible ENUMERATED or CHOICE where an index of 17 octets or more follows, or to a list of length 0 whose elements can
be read for ever. Only bounds that panic by themselves (C24) are excluded. -/
theorem C105_panics_iff (t : Ty) (ht : t.fit = true) (octets : List UInt8) (position : Nat)
    (hp : position ≤ 8 * octets.length) (key : Option Int) :
    t.decode ⟨bytesBits octets, position, key⟩ = .panic ↔
      ∃ t' s', t.Reaches ⟨bytesBits octets, position, key⟩ t' s' ∧ t'.Breaks s' := by
  have hs : OctetBuffer ⟨bytesBits octets, position, key⟩ := by unfold OctetBuffer; simp; exact hp
  constructor
  · exact t.caused ht _ hs
  · rintro ⟨t', s', h1, h2⟩
    exact t.breaks hs h1 h2

/-- **C105**, exactly, for types without lists of elements that occupy no bits: only the index of an extension makes a
decoder panic. -/
theorem C105_index_iff (t : Ty) (ht : t.sane true = true) (octets : List UInt8) (hlen : 8 * octets.length < 2 ^ 64)
    (position : Nat) (hp : position ≤ 8 * octets.length) (key : Option Int) :
    t.decode ⟨bytesBits octets, position, key⟩ = .panic ↔
      ∃ t' s', t.Reaches ⟨bytesBits octets, position, key⟩ t' s' ∧ t'.Indexed ∧ HugeIndex s' := by
  have hs : OctetBuffer ⟨bytesBits octets, position, key⟩ := by unfold OctetBuffer; simp; exact hp
  rw [C105_panics_iff t (t.fit_of_sane ht) octets position hp key]
  constructor
  · rintro ⟨t', s', h1, h2⟩
    obtain ⟨a, b, c⟩ := t.reached hs h1 ht
    exact ⟨t', s', h1, h2.indexed a b (by rw [c]; simpa using hlen)⟩
  · rintro ⟨t', s', h1, h2, h3⟩
    exact ⟨t', s', h1, h2.breaks h3⟩

/-- **C111**, exactly: the octets that bring down a receiver. For S1AP these are the ones in which the index of an
extension has 17 octets or more; for NGAP and RANAP also those with an empty list of entries without contents. -/
theorem C111_panics_iff (octets : List UInt8) (hlen : 8 * octets.length < 2 ^ 64) :
    (S1ap.S1AP_PDU.decode (Codec.fromSlice octets) = .panic ↔
      ∃ t s, S1ap.S1AP_PDU.Reaches (Codec.fromSlice octets) t s ∧ t.Indexed ∧ HugeIndex s) ∧
    (Ngap.NGAP_PDU.decode (Codec.fromSlice octets) = .panic ↔
      ∃ t s, Ngap.NGAP_PDU.Reaches (Codec.fromSlice octets) t s ∧ t.Breaks s) ∧
    (Ranap.RANAP_PDU.decode (Codec.fromSlice octets) = .panic ↔
      ∃ t s, Ranap.RANAP_PDU.Reaches (Codec.fromSlice octets) t s ∧ t.Breaks s) :=
  ⟨C105_index_iff S1ap.S1AP_PDU (by decide +kernel) octets hlen 0 (by omega) none,
    C105_panics_iff Ngap.NGAP_PDU (by decide +kernel) octets 0 (by omega) none,
    C105_panics_iff Ranap.RANAP_PDU (by decide +kernel) octets 0 (by omega) none⟩

/-- The outcome is a panic. -/
def Cause.isPanic {α : Type} : Res α → Bool
  | .panic => true
  | _ => false

theorem Cause.isPanic_iff {α : Type} (r : Res α) : Cause.isPanic r = true ↔ r = .panic := by
  cases r <;> simp [Cause.isPanic]

/-- An optional component after a list. -/
def Cause.message : Ty :=
  .sequence false 1 (.required false (.sequenceOf (some 0) (some 3) false .boolean)
    (.optional 0 (.enumerated .u8 (some 0) (some 3) true) .nil))

example : Cause.message.sane true = true := by decide

/-- The bit of the optional component, a list of two, the index of the extension in 17 octets: the decoder comes to the
ENUMERATED after five bits. -/
example : ∃ t s, Cause.message.Reaches (Codec.fromSlice (0xD6 :: 17 :: List.replicate 17 1)) t s ∧ t.Indexed ∧
    HugeIndex s :=
  (C105_index_iff Cause.message (by decide) _ (by decide) 0 (by decide) none).mp
    ((Cause.isPanic_iff _).mp (by decide +kernel))

/-- With 16 octets it does not panic. -/
example : ¬ ∃ t s, Cause.message.Reaches (Codec.fromSlice (0xD6 :: 16 :: List.replicate 16 1)) t s ∧ t.Indexed ∧
    HugeIndex s :=
  mt (C105_index_iff Cause.message (by decide) _ (by decide) 0 (by decide) none).mpr
    (mt (Cause.isPanic_iff _).mpr (by decide +kernel))

end Hampi
