import Verif.Props.Frame
import Verif.Props.Strings
import Verif.Props.Integers
/-!
# C26, C27, C32: several items in one buffer, unambiguity, octet transport
-/
namespace Hampi

open Spec (ReadsBack SizeBounds)

variable {α β : Type}

/-! ## C26 -/

/-- An `i128` which, when there is no lower bound, is not among those the decoder refuses
(`C04_middle_values_violated`). -/
def ReliableInt (lb : Option Int) (v : Int) : Prop :=
  IsI128 v ∧ (lb = none → (-(2 ^ 63) ≤ v ∧ v < 2 ^ 63) ∨ v < -(2 ^ 119) ∨ 2 ^ 119 ≤ v)

/-- Strings the decoder returns whatever the position (`C13_short_unaligned_violated`). -/
def ReliableText (lb ub : Option Int) (v : String) : Prop :=
  SizeBounds lb ub ∧ (2 < (utf8 v).length ∨ utf8 v = [])

/-- The bitmap has the announced length. -/
def HeaderOk (n : Nat) (v : List Bool) : Prop := v.length = n

/-- Arguments covered by the round-trip theorems at every position. -/
def Kind.Reliable : (k : Kind) → k.In → Prop
  | .integer lb _ _, v | .enumerated lb _ _, v => ReliableInt lb v
  | .choiceIdx .., v => ReliableInt (some 0) v
  | .sequenceHeader _ n, v => HeaderOk n v
  | .bool, _ => True
  | .bitstring lb ub _, _ | .octetstring lb ub _, _ => SizeBounds lb ub
  | .visibleString lb ub _, v | .printableString lb ub _, v | .utf8String lb ub _, v =>
      ReliableText lb ub v
  | .length lb ub _, _ => SizeBounds lb ub

theorem ReliableInt.intOk {lb : Option Int} {v : Int} (h : ReliableInt lb v) : IntOk lb v := by
  intro hn
  rcases h.2 hn with h2 | h2
  · exact signedOctets_of_i64 h2
  · right; exact unconstrainedBytes_large h.1 h2

theorem string_rt_reliable {lb ub : Option Int} {v : String} (h : ReliableText lb ub v)
    (e x : Bool) : RT (encodeString lb ub e v x) (decodeString lb ub e) v := by
  intro s s' hs
  exact string_rt h.1 hs (h.2.elim .inl fun h => .inr (.inr h))

theorem Kind.rt (k : Kind) (v : k.In) (h : k.Reliable v) (x : Bool) :
    RT (k.encode v x) k.decode (k.expected v) := by
  cases k with
  | integer lb ub e => exact .integer h.1 (ReliableInt.intOk h) e x
  | enumerated lb ub e => exact .enumerated h.1 (ReliableInt.intOk h) e x
  | choiceIdx lb ub e => exact .choiceIdx h.1 e x
  | sequenceHeader e n =>
    have r := RT.sequenceHeader e v x
    rw [show List.length v = n from h] at r
    exact r
  | bool => exact .boolM v
  | bitstring lb ub e => exact .bitstring h v e x
  | octetstring lb ub e => exact .octetstring h v e x
  | visibleString lb ub e => exact string_rt_reliable h e x
  | printableString lb ub e => exact string_rt_reliable h e x
  | utf8String lb ub e => exact string_rt_reliable h e x
  | length lb ub ns => exact .length h ns v

/-- A value with the function pair that handles it. -/
structure Item where
  kind : Kind
  value : kind.In

/-- A decoded value with the function that returned it. -/
structure Decoded where
  kind : Kind
  value : kind.Out

/-- Encode the items one after the other, stopping at the first error. -/
def encodeItems : List Item → M Unit
  | [] => pure ()
  | i :: is => do
    i.kind.encode i.value false
    encodeItems is

/-- Decode items of the given kinds one after the other. -/
def decodeItems : List Kind → M (List Decoded)
  | [] => pure []
  | k :: ks => do
    let v ← k.decode
    let vs ← decodeItems ks
    pure (⟨k, v⟩ :: vs)

theorem items_rt (is : List Item) (h : ∀ i ∈ is, i.kind.Reliable i.value) :
    RT (encodeItems is) (decodeItems (is.map (·.kind)))
      (is.map fun i => ⟨i.kind, i.kind.expected i.value⟩) := by
  induction is with
  | nil => exact .pure []
  | cons i is ih =>
    refine .bind (i.kind.rt i.value (h i List.mem_cons_self) false) ?_
    exact .map (ih fun j hj => h j (List.mem_cons_of_mem _ hj))
      fun vs => (⟨i.kind, i.kind.expected i.value⟩ :: vs : List Decoded)

/-- **C26 (partial).** Full statement: any list of items encoded one after the other is returned in
order and complete by the matching decode calls. Proved for `Kind.Reliable` arguments. Missing,
because false: integers without lower bound of 9 to 15 octets and character strings of one or two
octets. -/
theorem C26_items_in_order_partial (items : List Item)
    (h : ∀ i ∈ items, i.kind.Reliable i.value) :
    ReadsBack (encodeItems items) (decodeItems (items.map (·.kind)))
      (items.map fun i => ⟨i.kind, i.kind.expected i.value⟩) :=
  (items_rt items h).readsBack

/-- A mixed list meets the hypotheses and is accepted. -/
def sampleItems : List Item :=
  [⟨.bool, true⟩, ⟨.integer none none false, (-300 : Int)⟩, ⟨.octetstring none none true, [1, 2, 3]⟩,
    ⟨.choiceIdx 0 2 true, (1 : Int)⟩]

example : ∀ i ∈ sampleItems, i.kind.Reliable i.value := by
  intro i hi
  simp only [sampleItems, List.mem_cons, List.not_mem_nil, or_false] at hi
  have hsb : SizeBounds none none := ⟨fun l h => (by cases h), fun l h => (by cases h)⟩
  rcases hi with rfl | rfl | rfl | rfl
  · trivial
  · exact ⟨by decide, fun _ => .inl (by decide)⟩
  · exact hsb
  · exact ⟨by decide, fun h => by cases h⟩

example : (encodeItems sampleItems Codec.new).left.map (·.bits.length) = some 75 := by decide +kernel

/-- **C26 is violated.** Whatever is in the buffer, an INTEGER without lower bound that needs 9 to 15
octets can be added to it, and is then refused by the matching decode call. -/
theorem C26_violated (ub : Option Int) (v : Int) (h : -(2 ^ 119) ≤ v ∧ v < 2 ^ 119)
    (h2 : v < -(2 ^ 63) ∨ 2 ^ 63 ≤ v) (s : Codec) (suffix : List Bool) (key : Option Int) :
    ∃ s', encodeItems [⟨.integer none ub false, v⟩] s = .ok () s' ∧
      Spec.Refuses (decodeItems [.integer none ub false] ⟨s'.bits ++ suffix, s.bits.length, key⟩) := by
  obtain ⟨s', e, t, d⟩ := C04_middle_values_violated ub v h h2 s suffix key
  refine ⟨s', ?_, t, ?_⟩
  · show (encodeInteger none ub false v false >>= fun _ => pure ()) s = _
    rw [M.bind_apply, e]; rfl
  · show (decodeInteger none ub false >>= fun v => _) _ = _
    rw [M.bind_apply, d]

example : (-(2 ^ 119) ≤ (2 ^ 63 : Int) ∧ (2 ^ 63 : Int) < 2 ^ 119) ∧ (2 ^ 63 : Int) ≤ 2 ^ 63 := by decide

/-! ## C27 -/

/-- An ideal decoder for unconstrained numbers, of any number of octets (not in the code). -/
def idealUnconstrained : M Int := do
  let n ← decodeIndefiniteLength
  let l ← takeBits (n * 8)
  pure (signExtend (n * 8) (bitsToNat l))

theorem idealUnconstrained_rt {v : Int} (hv : IsI128 v) :
    RT (encodeUnconstrained v) idealUnconstrained v := by
  rw [encodeUnconstrained_eq hv]
  obtain ⟨h1, h2, h3, -⟩ := unconstrainedBytes_spec hv
  refine .bind (.indefinite _) (.of fun p => ⟨_, .append p _, ?_⟩)
  rw [Nat.mul_comm 8]
  have h := Decodes.map (Decodes.takeBits p (natToBits (unconstrainedBytes v * 8) (toU128 v)))
    fun l => signExtend (unconstrainedBytes v * 8) (bitsToNat l)
  rw [natToBits_length, bitsToNat_natToBits, signExtend_toU128 (by omega) (by omega)
    (by rw [Nat.mul_comm]; exact h3.1) (by rw [Nat.mul_comm]; exact h3.2)] at h
  exact h

/-- An ideal decoder for integers (not in the code). -/
def idealInteger (lb ub : Option Int) (e : Bool) : M Int := do
  let _ ← decodeExtBit e
  match lb, ub with
  | none, _ => idealUnconstrained
  | some l, none => decodeSemiConstrained l
  | some l, some u => decodeConstrained l u

theorem idealInteger_rt {lb ub : Option Int} {v : Int} (hv : IsI128 v) (e x : Bool) :
    RT (encodeInteger lb ub e v x) (idealInteger lb ub e) v := by
  unfold encodeInteger idealInteger
  cases x with
  | true => exact .fail
  | false =>
    refine .bind (.extBit e) ?_
    cases lb with
    | none => exact idealUnconstrained_rt hv
    | some l =>
      cases ub with
      | none => exact .semiConstrained hv
      | some u => exact .constrained hv

/-- An ideal decoder for character strings: their octets (not in the code). -/
def idealText (lb ub : Option Int) (e : Bool) : M (List UInt8) := do
  let x ← decodeExtBit e
  let n ← decodeStringLength x lb ub
  decodeAlignIf (2 < n)
  getBytes n

theorem idealText_rt {lb ub : Option Int} (h : SizeBounds lb ub) (v : String) (e x : Bool) :
    RT (encodeString lb ub e v x) (idealText lb ub e) (utf8 v) := by
  unfold encodeString idealText
  cases x with
  | true => exact .fail
  | false =>
    exact .bind (.extBit e) (.bind (.stringLength h _) (.bind (.alignIf _) (.bytes _)))

/-- Arguments of the right Rust type, for which `C27` is claimed. -/
def Kind.Valid : (k : Kind) → k.In → Prop
  | .integer .., v | .enumerated .., v | .choiceIdx .., v => IsI128 v
  | .sequenceHeader _ n, v => HeaderOk n v
  | .bool, _ => True
  | .bitstring lb ub _, _ | .octetstring lb ub _, _ => SizeBounds lb ub
  | .visibleString lb ub _, _ | .printableString lb ub _, _ | .utf8String lb ub _, _ =>
      SizeBounds lb ub
  | .length lb ub _, _ => SizeBounds lb ub

theorem utf8_injective {a b : String} (h : utf8 a = utf8 b) : a = b := by
  have h1 := fromUtf8_utf8 a
  rw [h, fromUtf8_utf8] at h1
  exact (Option.some.inj h1).symm

theorem prefix_free {enc1 enc2 : M Unit} {dec : M α} {v1 v2 : α} (h1 : RT enc1 dec v1)
    (h2 : RT enc2 dec v2) {s s1 s2 : Codec} (e1 : enc1 s = .ok () s1) (e2 : enc2 s = .ok () s2)
    (hp : s1.bits <+: s2.bits) : v1 = v2 := by
  obtain ⟨w1, rfl, -, d1⟩ := h1 s s1 e1
  obtain ⟨w2, rfl, -, d2⟩ := h2 s s2 e2
  exact (d1.unique d2 ((List.prefix_append_right_inj _).mp hp)).1

/-- **C27.** If, in one buffer, the encoding of `v1` is a prefix of the encoding of `v2`, the values
are equal. -/
theorem C27_prefix_free (k : Kind) (v1 v2 : k.In) (h1 : k.Valid v1) (h2 : k.Valid v2) (x : Bool)
    (s s1 s2 : Codec) (e1 : k.encode v1 x s = .ok () s1) (e2 : k.encode v2 x s = .ok () s2)
    (hp : s1.bits <+: s2.bits) : v1 = v2 := by
  cases k with
  | integer lb ub e => exact prefix_free (idealInteger_rt h1 e x) (idealInteger_rt h2 e x) e1 e2 hp
  | enumerated lb ub e =>
    have hrt : ∀ v, IsI128 v → RT (encodeEnumerated lb ub e v x)
        (decodeExtBit e >>= fun _ => idealInteger lb ub false) v := by
      intro v hv
      unfold encodeEnumerated
      cases x with
      | true => exact .fail
      | false => exact .bind (.extBit e) (idealInteger_rt hv _ _)
    exact prefix_free (hrt v1 h1) (hrt v2 h2) e1 e2 hp
  | choiceIdx lb ub e =>
    exact congrArg Prod.fst (prefix_free (RT.choiceIdx h1 e x) (RT.choiceIdx h2 e x) e1 e2 hp)
  | sequenceHeader e n =>
    have a : List.length v1 = n := h1
    have b : List.length v2 = n := h2
    have r1 := RT.sequenceHeader e v1 x
    have r2 := RT.sequenceHeader e v2 x
    rw [a] at r1
    rw [b] at r2
    exact congrArg Prod.fst (prefix_free r1 r2 e1 e2 hp)
  | bool => exact prefix_free (RT.boolM v1) (RT.boolM v2) e1 e2 hp
  | bitstring lb ub e => exact prefix_free (RT.bitstring h1 v1 e x) (RT.bitstring h2 v2 e x) e1 e2 hp
  | octetstring lb ub e =>
    exact prefix_free (RT.octetstring h1 v1 e x) (RT.octetstring h2 v2 e x) e1 e2 hp
  | visibleString lb ub e =>
    exact utf8_injective (prefix_free (idealText_rt h1 v1 e x) (idealText_rt h2 v2 e x) e1 e2 hp)
  | printableString lb ub e =>
    exact utf8_injective (prefix_free (idealText_rt h1 v1 e x) (idealText_rt h2 v2 e x) e1 e2 hp)
  | utf8String lb ub e =>
    exact utf8_injective (prefix_free (idealText_rt h1 v1 e x) (idealText_rt h2 v2 e x) e1 e2 hp)
  | length lb ub ns => exact prefix_free (RT.length h1 ns v1) (RT.length h2 ns v2) e1 e2 hp

example : (Kind.utf8String none (some 9) true).Valid "ab" ∧
    (Kind.integer none none false).Valid (2 ^ 90 : Int) := by
  refine ⟨⟨fun l h => (by cases h), fun u h => (by cases h; omega)⟩, (by decide : IsI128 (2 ^ 90))⟩

/-! ## C32 -/

/-- **C32.** Octets given to `from_slice` come back from `into_bytes` and `get_inner`. -/
theorem C32_octets_in_octets_out (octets : List UInt8) :
    (Codec.fromSlice octets).intoBytes = octets ∧ (Codec.fromSlice octets).getInner = octets :=
  ⟨bitsBytes_bytesBits octets, bitsBytes_bytesBits octets⟩

/-- **C32.** `into_bytes` gives the bits, most significant first, and then only zero bits, in the
least number of octets. -/
theorem C32_into_bytes (s : Codec) :
    Spec.octetBits s.intoBytes = s.bits ++ List.replicate (8 * s.intoBytes.length - s.bits.length) false ∧
    s.intoBytes.length = (s.bits.length + 7) / 8 ∧ s.getInner = s.intoBytes := by
  have h := bytesBits_bitsBytes s.bits
  have hl := congrArg List.length h
  simp only [bytesBits_length, List.length_append, List.length_replicate] at hl
  have h2 : s.intoBytes.length = (s.bits.length + 7) / 8 := by
    unfold Codec.intoBytes padLen at *; omega
  refine ⟨?_, h2, rfl⟩
  rw [octetBits_eq]
  have : 8 * s.intoBytes.length - s.bits.length = padLen s.bits.length := by
    unfold Codec.intoBytes at *; omega
  rw [this]
  exact h

/-- **C32.** Anything that reads back from the buffer it was encoded in also reads back from the
octets of that buffer. -/
theorem C32_transport (enc : M Unit) (dec : M α) (v : α) (h : ReadsBack enc dec v) (s' : Codec)
    (he : enc Codec.new = .ok () s') :
    ∃ rest, dec (Codec.fromSlice s'.intoBytes) =
      .ok v { Codec.fromSlice s'.intoBytes with off := s'.bits.length } ∧
      (Codec.fromSlice s'.intoBytes).bits = s'.bits ++ rest ∧ ∀ b ∈ rest, b = false := by
  refine ⟨List.replicate (padLen s'.bits.length) false, ?_, bytesBits_bitsBytes s'.bits,
    fun b hb => (List.mem_replicate.mp hb).2⟩
  have h2 := (h Codec.new s' he).2 (List.replicate (padLen s'.bits.length) false) none
  have e : Codec.fromSlice s'.intoBytes =
      ⟨s'.bits ++ List.replicate (padLen s'.bits.length) false, 0, none⟩ := by
    unfold Codec.fromSlice Codec.intoBytes
    rw [bytesBits_bitsBytes]
  rw [e]
  exact h2

example : (encodeItems sampleItems Codec.new).left.map (·.intoBytes.length) = some 10 := by decide +kernel

end Hampi
