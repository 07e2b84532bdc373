import Verif.Lemmas.Keys
import Verif.Props.Derived
import Verif.Props.Streams
/-!
# Round trip value by value (C36), and keys of records (C109)

The vocabulary is in `Verif/Spec/Padding.lean` and `Verif/Spec/Keys.lean`.
-/
namespace Hampi

/-! ## C36 -/

/-- **C36 (partial).** The round trip for a single value, of a type that need not be `Framed`: the open
types in this value are followed by something that starts at an octet boundary, or their content fills
its last octet (`Ty.track`). The value is returned; the position reached is the end of the encoding
except for at most seven padding bits, and exactly the end if `track` says so. -/
theorem C36_round_trip_value_partial (t : Ty) (v : t.Val) (hv : t.Wf v) (unread : Bool)
    (ht : t.track v false = some unread) (s s' : Codec) (h : t.encode v s = .ok () s') :
    ∃ w, s' = { s with bits := s.bits ++ w } ∧
      ∀ (before after : List Bool) (key : Option Int), before.length % 8 = s.bits.length % 8 →
        t.KeysOk v key →
        ∃ off, t.decode ⟨before ++ w ++ after, before.length, key⟩ =
            .ok v ⟨before ++ w ++ after, off, t.keyAfter v key⟩ ∧
          (unread = false → off = before.length + w.length) ∧
          off ≤ before.length + w.length ∧ before.length + w.length < off + 8 ∧
          (off ≠ before.length + w.length → (before.length + w.length) % 8 = 0) ∧
          ((before.length + w.length) % 8 = 0 → ∀ k,
            decodeAlign ⟨before ++ w ++ after, off, k⟩ =
              .ok () ⟨before ++ w ++ after, before.length + w.length, k⟩) := by
  have hw := (t.encode_writer v).frame s
  obtain ⟨w, h1, h2, h3⟩ := hw.1 () s' h
  refine ⟨w, ?_, fun pre suf key hp hk => ?_⟩
  · cases s'; cases h1; cases h2; cases h3; rfl
  · obtain ⟨w', e', -, hr⟩ := Ty.rtt t v false unread key ht hv hk s s' h
    have : w' = w := by
      rw [e'] at h1
      exact List.append_cancel_left h1
    subst this
    obtain ⟨o, e, ha⟩ := hr pre suf pre.length hp (.inl rfl)
    refine ⟨o, e, ?_, ?_, ?_, ?_, fun he k => ha.align he k⟩
    · rintro rfl
      rcases ha with rfl | ⟨hf, -⟩
      · rfl
      · cases hf
    · rcases ha with rfl | ⟨-, -, h, -⟩ <;> omega
    · rcases ha with rfl | ⟨-, -, -, h, -⟩ <;> omega
    · rcases ha with rfl | ⟨-, h, -⟩
      · exact fun h => absurd rfl h
      · exact fun _ => h

/-- **C36 (partial).** The check of a type (`Ty.Framed`) implies the check of every value of it. -/
theorem C36_framed_values (t : Ty) (ht : t.Framed) (v : t.Val) (hv : t.Wf v) :
    ∃ unread, t.track v false = some unread := by
  cases hf : t.flow false with
  | none => exact absurd hf ht
  | some c =>
    obtain ⟨c', h, -⟩ := Ty.flow_track t v false c false hf hv id
    exact ⟨c', h⟩

/-- **C36 (partial).** Whatever the type: a value in which the content of every open type is a whole
number of octets comes back, and the decoder stops where the encoder did. -/
theorem C36_whole_octets_partial (t : Ty) (v : t.Val) (hv : t.Wf v) (ho : t.WholeOctets v) (s s' : Codec)
    (h : t.encode v s = .ok () s') :
    ∃ w, s' = { s with bits := s.bits ++ w } ∧
      ∀ (before after : List Bool) (key : Option Int), before.length % 8 = s.bits.length % 8 →
        t.KeysOk v key →
        t.decode ⟨before ++ w ++ after, before.length, key⟩ =
          .ok v ⟨before ++ w ++ after, before.length + w.length, t.keyAfter v key⟩ := by
  obtain ⟨w, e, hr⟩ := C36_round_trip_value_partial t v hv false (Ty.whole_track t v ho) s s' h
  refine ⟨w, e, fun pre suf key hp hk => ?_⟩
  obtain ⟨off, h1, h2, -⟩ := hr pre suf key hp hk
  rw [h2 rfl] at h1
  exact h1

/-- A record with a BOOLEAN after an open type that holds an octet string or a BOOLEAN. -/
def AfterAny : Ty :=
  .sequence false 0
    (.required true (.integer .u8 (some 0) (some 255) false)
    (.required false (.openType (.cons 1 false .boolean (.cons 2 false (.octetstring none none false) .nil)))
    (.required false .boolean .nil)))

/-- With the octet string it comes back, although the type is not `Framed`. -/
def afterOctets : AfterAny.Val :=
  show Int × (Bool ⊕ List UInt8 ⊕ Empty) × Bool × Unit from (2, .inr (.inl [7, 8]), true, ())

example : ¬ AfterAny.Framed := by decide
example : AfterAny.track afterOctets false = some false := by decide +kernel
example : AfterAny.WholeOctets afterOctets := by
  refine ⟨trivial, ⟨trivial, fun s h => ?_⟩, trivial, trivial⟩
  have : (Alts.cons 1 false .boolean (.cons 2 false (.octetstring none none false) .nil)).encode
      (.inr (.inl [7, 8])) Codec.new = .ok () ⟨bytesBits [2, 7, 8], 0, none⟩ := by rfl
  have e := this.symm.trans h
  cases e
  rfl
example : AfterAny.Wf afterOctets :=
  ⟨by unfold Fields.IndexesOk; decide, ⟨show Width.Fits .u8 2 by decide, nofun⟩,
    ⟨nofun, nofun⟩, trivial, trivial⟩
example : AfterAny.KeysOk afterOctets none :=
  ⟨trivial, ⟨⟨2, rfl, by decide, rfl⟩, trivial⟩, trivial, trivial⟩
example : (AfterAny.encode afterOctets Codec.new).left.map (·.bits.length) = some 41 := by decide +kernel

/-! ## C109 -/

/-- **C109 (partial).** Full statement: in every value a derived decoder returns, each open type holds
the alternative announced by the key component of its own record. Proved for every type in which
nothing between the key component and the open type sets another key. -/
theorem C109_key_of_record_partial (t : Ty) (ht : t.keysLocal false = true) (v : t.Val) (s s' : Codec)
    (h : t.decode s = .ok v s') : t.Announced v none :=
  (Ty.announced_iff t v false none s.key ht (fun h => nomatch h)).mpr (C42_open_types_by_key t v s s' h).1

/-- **C109 (partial).** And every value that announces its open types in its records comes back,
whatever key was left from an earlier message. -/
theorem C109_round_trip_partial (t : Ty) (ht : t.keysLocal false = true) (v : t.Val) (hv : t.Wf v)
    (ha : t.Announced v none) (unread : Bool) (hu : t.track v false = some unread) (s' : Codec)
    (h : t.encode v Codec.new = .ok () s') (after : List Bool) (key : Option Int) :
    ∃ off, t.decode ⟨s'.bits ++ after, 0, key⟩ = .ok v ⟨s'.bits ++ after, off, t.keyAfter v key⟩ ∧
      off ≤ s'.bits.length ∧ s'.bits.length < off + 8 := by
  obtain ⟨w, e, hr⟩ := C36_round_trip_value_partial t v hv unread hu Codec.new s' h
  have hk := (Ty.announced_iff t v false none key ht (fun h => nomatch h)).mp ha
  obtain ⟨off, h1, -, h2, h3, -⟩ := hr [] after key rfl hk
  have hb : s'.bits = w := by rw [e]; rfl
  rw [hb]
  exact ⟨off, h1, by simpa using h2, by simpa using h3⟩

/-- A record with a key, an open type that may hold another such record, and a second open type with
the same key: the shape of RANAP's `ProtocolIE-FieldPair`. -/
def Pair : Ty :=
  .sequence false 0
    (.required true (.integer .u8 (some 0) (some 255) false)
    (.required false (.openType (.cons 1 false
      (.sequence false 0 (.required true (.integer .u8 (some 0) (some 255) false)
        (.required false (.openType (.cons 2 false (.octetstring (some 1) (some 1) false) .nil)) .nil))) .nil))
    (.required false (.openType (.cons 1 false (.octetstring (some 1) (some 1) false) .nil)) .nil)))

def pair : Pair.Val :=
  show Int × ((Int × (List UInt8 ⊕ Empty) × Unit) ⊕ Empty) × (List UInt8 ⊕ Empty) × Unit from
    (1, .inl (2, .inl [5], ()), .inl [6], ())

/-- **C109 is violated**: the key of a nested record replaces that of the record around it. A value
that announces all its open types properly is encoded, and its encoding is refused. -/
theorem C109_nested_key_violated :
    Pair.Announced pair none ∧ ∃ s', Pair.encode pair Codec.new = .ok () s' ∧
      ∃ t, Pair.decode (Codec.fromSlice s'.intoBytes) = .err t := by
  refine ⟨⟨trivial, ⟨⟨1, rfl, rfl⟩, ⟨trivial, ⟨⟨2, rfl, rfl⟩, trivial⟩, trivial⟩⟩,
    ⟨⟨1, rfl, rfl⟩, trivial⟩, trivial⟩, ⟨bytesBits [1, 3, 2, 1, 5, 1, 6], 0, none⟩, by rfl, ?_⟩
  rw [show (⟨bytesBits [1, 3, 2, 1, 5, 1, 6], 0, none⟩ : Codec).intoBytes = [1, 3, 2, 1, 5, 1, 6] from
    (C32_octets_in_octets_out _).1]
  exact ⟨⟨bytesBits [1, 3, 2, 1, 5, 1, 6], 48, some 2⟩, by rfl⟩

example : IEs.keysLocal false = true ∧ Pair.keysLocal false = false := by decide
example : IEs.Announced ies none := by
  refine ⟨fun x hx => ?_, trivial⟩
  rcases List.mem_cons.mp hx with rfl | hx
  · exact ⟨trivial, trivial, ⟨⟨1, rfl, rfl⟩, trivial⟩, trivial⟩
  · rcases List.mem_cons.mp hx with rfl | hx
    · exact ⟨trivial, trivial, ⟨⟨2, rfl, by decide, rfl⟩, trivial⟩, trivial⟩
    · cases hx

end Hampi
