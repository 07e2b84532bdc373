import Verif.Lemmas.DeriveOk
import Verif.Props.Align
import Verif.Props.Panics
import Verif.Props.Layout
/-!
# Properties of derived codecs (C36–C49)

The types of the universe `Ty` stand for Rust types with the derive attributes of `asn1-codecs-derive`;
`Ty.encode` and `Ty.decode` are the generated methods. The vocabulary of the statements is in
`Verif.Spec.Derived`.
-/
namespace Hampi

open Spec (ReadsBack Succeeds Refuses SizeBounds Within)

/-! ## Types used in the examples

`IE` is the usual protocol information element: an identifier that selects the type of an open value;
`IEs` a list of them, as in NGAP messages. -/

def IE : Ty :=
  .sequence false 0
    (.required true (.integer .u16 (some 0) (some 65535) false)
    (.required false (.enumerated .u8 (some 0) (some 2) false)
    (.required false (.openType (.cons 1 false .boolean (.cons 2 false (.octetstring none none false) .nil)))
      .nil)))

def ie1 : IE.Val := show Int × Int × (Bool ⊕ List UInt8 ⊕ Empty) × Unit from (1, 2, .inl true, ())
def ie2 : IE.Val :=
  show Int × Int × (Bool ⊕ List UInt8 ⊕ Empty) × Unit from (2, 0, .inr (.inl [0xAB, 0xCD]), ())

def IEs : Ty := .sequence true 0 (.required false (.sequenceOf (some 0) (some 65535) false IE) .nil)
def ies : IEs.Val := show List IE.Val × Unit from ([ie1, ie2], ())

/-- A message with optional parts, a nested CHOICE and a bit string. -/
def Msg : Ty :=
  .sequence true 2
    (.required false (.integer .i16 (some (-5)) (some 300) false)
    (.optional 0 (.choice 0 2 true (.cons 0 false .null (.cons 1 false .boolean
      (.cons 2 false (.bitstring (some 3) (some 20) true) .nil))))
    (.optional 1 (.charstring .printable none none false) .nil)))

def msg : Msg.Val :=
  show Int × Option (Unit ⊕ Bool ⊕ List Bool ⊕ Empty) × Option String × Unit from
    (-3, some (.inr (.inr (.inl [true, false, true, true]))), none, ())

/-! ## C36 -/

/-- **C36 (partial).** Full statement: for every type built from the derivable kinds, if encoding a
well-formed value returns `Ok`, decoding returns that value and stops where encoding stopped.
Proved for all types, arbitrarily nested, in which every open type is followed by something that
starts at an octet boundary (`Ty.Closed`), wherever the encoding is placed and whatever follows.
Missing, because false: a field that is not aligned after an open type
(`C36_after_open_type_violated`), empty lists (`C40_empty_list_violated`), and what `Ty.Wf` leaves out
for the runtime functions (C04, C13). -/
theorem C36_round_trip_partial (t : Ty) (ht : t.Closed) (v : t.Val) (hv : t.Wf v) (s s' : Codec)
    (h : t.encode v s = .ok () s') :
    ∃ w, s' = { s with bits := s.bits ++ w } ∧
      ∀ (before after : List Bool) (key : Option Int), before.length % 8 = s.bits.length % 8 →
        t.KeysOk v key →
        t.decode ⟨before ++ w ++ after, before.length, key⟩ =
          .ok v ⟨before ++ w ++ after, before.length + w.length, t.keyAfter v key⟩ := by
  have hw := (t.encode_writer v).frame s
  obtain ⟨w, h1, h2, h3⟩ := hw.1 () s' h
  refine ⟨w, ?_, fun pre suf key hp hk => ?_⟩
  · cases s'; cases h1; cases h2; cases h3; rfl
  · obtain ⟨w', e', -, hr⟩ := Ty.rts t v false false key ht hv hk s s' h
    have : w' = w := by
      rw [e'] at h1
      exact List.append_cancel_left h1
    subst this
    obtain ⟨o, e, ha⟩ := hr pre suf pre.length hp (.inl rfl)
    rcases ha with rfl | ⟨hf, -⟩
    · exact e
    · cases hf

/-- **C36 (partial).** The same for types that may end in an open type (`Ty.Framed`): the value is
returned, and the position reached is the end of the encoding except for at most seven padding bits,
which aligning skips. -/
theorem C36_round_trip_open_end_partial (t : Ty) (ht : t.Framed) (v : t.Val) (hv : t.Wf v)
    (s s' : Codec) (h : t.encode v s = .ok () s') :
    ∃ w, s' = { s with bits := s.bits ++ w } ∧
      ∀ (before after : List Bool) (key : Option Int), before.length % 8 = s.bits.length % 8 →
        t.KeysOk v key →
        ∃ off, t.decode ⟨before ++ w ++ after, before.length, key⟩ =
            .ok v ⟨before ++ w ++ after, off, t.keyAfter v key⟩ ∧
          off ≤ before.length + w.length ∧ before.length + w.length < off + 8 ∧
          (off ≠ before.length + w.length → (before.length + w.length) % 8 = 0) ∧
          ((before.length + w.length) % 8 = 0 → ∀ k,
            decodeAlign ⟨before ++ w ++ after, off, k⟩ =
              .ok () ⟨before ++ w ++ after, before.length + w.length, k⟩) := by
  have hw := (t.encode_writer v).frame s
  obtain ⟨w, h1, h2, h3⟩ := hw.1 () s' h
  refine ⟨w, ?_, fun pre suf key hp hk => ?_⟩
  · cases s'; cases h1; cases h2; cases h3; rfl
  · cases hf : t.flow false with
    | none => exact absurd hf ht
    | some c =>
      obtain ⟨w', e', -, hr⟩ := Ty.rts t v false c key hf hv hk s s' h
      have : w' = w := by
        rw [e'] at h1
        exact List.append_cancel_left h1
      subst this
      obtain ⟨o, e, ha⟩ := hr pre suf pre.length hp (.inl rfl)
      refine ⟨o, e, ?_, ?_, ?_, fun he k => ha.align he k⟩
      · rcases ha with rfl | ⟨-, -, h, -⟩ <;> omega
      · rcases ha with rfl | ⟨-, -, -, h, -⟩ <;> omega
      · rcases ha with rfl | ⟨-, h, -⟩
        · exact fun h => absurd rfl h
        · exact fun _ => h

/-- **C36.** Every value that satisfies the constraints, within the limits of the encoder, is
accepted, whatever the buffer holds. -/
theorem C36_permitted_accepted (t : Ty) (v : t.Val) (hv : t.Permitted v) (s : Codec) :
    Succeeds (t.encode v s) := by
  obtain ⟨s', h⟩ := Ty.encode_ok t v hv s
  exact ⟨(), s', h⟩

-- The check accepts these types; `IEs` ends in an open type.
example : Msg.Closed := by decide
example : IEs.Framed ∧ ¬ IEs.Closed := by decide
example : Msg.Wf msg := by
  refine ⟨?_, ⟨show Width.Fits .i16 (-3) by decide, nofun⟩, ⟨?_, ?_, ?_⟩, trivial, trivial⟩
  · unfold Fields.IndexesOk; decide
  · exact ⟨by decide, by decide, rfl⟩
  · show IsI128 2
    unfold IsI128; decide
  · exact ⟨fun l h => by cases h; decide, fun l h => by cases h; decide⟩
example : Msg.Permitted msg := by
  refine ⟨by decide, show IntPermitted (some (-5)) (some 300) (-3) by unfold IntPermitted; decide,
    ⟨by decide, by decide, by decide, rfl, ?_⟩, trivial, trivial⟩
  exact ⟨⟨fun l h => by cases h; decide, fun l h => by cases h; decide⟩,
    ⟨fun l h => by cases h; decide, fun l h => by cases h; decide⟩, by decide⟩
example : Msg.KeysOk msg none := ⟨trivial, trivial, trivial, trivial⟩
example : IEs.KeysOk ies none :=
  ⟨⟨⟨trivial, trivial, ⟨⟨1, rfl, rfl⟩, trivial⟩, trivial⟩,
    ⟨trivial, trivial, ⟨⟨2, rfl, by decide, rfl⟩, trivial⟩, trivial⟩, trivial⟩, trivial⟩
example : IEs.Wf ies := by
  have hb : SizeBounds (some 0) (some 65535) :=
    ⟨fun l h => by cases h; decide, fun l h => by cases h; decide⟩
  refine ⟨by unfold Fields.IndexesOk; decide, ⟨nofun, ⟨hb, ?_, .inr (by decide)⟩, ?_⟩, trivial⟩
  · exact ⟨fun l h => by cases h; decide, fun l h => by cases h; decide⟩
  · intro x hx
    rcases List.mem_cons.mp hx with rfl | hx
    · exact ⟨by unfold Fields.IndexesOk; decide, ⟨show Width.Fits .u16 1 by decide, nofun⟩,
        ⟨show Width.Fits .u8 2 by decide, nofun⟩, trivial, trivial⟩
    · rcases List.mem_cons.mp hx with rfl | hx
      · exact ⟨by unfold Fields.IndexesOk; decide, ⟨show Width.Fits .u16 2 by decide, nofun⟩,
          ⟨show Width.Fits .u8 0 by decide, nofun⟩, ⟨nofun, nofun⟩, trivial⟩
      · cases hx
example : (IEs.encode ies Codec.new).left.map (·.bits.length) = some 120 := by decide +kernel

/-- A type with a BOOLEAN right after an open type. -/
def AfterOpen : Ty :=
  .sequence false 0
    (.required true (.integer .u8 (some 0) (some 255) false)
    (.required false (.openType (.cons 1 false .boolean .nil))
    (.required false .boolean .nil)))

/-- **C36 is violated**: a BOOLEAN that follows an open type is read from the padding of the open
type; `true` comes back as `false`. -/
theorem C36_after_open_type_violated :
    ∃ s', AfterOpen.encode (show Int × (Bool ⊕ Empty) × Bool × Unit from (1, .inl true, true, ()))
        Codec.new = .ok () s' ∧
      ∃ t, AfterOpen.decode ⟨s'.bits, 0, none⟩ =
        .ok (show Int × (Bool ⊕ Empty) × Bool × Unit from (1, .inl true, false, ())) t := by
  exact ⟨_, rfl, _, rfl⟩

/-! ## C37 -/

theorem Fields.presence_marked : (fs : Fields) → (v : fs.Val) → (bm : List Bool) → fs.Marked v bm →
    ∀ i b, (i, b) ∈ fs.presence v → bm[i]? = some b
  | .nil, _, _, _, i, b, h => by cases h
  | .required _ _ rest, v, bm, hm, i, b, h => Fields.presence_marked rest v.2 bm hm i b h
  | .optional j _ rest, v, bm, hm, i, b, h => by
    rcases List.mem_cons.mp h with h | h
    · cases h; exact hm.1
    · exact Fields.presence_marked rest v.2 bm hm.2 i b h

theorem Fields.mark_get : (fs : Fields) → (v : fs.Val) → (bm bm' : List Bool) →
    fs.mark v bm = some bm' → ∀ i, i < bm.length →
      bm'[i]? = some (bm[i]?.getD false || decide ((i, true) ∈ fs.presence v))
  | .nil, _, bm, bm', h, i, hi => by
    simp only [Fields.mark] at h
    cases h
    simp [Fields.presence, List.getElem?_eq_getElem hi]
  | .required _ _ rest, v, bm, bm', h, i, hi => Fields.mark_get rest v.2 bm bm' h i hi
  | .optional j _ rest, (some x, v), bm, bm', h, i, hi => by
    simp only [Fields.mark] at h
    split at h
    · have := Fields.mark_get rest v _ bm' h i (by simpa using hi)
      rw [this]
      simp only [Fields.presence, List.mem_cons, Option.isSome_some]
      by_cases hij : i = j
      · subst hij
        simp [hi]
      · have : ¬ (i, true) = (j, true) := by intro e; cases e; exact hij rfl
        rw [List.getElem?_set_ne (by omega)]
        simp [hij]
    · cases h
  | .optional j _ rest, (none, v), bm, bm', h, i, hi => by
    simp only [Fields.mark] at h
    have := Fields.mark_get rest v _ bm' h i hi
    rw [this]
    simp [Fields.presence]

/-- **C37.** In the encoding of a struct the bits of the bitmap (after the extension bit, if any, which
is 0) are 1 exactly at the indexes of optional fields that are present. -/
theorem C37_presence_bits_written (ext : Bool) (n : Nat) (fs : Fields)
    (v : (Ty.sequence ext n fs).Val) (s s' : Codec)
    (h : (Ty.sequence ext n fs).encode v s = .ok () s') :
    (ext = true → s'.bits[s.bits.length]? = some false) ∧
    ∀ i, i < n → s'.bits[s.bits.length + (if ext then 1 else 0) + i]? =
      some (decide ((i, true) ∈ fs.presence v)) := by
  obtain ⟨_, s1, h1, h2⟩ := bind_ok h
  unfold encodeHeader at h1
  obtain ⟨w, e, -, -⟩ := (fs.encode_writer v).frame s1 |>.1 () s' h2
  cases hm : fs.mark v (List.replicate n false) with
  | none => rw [hm] at h1; cases h1
  | some bm =>
    rw [hm] at h1
    have h1 := h1.symm.trans (C18_header_layout ext bm s)
    cases h1
    have hl : bm.length = n := by
      have := Fields.mark_length fs v _ bm hm
      simpa using this
    rw [e]
    refine ⟨fun hx => ?_, fun i hi => ?_⟩
    · subst hx
      simp
    · have hg := Fields.mark_get fs v _ bm hm i (by simpa using hi)
      simp only [List.getElem?_replicate, hi, if_true, Option.getD_some, Bool.false_or] at hg
      rw [← hg]
      cases ext
      · simp only [Bool.false_eq_true, if_false, Nat.add_zero, List.nil_append]
        rw [List.getElem?_append_left (by simp; omega), List.getElem?_append_right (by simp)]
        simp
      · simp only [if_true]
        rw [List.getElem?_append_left (by simp; omega),
          List.getElem?_append_right (by omega)]
        rw [List.getElem?_append_right (by simp only [List.length_cons, List.length_nil]; omega)]
        congr 1
        simp only [List.length_cons, List.length_nil]; omega

/-- **C37.** Whatever the input, a decoded optional field is present exactly when its bit in the input
is 1. -/
theorem C37_presence_bits_read (ext : Bool) (n : Nat) (fs : Fields) (v : (Ty.sequence ext n fs).Val)
    (s s' : Codec) (hoff : s.off ≤ s.bits.length)
    (h : (Ty.sequence ext n fs).decode s = .ok v s') (i : Nat) (b : Bool)
    (hi : (i, b) ∈ fs.presence v) :
    s.bits[s.off + (if ext then 1 else 0) + i]? = some b := by
  obtain ⟨r, s1, h1, h2⟩ := bind_ok h
  obtain ⟨-, -, hm⟩ := Fields.decode_keyed fs r.1 s1 v s' h2
  have hbit := Fields.presence_marked fs v r.1 hm i b hi
  unfold decodeSequenceHeader at h1
  obtain ⟨x, s2, h3, h1⟩ := bind_ok h1
  obtain ⟨bm, s3, h4, h1⟩ := bind_ok h1
  cases h1
  have e2 : s2.bits = s.bits ∧ s2.off = s.off + (if ext then 1 else 0) := by
    unfold decodeExtBit at h3
    cases ext with
    | false => cases h3; exact ⟨rfl, rfl⟩
    | true =>
      simp only [if_true] at h3 ⊢
      by_cases hlt : s.off < s.bits.length
      · have := (C19_bool_reads_one_bit s).1 hlt
        rw [show decodeBool s = decodeBoolM s from rfl, h3] at this
        cases this
        exact ⟨rfl, rfl⟩
      · have := (C19_bool_reads_one_bit s).2 (by omega)
        rw [show decodeBool s = decodeBoolM s from rfl, h3] at this
        cases this
  unfold decodeBitmap at h4
  split at h4
  · unfold getBitvec at h4
    split at h4
    · split at h4 <;> cases h4
    · obtain ⟨_, s4, -, h4⟩ := bind_ok h4
      cases h4
      simp only [List.getElem?_take] at hbit
      split at hbit
      · rw [List.getElem?_drop, e2.1, e2.2] at hbit
        exact hbit
      · cases hbit
  · cases h4
    cases hbit

example : (Msg.encode msg Codec.new).left.map (fun s => s.bits.take 3) = some [false, true, false] := by
  decide +kernel
example : ∃ fs v, Msg = .sequence true 2 fs ∧ fs.presence v = [(0, true), (1, false)] :=
  ⟨_, msg, rfl, rfl⟩

/-! ## C38 -/

/-- **C38.** If the index on the wire is that of no alternative, or the extension bit is set, the
decoder of a CHOICE returns `Err` and stops after the index. -/
theorem C38_unknown_choice_rejected (lb ub : Int) (ext : Bool) (as : Alts) (s s1 : Codec) (idx : Int)
    (extended : Bool) (h : decodeChoiceIdx lb ub ext s = .ok (idx, extended) s1)
    (hu : extended = true ∨ idx ∉ as.keys) :
    (Ty.choice lb ub ext as).decode s = .err s1 := by
  show (decodeChoiceIdx lb ub ext >>= fun r =>
    if !r.2 then as.decode r.1 else (M.fail : M as.Val)) s = .err s1
  rw [M.bind_apply, h]
  dsimp only
  cases extended with
  | true => rfl
  | false =>
    rcases hu with hu | hu
    · cases hu
    · show as.decode idx s1 = _
      rw [Alts.decode_unknown as idx hu]
      rfl

/-- **C38.** A set extension bit is never accepted. -/
theorem C38_extended_choice_rejected (lb ub : Int) (as : Alts) (s : Codec)
    (hbit : s.bits[s.off]? = some true) : ¬ Succeeds ((Ty.choice lb ub true as).decode s) := by
  rintro ⟨v, s', h⟩
  obtain ⟨r, s1, h1, h2⟩ := bind_ok h
  have hlt : s.off < s.bits.length := by
    rcases Nat.lt_or_ge s.off s.bits.length with h | h
    · exact h
    · rw [List.getElem?_eq_none h] at hbit; cases hbit
  have hr : r.2 = true := by
    unfold decodeChoiceIdx at h1
    simp only [if_true] at h1
    obtain ⟨x, s2, h3, h1⟩ := bind_ok h1
    have := (C19_bool_reads_one_bit s).1 hlt
    rw [show decodeBool s = decodeBoolM s from rfl, h3] at this
    have hx : x = true := by
      have e : x = s.bits[s.off] := by cases this; rfl
      rw [e]
      rw [List.getElem?_eq_getElem hlt] at hbit
      exact Option.some.inj hbit
    subst hx
    simp only [Bool.not_true, Bool.false_eq_true, if_false] at h1
    obtain ⟨y, s3, -, h1⟩ := bind_ok h1
    cases h1
    rfl
  have h2 : (if (!r.2) = true then as.decode r.1 else (M.fail : M as.Val)) s1 = .ok v s' := h2
  rw [hr] at h2
  cases h2

/-- **C38.** Whatever the input, the alternative returned is the first one declared with the index
read. -/
theorem C38_choice_by_index (lb ub : Int) (ext : Bool) (as : Alts) (s s' : Codec) (v : as.Val)
    (h : (Ty.choice lb ub ext as).decode s = .ok v s') :
    ∃ s1, decodeChoiceIdx lb ub ext s = .ok (as.keyOf v, false) s1 ∧ as.Selects (as.keyOf v) v := by
  obtain ⟨r, s1, h1, h2⟩ := bind_ok h
  have h2 : (if (!r.2) = true then as.decode r.1 else (M.fail : M as.Val)) s1 = .ok v s' := h2
  obtain ⟨i, x⟩ := r
  cases x with
  | true => cases h2
  | false =>
    obtain ⟨-, -, hs⟩ := Alts.decode_keyed as i s1 v s' h2
    have := Alts.Selects.keyOf as i v hs
    subst this
    exact ⟨s1, h1, hs⟩

/-- CHOICE { a NULL, b BOOLEAN, c INTEGER (0..7), ..., d BOOLEAN }: three root alternatives, two
bits of index. -/
def Ch : Alts :=
  .cons 0 false .null (.cons 1 false .boolean (.cons 2 false (.integer .u8 (some 0) (some 7) false)
    (.cons 3 true .boolean .nil)))

example : (Ty.choice 0 2 false (.cons 0 false .null (.cons 1 false .boolean .nil))).decode
    ⟨[true, false, true], 0, none⟩ = .err ⟨[true, false, true], 2, none⟩ := by rfl
example : decodeChoiceIdx 0 2 false ⟨[true, true, true], 0, none⟩ =
    .ok (3, false) ⟨[true, true, true], 2, none⟩ := by rfl

/-! ## C39 -/

/-- **C39 is violated**: with three root alternatives the index has two bits, and the unused fourth
value selects the first alternative after the extension marker although the extension bit is 0. -/
theorem C39_root_index_selects_extension_violated :
    ∃ v s', (Ty.choice 0 2 true Ch).decode ⟨[false, true, true, true], 0, none⟩ = .ok v s' ∧
      Ch.extendedOf v = true :=
  ⟨.inr (.inr (.inr (.inl true))), _, rfl, rfl⟩

/-- The alternatives after the extension marker have keys above `n`. -/
def Alts.ExtensionsAbove (n : Int) : Alts → Prop
  | .nil => True
  | .cons k x _ rest => (x = true → n < k) ∧ rest.ExtensionsAbove n

theorem Alts.ExtensionsAbove.key : (as : Alts) → {n : Int} → as.ExtensionsAbove n → (v : as.Val) →
    as.extendedOf v = true → n < as.keyOf v
  | .cons _ _ _ _, _, h, .inl _, hx => h.1 hx
  | .cons _ _ _ rest, _, h, .inr v, hx => Alts.ExtensionsAbove.key rest h.2 v hx

/-- **C39 (partial).** Full statement: no input whose extension bit is 0 decodes to an alternative
declared after the extension marker. Proved when the number of root alternatives is one of those that
fill the index field (a power of two up to 256, or 65536; `FullRange`). Missing: all other numbers,
for which it is false. -/
theorem C39_root_index_selects_root_partial (lb ub : Int) (as : Alts) (hx : as.ExtensionsAbove ub)
    (hfull : FullRange (ub - lb + 1)) (ext : Bool) (s s' : Codec) (v : as.Val)
    (h : (Ty.choice lb ub ext as).decode s = .ok v s') : as.extendedOf v = false := by
  obtain ⟨s1, h1, hs⟩ := C38_choice_by_index lb ub ext as s s' v h
  suffices h2 : as.keyOf v ≤ ub by
    cases he : as.extendedOf v with
    | false => rfl
    | true =>
      have := Alts.ExtensionsAbove.key as hx v he
      omega
  unfold decodeChoiceIdx at h1
  cases ext with
  | false =>
    simp only [Bool.false_eq_true, if_false] at h1
    obtain ⟨r, s2, h2, h3⟩ := bind_ok h1
    have e : r.1 = as.keyOf v := by injection h3 with h3; exact congrArg Prod.fst h3
    exact e ▸ (C06_decoded_in_bounds_partial lb ub _ s s2 r.2 hfull h2).2
  | true =>
    simp only [if_true] at h1
    obtain ⟨x, s2, h2, h1⟩ := bind_ok h1
    cases x with
    | true =>
      simp only [Bool.not_true, Bool.false_eq_true, if_false] at h1
      obtain ⟨r, s3, h3, h4⟩ := bind_ok h1
      cases h4
    | false =>
      simp only [Bool.not_false, if_true] at h1
      obtain ⟨r, s3, h3, h4⟩ := bind_ok h1
      have e : r.1 = as.keyOf v := by injection h4 with h4; exact congrArg Prod.fst h4
      exact e ▸ (C06_decoded_in_bounds_partial lb ub _ s2 s3 r.2 hfull h3).2

/-- **C39 is violated** by every extensible CHOICE whose number of root alternatives does not fill the index field: some bits that
begin with the extension bit 0 are read as the first alternative after the extension marker (`v` is a value of it that can be read
at all). -/
theorem C39_root_index_selects_extension_general_violated (lb ub : Int) (as : Alts) (hub : IsI128 (ub + 1)) (hle : lb ≤ ub)
    (hspan : ub - lb + 1 < 2 ^ 127) (hfull : ¬ FullRange (ub - lb + 1)) (v : as.Val)
    (hv : ∀ before : List Bool, ∃ w s', as.decode (ub + 1) ⟨before ++ w, before.length, none⟩ = .ok v s') :
    ∃ w s', (Ty.choice lb ub true as).decode ⟨false :: w, 0, none⟩ = .ok v s' := by
  obtain ⟨wi, hi⟩ := decodes_above lb ub hub hle hspan hfull 1
  obtain ⟨wc, s', hc⟩ := hv (false :: wi)
  refine ⟨wi ++ wc, s', ?_⟩
  have h1 : Decodes (decodeChoiceIdx lb ub true) 0 (false :: wi) (ub + 1, false) :=
    Decodes.bind (w := [false]) (g := fun extended => if !extended then
        decodeInteger (some lb) (some ub) false >>= fun r => pure (r.1, extended)
      else decodeNormallySmallNonNegative >>= fun idx => pure (idx, extended)) (.boolM _ false)
      (Decodes.map (Decodes.map hi fun v => (v, false)) fun r => (r.1, false))
  have h := h1 [] wc none rfl
  show (decodeChoiceIdx lb ub true >>= fun r =>
    if !r.2 then as.decode r.1 else (M.fail : M as.Val)) _ = _
  rw [M.bind_apply]
  simp only [List.nil_append, List.length_nil, Nat.zero_add] at h
  rw [← List.cons_append, h]
  exact hc

/-- **C39**, exactly. When the first alternative after the extension marker has the next index and can be read at all, an extension bit
of 0 leads to root alternatives only if and only if the root alternatives fill the index field. -/
theorem C39_root_only_iff (lb ub : Int) (as : Alts) (hx : as.ExtensionsAbove ub) (hub : IsI128 (ub + 1)) (hle : lb ≤ ub)
    (hspan : ub - lb + 1 < 2 ^ 127) (v : as.Val) (hvx : as.extendedOf v = true)
    (hv : ∀ before : List Bool, ∃ w s', as.decode (ub + 1) ⟨before ++ w, before.length, none⟩ = .ok v s') :
    (∀ s s' v, (Ty.choice lb ub true as).decode s = .ok v s' → as.extendedOf v = false) ↔ FullRange (ub - lb + 1) := by
  refine ⟨fun h => ?_, fun hf s s' v h => C39_root_index_selects_root_partial lb ub as hx hf true s s' v h⟩
  by_cases hf : FullRange (ub - lb + 1)
  · exact hf
  · obtain ⟨w, s', hw⟩ := C39_root_index_selects_extension_general_violated lb ub as hub hle hspan hf v hv
    rw [h _ _ _ hw] at hvx
    cases hvx

example : Ch.ExtensionsAbove 2 ∧ ¬ FullRange (2 - 0 + 1) := by
  refine ⟨⟨nofun, nofun, nofun, fun _ => by decide, trivial⟩, ?_⟩
  rintro (⟨b, hb, h⟩ | h)
  · have : ∀ b : Fin 9, (2 : Int) - 0 + 1 ≠ 2 ^ b.val := by decide
    exact this ⟨b, by omega⟩ h
  · omega
-- The fourth alternative of `Ch`, a BOOLEAN, can be read anywhere.
example (before : List Bool) : ∃ w s', Ch.decode (2 + 1) ⟨before ++ w, before.length, none⟩ =
    .ok (.inr (.inr (.inr (.inl true)))) s' := by
  have h := Decodes.boolM before.length true before [] none rfl
  rw [List.append_nil] at h
  refine ⟨[true], ⟨before ++ [true], before.length + 1, none⟩, ?_⟩
  show (M.bind (M.bind (M.bind (M.bind decodeBoolM _) _) _) _) _ = _
  simp only [M.bind, h]
  rfl
example : FullRange (3 - 0 + 1) := .inl ⟨2, by decide, by decide⟩

/-! ## C40 -/

/-- **C40 (partial).** Full statement: a SEQUENCE OF of permitted length that is encoded is read back.
Proved for every element type that passes the check of C36 and every non-empty list whose length is
expressible. Missing: the empty list, for which it is false (`C40_empty_list_violated`). -/
theorem C40_sequence_of_round_trip_partial (lb ub : Option Int) (ext : Bool) (elem : Ty)
    (he : elem.Closed) (l : List elem.Val) (hne : l ≠ [])
    (hlen : if ext then l.length < 16384 else SizeOk lb ub l.length) (hwf : ∀ x ∈ l, elem.Wf x)
    (s s' : Codec) (h : (Ty.sequenceOf lb ub ext elem).encode l s = .ok () s') :
    ∃ w, s' = { s with bits := s.bits ++ w } ∧
      ∀ (before after : List Bool) (key : Option Int), before.length % 8 = s.bits.length % 8 →
        keysOkAll elem.KeysOk elem.keyAfter l key →
        (Ty.sequenceOf lb ub ext elem).decode ⟨before ++ w ++ after, before.length, key⟩ =
          .ok l ⟨before ++ w ++ after, before.length + w.length,
            keyAfterAll elem.keyAfter l key⟩ := by
  have hc : (Ty.sequenceOf lb ub ext elem).Closed := by
    unfold Ty.Closed at *
    simp only [Ty.flow, flowLeaf, Bool.false_and, Bool.false_eq_true, if_false, flowMany, he,
      Bool.not_false, Bool.or_true, if_true]
  exact C36_round_trip_partial _ hc l ⟨hne, hlen, hwf⟩ s s' h

example : (Ty.sequenceOf (some 1) (some 3) false .boolean).encode
    (show List Bool from [true, false]) Codec.new = .ok () ⟨[false, true, true, false], 0, none⟩ := by
  decide

/-- **C40 is violated**: for every element type and bounds that permit it, the empty list is encoded
and the decoder never returns `Ok` on the result, whatever follows. -/
theorem C40_empty_list_violated (lb ub : Option Int) (elem : Ty) (h0 : SizeOk lb ub 0) (s : Codec) :
    ∃ s', (Ty.sequenceOf lb ub false elem).encode (show List elem.Val from []) s = .ok () s' ∧
      ∀ (suffix : List Bool) (key : Option Int),
        ¬ Succeeds ((Ty.sequenceOf lb ub false elem).decode ⟨s'.bits ++ suffix, s.bits.length, key⟩) := by
  obtain ⟨s', h⟩ := encodeLength_sizeOk h0 s
  refine ⟨s', ?_, fun suf key => ?_⟩
  · show (M.ignoreErr (encodeLength lb ub false 0) >>= fun _ => (Pure.pure () : M Unit)) s = _
    rw [M.bind_apply]
    unfold M.ignoreErr
    rw [h]
    rfl
  · rintro ⟨v, t, hd⟩
    obtain ⟨n, s1, h1, h2⟩ := bind_ok hd
    have := (C09_length_round_trip lb ub h0.1 false 0 s s' h).2 suf key
    rw [this] at h1
    cases h1
    exact (decodeLoop_ok h2).1 rfl

example : SizeOk (some 0) (some 65535) 0 :=
  ⟨⟨fun l h => by cases h; decide, fun l h => by cases h; decide⟩,
    ⟨fun l h => by cases h; decide, fun l h => by cases h; decide⟩, .inr (by decide)⟩

/-- Whatever the input, a decoded list has as many elements as the length on the wire says, and is not
empty. -/
theorem C40_decoded_length (lb ub : Option Int) (ext : Bool) (elem : Ty) (s s' : Codec)
    (l : List elem.Val) (h : (Ty.sequenceOf lb ub ext elem).decode s = .ok l s') :
    l ≠ [] ∧ ∃ s1, decodeLength lb ub ext s = .ok l.length s1 := by
  obtain ⟨n, s1, h1, h2⟩ := bind_ok h
  obtain ⟨h3, h4⟩ := decodeLoop_ok h2
  have h5 : List.length l = n := decodeTimes_length n s1 l s' h4
  subst h5
  exact ⟨fun e => h3 (by rw [e]; rfl), s1, h1⟩

/-! ## C41 -/

/-- **C41 is violated**, for every element type: with bounds below 64K a list of forbidden length is
encoded, and what is written is the elements without any length. -/
theorem C41_size_not_enforced_violated (lb : Option Int) (ub : Int) (hb : SizeBounds lb (some ub))
    (hu : ub < 65536) (elem : Ty) (l : List elem.Val) (hout : ¬ Within lb (some ub) l.length)
    (s : Codec) :
    (Ty.sequenceOf lb (some ub) false elem).encode l s = encodeAll elem.encode l s := by
  have hf := (encodeLength_constrained hb l.length hu s.bits.length).2 hout s rfl
  show (M.ignoreErr (encodeLength lb (some ub) false l.length) >>= fun _ => encodeAll elem.encode l) s = _
  rw [M.bind_apply]
  unfold M.ignoreErr
  rw [hf]
  simp

/-- **C41 is violated** for all size bounds, without or with an upper one: a list of forbidden length is written as
its elements alone. -/
theorem C41_never_enforced_violated (lb ub : Option Int) (hb : SizeBounds lb ub) (elem : Ty) (l : List elem.Val)
    (hout : ¬ Within lb ub l.length) (s : Codec) :
    (Ty.sequenceOf lb ub false elem).encode l s = encodeAll elem.encode l s := by
  have hind : (if ub.any (fun u => decide (l.length > asUsize u)) then (M.fail : M Unit)
        else if lb.any (fun l' => decide (l.length < asUsize l')) then M.fail
        else encodeIndefiniteLength l.length) = M.fail := by
    have conv : ∀ n : Int, 0 ≤ n ∧ n < 2 ^ 64 → ((asUsize n : Nat) : Int) = n := by
      intro n hn; unfold asUsize; omega
    by_cases hu : ub.any (fun u => decide (l.length > asUsize u)) = true
    · rw [if_pos hu]
    · rw [if_neg hu]
      by_cases hl : lb.any (fun l' => decide (l.length < asUsize l')) = true
      · rw [if_pos hl]
      · refine absurd ⟨?_, ?_⟩ hout
        · intro m e
          subst e
          have := conv m (hb.1 m rfl)
          simp only [Option.any_some, decide_eq_true_eq] at hl
          omega
        · intro m e
          subst e
          have := conv m (hb.2 m rfl)
          simp only [Option.any_some, decide_eq_true_eq] at hu
          omega
  have hf : encodeLength lb ub false l.length s = .err s := by
    cases ub with
    | none =>
      show (if (none : Option Int).any (fun u => decide (l.length > asUsize u)) then (M.fail : M Unit)
        else if lb.any (fun l' => decide (l.length < asUsize l')) then M.fail
        else encodeIndefiniteLength l.length) s = _
      rw [hind]
      rfl
    | some u =>
      by_cases hu : u < 65536
      · have := (encodeLength_constrained hb l.length hu s.bits.length).2 hout s rfl
        simpa using this
      · show (if u < 65536 then encodeConstrained (lb.getD 0) u l.length else
          if (some u).any (fun u => decide (l.length > asUsize u)) then (M.fail : M Unit)
          else if lb.any (fun l' => decide (l.length < asUsize l')) then M.fail
          else encodeIndefiniteLength l.length) s = _
        rw [if_neg hu, hind]
        rfl
  show (M.ignoreErr (encodeLength lb ub false l.length) >>= fun _ => encodeAll elem.encode l) s = _
  rw [M.bind_apply]
  unfold M.ignoreErr
  rw [hf]

/-- **C41 is violated** by extensible sizes too: their bounds make no difference to the encoder. -/
theorem C41_extensible_not_enforced_violated (lb ub : Option Int) (elem : Ty) (l : List elem.Val) (s : Codec) :
    (Ty.sequenceOf lb ub true elem).encode l s = (Ty.sequenceOf none none true elem).encode l s := rfl

/-- Three booleans where at most two are allowed: encoded, and read back as one. -/
example : (Ty.sequenceOf (some 0) (some 2) false .boolean).encode
    (show List Bool from [false, true, true]) Codec.new = .ok () ⟨[false, true, true], 0, none⟩ ∧
  (Ty.sequenceOf (some 0) (some 2) false .boolean).decode ⟨[false, true, true], 0, none⟩ =
    .ok (show List Bool from [true]) ⟨[false, true, true], 3, none⟩ := ⟨rfl, rfl⟩

/-! ## C42 -/

/-- **C42.** Whatever the input, each open type in a decoded value holds the first alternative whose
key is the value of the last key field decoded before it (or the key given at the start), and the key
left behind is that of the last key field. -/
theorem C42_open_types_by_key (t : Ty) (v : t.Val) (s s' : Codec) (h : t.decode s = .ok v s') :
    t.KeysOk v s.key ∧ s'.key = t.keyAfter v s.key := Ty.decode_keyed t s v s' h

/-- **C42.** An open type decodes to the first alternative with the key in force. -/
theorem C42_open_type_selects (as : Alts) (v : as.Val) (s s' : Codec)
    (h : (Ty.openType as).decode s = .ok v s') : ∃ k, s.key = some k ∧ as.keyOf v = k ∧ as.Selects k v := by
  obtain ⟨⟨k, h1, h2⟩, -⟩ := (Ty.decode_keyed (.openType as) s v s' h).1
  exact ⟨k, h1, Alts.Selects.keyOf as k v h2, h2⟩

/-- **C42.** Without a key, or with a key that no alternative has, an open type is refused (once its
length has been read). -/
theorem C42_open_type_unknown_key (as : Alts) (s s1 : Codec) (n : Nat)
    (hl : decodeLength none none false s = .ok n s1)
    (hk : s.key = none ∨ ∃ k, s.key = some k ∧ k ∉ as.keys) :
    (Ty.openType as).decode s = .err s1 := by
  have hkey := (IsDec.length none none false).key_eq hl
  show (decodeLength none none false >>= fun _ => requireKey >>= fun k => as.decode k) s = _
  rw [M.bind_apply, hl]
  dsimp only
  rw [M.bind_apply]
  unfold requireKey
  rw [hkey]
  rcases hk with hk | ⟨k, hk, hu⟩
  · rw [hk]; rfl
  · rw [hk]
    dsimp only
    rw [Alts.decode_unknown as k hu]
    rfl

/-- An information element: the identifier chooses the alternative. -/
theorem C42_information_element (as : Alts) (w : Width) (lb ub : Option Int) (ext : Bool)
    (k : Int) (v : as.Val) (s s' : Codec)
    (h : (Ty.sequence false 0 (.required true (.integer w lb ub ext)
      (.required false (.openType as) .nil))).decode s =
        .ok (show Int × as.Val × Unit from (k, v, ())) s') :
    as.keyOf v = k ∧ s'.key = as.keyAfter v (some k) := by
  obtain ⟨⟨-, ⟨⟨k', h1, h2⟩, -⟩, -⟩, h4⟩ := C42_open_types_by_key _ _ _ _ h
  have e : k' = k := (Option.some.inj h1).symm
  subst e
  exact ⟨Alts.Selects.keyOf as k' v h2, h4⟩

example : decodeLength none none false (⟨[false, false, false, false, false, false, false, true, true],
    0, some 9⟩ : Codec) = .ok 1 ⟨[false, false, false, false, false, false, false, true, true],
    8, some 9⟩ := by decide
example : (AfterOpen.decode (Codec.fromSlice [1, 1, 0x80])).left.map (·.key) = some (some 1) := by
  decide +kernel

/-! ## C43 -/

/-- **C43 is violated**, for every open type: whatever is accepted with one length is accepted with
every other length below 128, with the same value and the same position. -/
theorem C43_length_ignored_violated (as : Alts) (n m : Nat) (hn : n < 128) (hm : m < 128)
    (rest : List Bool) (key : Option Int) (v : as.Val) (s' : Codec)
    (h : (Ty.openType as).decode ⟨natToBits 8 n ++ rest, 0, key⟩ = .ok v s') :
    (Ty.openType as).decode ⟨natToBits 8 m ++ rest, 0, key⟩ =
      .ok v ⟨natToBits 8 m ++ rest, s'.off, s'.key⟩ := by
  have hl : ∀ j, j < 128 → decodeLength none none false ⟨natToBits 8 j ++ rest, 0, key⟩ =
      .ok j ⟨natToBits 8 j ++ rest, 8, key⟩ := by
    intro j hj
    have hd := decodeIndefinite_decodes (n := j) (by omega) 0 [] rest key rfl
    have hw : indefWord 0 j = natToBits 8 j := by
      unfold indefWord
      rw [if_pos hj, pad_zero rfl]
      simp only [natToBits]
      rw [Nat.testBit_lt_two_pow (i := 7) (by omega)]
      rfl
    rw [hw] at hd
    have e : decodeLength none none false = decodeIndefiniteLength := rfl
    rw [e]
    simpa using hd
  obtain ⟨j, s1, h1, h2⟩ := bind_ok h
  rw [hl n hn] at h1
  cases h1
  show (decodeLength none none false >>= fun _ => requireKey >>= fun k => as.decode k) _ = _
  rw [M.bind_apply, hl m hm]
  dsimp only
  obtain ⟨k, s2, h3, h4⟩ := bind_ok h2
  obtain ⟨hk, rfl⟩ := requireKey_ok h3
  have hk : key = some k := hk
  subst hk
  show as.decode k _ = _
  have := (as.decode_reader k).shift (natToBits 8 n) (natToBits 8 m) rest 0 (some k)
    (by simp)
  simp only [natToBits_length, Nat.add_zero] at this
  rw [this, h4]
  simp only [Res.shift, natToBits_length]
  have hf := (as.decode_reader k).frame ⟨natToBits 8 n ++ rest, 8, some k⟩
  rw [h4] at hf
  have : 8 ≤ s'.off := hf.2.1
  rw [show s'.off - 8 + 8 = s'.off by omega]
  rfl

/-- One octet is announced; after the one bit of content the position is inside that octet; with five
octets announced it is the same. -/
example : (Ty.openType (.cons 1 false .boolean .nil)).decode
    ⟨natToBits 8 1 ++ natToBits 8 0x80, 0, some 1⟩ =
    .ok (show Bool ⊕ Empty from .inl true) ⟨natToBits 8 1 ++ natToBits 8 0x80, 9, some 1⟩ := rfl

/-- **C43 (partial).** Full statement: after decoding an open type the position is right after the
octets announced by its length. What holds: for encodings written by this library, the position is
less than one octet before the end, at the first padding bit, and aligning moves exactly to the
end. Missing: all inputs in which the length does not match the content, where it is false. -/
theorem C43_position_after_open_type_partial (as : Alts) (ht : as.flow false ≠ none) (v : as.Val)
    (hv : as.Wf v) (s s' : Codec) (h : (Ty.openType as).encode v s = .ok () s') (after : List Bool)
    (key : Option Int) (hk : (Ty.openType as).KeysOk v key) :
    ∃ off k', (Ty.openType as).decode ⟨s'.bits ++ after, s.bits.length, key⟩ =
        .ok v ⟨s'.bits ++ after, off, k'⟩ ∧ off ≤ s'.bits.length ∧ s'.bits.length < off + 8 ∧
      s'.bits.length % 8 = 0 ∧
      decodeAlign ⟨s'.bits ++ after, off, k'⟩ = .ok () ⟨s'.bits ++ after, s'.bits.length, k'⟩ := by
  have hf : (Ty.openType as).Framed := by
    unfold Ty.Framed
    simp only [Ty.flow]
    cases h : as.flow false with
    | none => exact absurd h ht
    | some c => simp
  have hend : s'.bits.length % 8 = 0 := by
    have h : encodeOpen (as.encode v) s = .ok () s' := h
    unfold encodeOpen at h
    cases hr : as.encode v Codec.new with
    | err t => rw [hr] at h; cases h
    | panic => rw [hr] at h; cases h
    | ok u t =>
      rw [hr] at h
      dsimp only at h
      cases hl : lengthInBytes t with
      | err _ => rw [hl] at h; cases h
      | panic => rw [hl] at h; cases h
      | ok n t2 =>
        rw [hl] at h
        obtain ⟨_, s1, h1, h2⟩ := bind_ok h
        unfold appendAligned at h2
        rw [Writes.align t2.bits.length t2 rfl, M.bind_apply, Writes.align s1.bits.length s1 rfl] at h2
        dsimp only at h2
        cases h2
        simp only [List.length_append, pad_length]
        have := padLen_add s1.bits.length
        have := padLen_add t2.bits.length
        omega
  obtain ⟨w, rfl, hd⟩ := C36_round_trip_open_end_partial _ hf v hv s s' h
  obtain ⟨off, h1, h2, h3, -, h5⟩ := hd s.bits after key rfl hk
  simp only [List.length_append] at hend ⊢
  exact ⟨off, _, h1, h2, h3, hend, h5 hend _⟩

example : ∃ s', (Ty.openType (.cons 1 false .boolean .nil)).encode (show Bool ⊕ Empty from .inl true)
    ⟨[true], 0, none⟩ = .ok () s' ∧ s'.bits.length = 24 := ⟨_, rfl, rfl⟩

/-! ## C44 -/

/-- **C44.** A derived encoder only appends, whatever it returns. -/
theorem C44_encode_only_appends (t : Ty) (v : t.Val) (s s' : Codec)
    (h : (t.encode v s).left = some s') : s.bits <+: s'.bits ∧ s'.off = s.off ∧ s'.key = s.key := by
  have hf := (t.encode_writer v).frame s
  cases hr : t.encode v s with
  | ok a u =>
    rw [hr] at h; cases h
    obtain ⟨w, h1, h2, h3⟩ := hf.1 a _ hr
    exact ⟨⟨w, h1.symm⟩, h2, h3⟩
  | err u =>
    rw [hr] at h; cases h
    obtain ⟨w, h1, h2, h3⟩ := hf.2 _ hr
    exact ⟨⟨w, h1.symm⟩, h2, h3⟩
  | panic => rw [hr] at h; cases h

/-- **C44.** A derived decoder leaves the buffer alone and moves forward within it, whatever it
returns. -/
theorem C44_decode_frame (t : Ty) (s s' : Codec) (h : (t.decode s).left = some s') :
    s'.bits = s.bits ∧ s.off ≤ s'.off ∧ (s.off ≤ s.bits.length → s'.off ≤ s.bits.length) := by
  have hf := t.decode_reader.frame s
  cases hr : t.decode s with
  | ok a u => rw [hr] at h hf; cases h; exact hf
  | err u => rw [hr] at h hf; cases h; exact hf
  | panic => rw [hr] at h; cases h

example : (IE.encode (show Int × Int × (Bool ⊕ List UInt8 ⊕ Empty) × Unit from (1, 7, .inl true, ()))
    ⟨[true], 0, some 4⟩).left.map (fun s => (s.bits.length, s.off, s.key)) = some (24, 0, some 4) := by
  decide +kernel
example : (IE.decode (Codec.fromSlice [0, 1, 0x40])).left.map (fun s => (s.bits.length, s.off, s.key)) =
    some (24, 24, some 1) := by decide +kernel

/-! ## C45 -/

/-- **C45.** If a derived decoder returns `Ok` it returns the same whatever bits are appended. -/
theorem C45_suffix_independent (t : Ty) (v : t.Val) (bits : List Bool) (off : Nat) (key : Option Int)
    (s' : Codec) (h : t.decode ⟨bits, off, key⟩ = .ok v s') (suffix : List Bool) :
    t.decode ⟨bits ++ suffix, off, key⟩ = .ok v ⟨bits ++ suffix, s'.off, s'.key⟩ :=
  t.decode_reader.local_ _ _ _ _ _ h suffix

/-- **C45.** If a derived decoder consumes bits up to a position, the input cut before that position is
not accepted. -/
theorem C45_truncated_rejected (t : Ty) (v : t.Val) (bits : List Bool) (off : Nat) (key : Option Int)
    (s' : Codec) (h : t.decode ⟨bits, off, key⟩ = .ok v s') (cut : Nat) (hoff : off ≤ cut)
    (hcut : cut < s'.off) (hpos : off ≤ bits.length) :
    ¬ Succeeds (t.decode ⟨bits.take cut, off, key⟩) := by
  rintro ⟨w, u, ht⟩
  have h1 := t.decode_reader.local_ _ _ _ _ _ ht (bits.drop cut)
  rw [List.take_append_drop, h] at h1
  have hf := t.decode_reader.frame ⟨bits.take cut, off, key⟩
  rw [ht] at hf
  have hf0 := t.decode_reader.frame ⟨bits, off, key⟩
  rw [h] at hf0
  obtain ⟨-, -, h3⟩ := hf
  obtain ⟨-, -, h4⟩ := hf0
  have e : s'.off = u.off := by injection h1 with h1 h2; rw [h2]
  have h4 := h4 hpos
  simp only [List.length_take] at h3 h4
  have := h3 (by omega)
  omega

example : ∃ v s', AfterOpen.decode (Codec.fromSlice [1, 1, 0xC0, 7]) = .ok v s' ∧ s'.off = 18 :=
  ⟨show Int × (Bool ⊕ Empty) × Bool × Unit from (1, .inl true, true, ()), _, rfl, rfl⟩

/-! ## C46 -/

/-- **C46 is violated**: an ENUMERATED returns the same for root value 1 and for extension value 1. -/
theorem C46_extension_value_confused_violated :
    (Ty.enumerated .u8 (some 0) (some 1) true).decode ⟨[false, true], 0, none⟩ =
      .ok (show Int from 1) ⟨[false, true], 2, none⟩ ∧
    (Ty.enumerated .u8 (some 0) (some 1) true).decode
      ⟨[true, false, false, false, false, false, false, true], 0, none⟩ =
      .ok (show Int from 1) ⟨[true, false, false, false, false, false, false, true], 8, none⟩ :=
  ⟨rfl, rfl⟩

/-- **C46 is violated**, in general: the value returned is that of the number read, whether the
extension bit is set or not. -/
theorem C46_extension_flag_dropped_violated (w : Width) (lb ub : Option Int) (s s' : Codec) (n : Int)
    (extended : Bool) (h : decodeEnumerated lb ub true s = .ok (n, extended) s') :
    (Ty.enumerated w lb ub true).decode s = .ok (show Int from w.cast n) s' := by
  show (decodeEnumerated lb ub true >>= fun d => (Pure.pure (w.cast d.1) : M Int)) s = _
  rw [M.bind_apply, h]
  rfl

/-- **C46 is violated** by every root value below 64 of every extensible ENUMERATED: the message for extension
value `k` is decoded as the message for root value `k` is. -/
theorem C46_every_root_value_violated (w : Width) (lb ub : Int) (k : Nat) (hk : k < 64) (hw : w.Fits k)
    (s s' : Codec) (h : (Ty.enumerated w (some lb) (some ub) true).encode (show Int from k) s = .ok () s') (key : Option Int) :
    (Ty.enumerated w (some lb) (some ub) true).decode ⟨s'.bits, s.bits.length, key⟩ =
        .ok (show Int from k) ⟨s'.bits, s'.bits.length, key⟩ ∧
      (Ty.enumerated w (some lb) (some ub) true).decode ⟨[true, false] ++ natToBits 6 k, 0, key⟩ =
        .ok (show Int from k) ⟨[true, false] ++ natToBits 6 k, 8, key⟩ := by
  have hc : w.cast (k : Int) = k := Width.cast_of_fits hw
  constructor
  · obtain ⟨w', e, -, hd⟩ := RT.enumerated (lb := some lb) (ub := some ub) (v := k) ⟨by omega, by omega⟩
      (fun h => by cases h) true false s s' h
    have := hd s.bits [] key rfl
    subst e
    rw [List.append_nil] at this
    show (decodeEnumerated (some lb) (some ub) true >>= fun d => (Pure.pure (w.cast d.1) : M Int)) _ = _
    rw [M.bind_apply, this]
    show Res.ok (w.cast (k : Int)) _ = _
    rw [hc, List.length_append]
    rfl
  · have h2 : decodeEnumerated (some lb) (some ub) true ⟨[true, false] ++ natToBits 6 k, 0, key⟩ =
        .ok ((k : Int), true) ⟨[true, false] ++ natToBits 6 k, 8, key⟩ := by
      have e : decodeEnumerated (some lb) (some ub) true ⟨[true, false] ++ natToBits 6 k, 0, key⟩ =
          (decodeBitsAsInteger 6 false >>= fun v => (Pure.pure (v, true) : M (Int × Bool)))
            ⟨[true, false] ++ natToBits 6 k, 2, key⟩ := rfl
      rw [e, decodeBitsAsInteger_unsigned, if_pos (by decide)]
      have ht : takeBits 6 ⟨[true, false] ++ natToBits 6 k, 2, key⟩ =
          .ok (natToBits 6 k) ⟨[true, false] ++ natToBits 6 k, 8, key⟩ := by
        have := Decodes.takeBits 2 (natToBits 6 k) [true, false] [] key rfl
        simpa using this
      have hb : bitsToNat (natToBits 6 k) = k := by rw [bitsToNat_natToBits]; omega
      rw [M.bind_apply, M.bind_apply, ht]
      show Res.ok ((signExtend 128 (bitsToNat (natToBits 6 k))), true) _ = _
      rw [hb]
      have : signExtend 128 k = (k : Int) := by
        unfold signExtend; dsimp only; rw [if_pos (by omega)]; omega
      rw [this]
    show (decodeEnumerated (some lb) (some ub) true >>= fun d => (Pure.pure (w.cast d.1) : M Int)) _ = _
    rw [M.bind_apply, h2]
    show Res.ok (w.cast (k : Int)) _ = _
    rw [hc]
    rfl

example : ∃ s', (Ty.enumerated .u8 (some 0) (some 5) true).encode (show Int from (3 : Nat)) Codec.new = .ok () s' := ⟨_, rfl⟩

/-- **C46 (partial).** An extension value that no root value has, and that the Rust type can hold, is decoded to
something that the encoder does not accept, so it is not taken for a root value. Missing, because false: the other
extension values. -/
theorem C46_other_values_partial (w : Width) (lb ub : Int) (s s' t t' : Codec) (n r : Int)
    (h : decodeEnumerated (some lb) (some ub) true s = .ok (n, true) s') (hf : w.Fits n) (ho : n < lb ∨ ub < n)
    (hr : (Ty.enumerated w (some lb) (some ub) true).encode (show Int from r) t = .ok () t') :
    ∃ v : Int, (Ty.enumerated w (some lb) (some ub) true).decode s = .ok (show Int from v) s' ∧ v = n ∧ v ≠ r := by
  refine ⟨n, ?_, rfl, ?_⟩
  · show (decodeEnumerated (some lb) (some ub) true >>= fun d => (Pure.pure (w.cast d.1) : M Int)) s = _
    rw [M.bind_apply, h]
    show Res.ok (w.cast n) _ = _
    rw [Width.cast_of_fits hf]
    rfl
  · rintro rfl
    have hr : (encodeExtBit true false >>= fun _ => encodeInteger (some lb) (some ub) false n false) t = .ok () t' := hr
    obtain ⟨_, t1, -, hr⟩ := bind_ok hr
    have hr : (encodeExtBit false false >>= fun _ => encodeConstrained lb ub n) t1 = .ok () t' := hr
    obtain ⟨_, t2, -, hr⟩ := bind_ok hr
    have h2 : encodeConstrained lb ub n t2 = _ := encodeConstrainedWith_outside _ ho t2.bits.length t2 rfl
    rw [h2] at hr
    cases hr

example : decodeEnumerated (some 0) (some 1) true ⟨[true, false, false, false, false, false, true, false], 0, none⟩ =
    .ok (2, true) ⟨[true, false, false, false, false, false, true, false], 8, none⟩ := rfl

/-! ## C47 -/

/-- `as` casts keep the number modulo 2^bits. -/
theorem Width.cast_spec (w : Width) (n : Int) : w.Fits (w.cast n) ∧ ∃ k, n = w.cast n + k * 2 ^ w.bits := by
  refine ⟨?_, (n - w.cast n) / 2 ^ w.bits, ?_⟩ <;> cases w <;>
  · simp only [Width.Fits, Width.cast, Width.signed, Width.bits, signExtend, if_true,
      Bool.false_eq_true, if_false, Nat.reduceSub]
    omega

/-- **C47.** Decoding a derived INTEGER returns the number on the wire if the Rust type can hold it,
and otherwise that number modulo 2^bits. -/
theorem C47_integer_value (w : Width) (lb ub : Option Int) (ext : Bool) (s s' : Codec) (v : Int)
    (h : (Ty.integer w lb ub ext).decode s = .ok v s') :
    ∃ n x, decodeInteger lb ub ext s = .ok (n, x) s' ∧ w.Fits v ∧ (w.Fits n → v = n) ∧
      ∃ k, n = v + k * 2 ^ w.bits := by
  obtain ⟨d, s1, h1, h2⟩ := bind_ok h
  have h2 : (Pure.pure (w.cast d.1) : M Int) s1 = .ok v s' := h2
  cases h2
  obtain ⟨h3, h4⟩ := w.cast_spec d.1
  exact ⟨d.1, d.2, h1, h3, fun hf => Width.cast_of_fits hf, h4⟩

/-- **C47.** If the Rust type holds both bounds, no number within the bounds is truncated. -/
theorem C47_no_truncation_in_bounds (w : Width) (lb ub : Int) (ext : Bool) (hl : w.Fits lb)
    (hu : w.Fits ub) (s s' : Codec) (n : Int) (x : Bool)
    (h : decodeInteger (some lb) (some ub) ext s = .ok (n, x) s') (h1 : lb ≤ n) (h2 : n ≤ ub) :
    (Ty.integer w (some lb) (some ub) ext).decode s = .ok (show Int from n) s' := by
  show (decodeInteger (some lb) (some ub) ext >>= fun d => (Pure.pure (w.cast d.1) : M Int)) s = _
  rw [M.bind_apply, h]
  have : w.Fits n := by
    unfold Width.Fits at *
    split at hl <;> simp_all <;> omega
  show Res.ok (w.cast n) s' = _
  rw [Width.cast_of_fits this]
  rfl

example : Width.Fits .u8 0 ∧ Width.Fits .u8 255 ∧ ¬ Width.Fits .i8 255 := by decide
/-- With too small a type the number wraps. -/
example : (Ty.integer .i8 (some 0) (some 255) false).decode (Codec.fromSlice [200]) =
    .ok (show Int from -56) ⟨bytesBits [200], 8, none⟩ := by rfl

/-! ## C48 -/

/-- **C48 is violated**: encoding an open type whose alternative is NULL (or any other of zero bits)
panics. -/
theorem C48_empty_content_panics_violated (as : Alts) (v : as.Val) (s' : Codec)
    (h : as.encode v Codec.new = .ok () s') (h0 : s'.bits = []) (s : Codec) :
    (Ty.openType as).encode v s = .panic := by
  show encodeOpen (as.encode v) s = _
  unfold encodeOpen
  rw [h]
  unfold lengthInBytes
  simp [h0]

example : ∃ as v, Alts.encode as v Codec.new = .ok () Codec.new := ⟨.cons 1 false .null .nil, .inl (), rfl⟩

/-- **C48 (partial).** Full statement: encoding an open type never panics. What holds: it does not
panic if encoding the alternative by itself does not panic and writes at least one bit. Missing:
alternatives of zero bits, for which it is false. -/
theorem C48_open_type_no_panic_partial (as : Alts) (v : as.Val)
    (h : as.encode v Codec.new ≠ .panic)
    (h0 : ∀ s', as.encode v Codec.new = .ok () s' → s'.bits ≠ []) (s : Codec) :
    (Ty.openType as).encode v s ≠ .panic := by
  show encodeOpen (as.encode v) s ≠ _
  unfold encodeOpen
  cases hr : as.encode v Codec.new with
  | err t => simp
  | panic => exact absurd hr h
  | ok u t =>
    have hb := h0 t hr
    have hl : lengthInBytes t = .ok ((t.bits.length - 1) / 8 + 1) t := by
      unfold lengthInBytes
      exact if_neg (by simpa using hb)
    dsimp only
    rw [hl]
    dsimp only
    have h1 : Returns (encodeLength none none false ((t.bits.length - 1) / 8 + 1)) := by
      intro s h
      by_cases hn : (t.bits.length - 1) / 8 + 1 < 16384
      · have := encodeIndefinite_writes hn s.bits.length s rfl
        rw [show encodeLength none none false ((t.bits.length - 1) / 8 + 1) s =
          encodeIndefiniteLength ((t.bits.length - 1) / 8 + 1) s from rfl, this] at h
        cases h
      · have := encodeIndefinite_fails (n := (t.bits.length - 1) / 8 + 1) (by omega) s.bits.length s rfl
        rw [show encodeLength none none false ((t.bits.length - 1) / 8 + 1) s =
          encodeIndefiniteLength ((t.bits.length - 1) / 8 + 1) s from rfl, this] at h
        cases h
    refine Returns.bind (g := fun _ => appendAligned t) h1 (fun s h => ?_) s
    unfold appendAligned at h
    rw [Writes.align t.bits.length t rfl, M.bind_apply, Writes.align s.bits.length s rfl] at h
    cases h

example : Alts.encode (.cons 1 false .boolean .nil) (.inl true) Codec.new = .ok () ⟨[true], 0, none⟩ := rfl

/-! ## C49 -/

theorem RTS.messages : (ms : List Message) → (key : Option Int) →
    (∀ m ∈ ms, m.1.Framed ∧ m.1.Wf m.2) →
    keysOkAll (fun (m : Message) => m.1.KeysOk m.2) (fun m => m.1.keyAfter m.2) ms key →
    RTS (encodeMessages ms) (decodeMessages (ms.map (·.1))) ms false false key
      (keyAfterAll (fun (m : Message) => m.1.keyAfter m.2) ms key)
  | [], key, _, _ => .pure [] false key
  | m :: ms, key, h, hk => by
    obtain ⟨h1, h2⟩ := h m List.mem_cons_self
    cases hf : m.1.flow false with
    | none => exact absurd hf h1
    | some c =>
      refine .bind (Ty.rts m.1 m.2 false c key hf h2 hk.1) ?_
      refine .bind (RTS.of (b := c) (c := false) RT.align (fun _ => AlignFirst.align) _) ?_
      exact .map (RTS.messages ms _ (fun x hx => h x (List.mem_cons_of_mem _ hx)) hk.2)
        (⟨m.1, m.2⟩ :: ·)

/-- **C49.** Messages of any derived types (that pass the check of C36) written one after the other,
each padded to octets, are read back one by one, in order and completely, whatever follows. Open types
must agree with the key in force, which carries over from one message to the next. -/
theorem C49_concatenated_messages (ms : List Message) (h : ∀ m ∈ ms, m.1.Framed ∧ m.1.Wf m.2)
    (s s' : Codec) (he : encodeMessages ms s = .ok () s') (suffix : List Bool) (key : Option Int)
    (hk : keysOkAll (fun (m : Message) => m.1.KeysOk m.2) (fun m => m.1.keyAfter m.2) ms key) :
    ∃ key', decodeMessages (ms.map (·.1)) ⟨s'.bits ++ suffix, s.bits.length, key⟩ =
      .ok ms ⟨s'.bits ++ suffix, s'.bits.length, key'⟩ := by
  obtain ⟨w, rfl, -, hr⟩ := RTS.messages ms key h hk s s' he
  obtain ⟨o, e, ha⟩ := hr s.bits suffix s.bits.length rfl (.inl rfl)
  rcases ha with rfl | ⟨hf, -⟩
  · exact ⟨_, by simpa using e⟩
  · cases hf

/-- **C49.** And they are accepted if each is. -/
theorem C49_messages_accepted (ms : List Message) (h : ∀ m ∈ ms, m.1.Permitted m.2) (s : Codec) :
    Succeeds (encodeMessages ms s) := by
  have : ∀ ms : List Message, (∀ m ∈ ms, m.1.Permitted m.2) → Ok (encodeMessages ms) := by
    intro ms
    induction ms with
    | nil => intro _; exact .pure
    | cons m ms ih =>
      intro h
      exact .bind (Ty.encode_ok m.1 m.2 (h m List.mem_cons_self))
        (.bind (fun s => ⟨_, Writes.align s.bits.length s rfl⟩)
          (ih fun x hx => h x (List.mem_cons_of_mem _ hx)))
  obtain ⟨s', hs⟩ := this ms h s
  exact ⟨(), s', hs⟩

/-- Three messages, the first and the last ending in an open type. -/
example : (encodeMessages [⟨IE, ie1⟩, ⟨.boolean, true⟩, ⟨IE, ie2⟩] Codec.new).left.map
    (·.bits.length) = some 104 ∧
  keysOkAll (fun (m : Message) => m.1.KeysOk m.2) (fun m => m.1.keyAfter m.2)
    [⟨IE, ie1⟩, ⟨.boolean, true⟩, ⟨IE, ie2⟩] none :=
  ⟨by decide +kernel, ⟨trivial, trivial, ⟨⟨1, rfl, rfl⟩, trivial⟩, trivial⟩, trivial,
    ⟨trivial, trivial, ⟨⟨2, rfl, by decide, rfl⟩, trivial⟩, trivial⟩, trivial⟩

end Hampi
