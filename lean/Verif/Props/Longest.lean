import Verif.Lemmas.Longest
import Verif.Props.Messages
/-!
# C130: how long a message can get
-/
namespace Hampi

/-- **C130 (partial).** Full statement: a value that is encoded takes at most `t.longest` bits, wherever it starts.
Proved for all types and all values without lists of more elements than permitted. Missing, because false: such lists
(`C130_lists_violated`). -/
theorem C130_longest_partial (t : Ty) (v : t.Val) (hl : t.ListsFit v) (s s' : Codec) (h : t.encode v s = .ok () s') :
    s'.bits.length ≤ s.bits.length + t.longest :=
  (t.encode_adds v hl).ok h

mutual

theorem Ty.Wf.listsFit : (t : Ty) → (v : t.Val) → t.Wf v → t.ListsFit v
  | .sequence _ _ fs, v, h => Fields.Wf.listsFit fs v h.2
  | .sequenceOf lb ub ext e, v, h => by
    refine ⟨?_, fun x hx => Ty.Wf.listsFit e x (h.2.2 x hx)⟩
    have h1 := h.2.1
    cases ext with
    | true =>
      have h1 : List.length v < 16384 := h1
      show _ ≤ 16383
      omega
    | false =>
      have h1 : SizeOk lb ub (List.length v) := h1
      show _ ≤ countLongest ub
      unfold countLongest
      cases ub with
      | none =>
        rcases h1.2.2 with ⟨u, hu, -⟩ | h2
        · cases hu
        · simp only
          omega
      | some u =>
        simp only
        have h3 := h1.2.1.2 u rfl
        split
        · omega
        · rcases h1.2.2 with ⟨u', hu, h4⟩ | h2
          · cases hu
            omega
          · omega
  | .choice _ _ _ as, v, h => Alts.Wf.listsFit as v h.2.2
  | .boolean, _, _ | .null, _, _ | .integer .., _, _ | .enumerated .., _, _ | .bitstring .., _, _
  | .octetstring .., _, _ | .charstring .., _, _ | .objectIdentifier, _, _ | .openType _, _, _ => trivial

theorem Fields.Wf.listsFit : (fs : Fields) → (v : fs.Val) → fs.Wf v → fs.ListsFit v
  | .nil, _, _ => trivial
  | .required _ t rest, v, h => ⟨Ty.Wf.listsFit t v.1 h.1, Fields.Wf.listsFit rest v.2 h.2⟩
  | .optional _ t rest, (some x, v), h => ⟨Ty.Wf.listsFit t x h.1, Fields.Wf.listsFit rest v h.2⟩
  | .optional _ _ rest, (none, v), h => ⟨trivial, Fields.Wf.listsFit rest v h.2⟩

theorem Alts.Wf.listsFit : (as : Alts) → (v : as.Val) → as.Wf v → as.ListsFit v
  | .cons _ _ t _, .inl v, h => Ty.Wf.listsFit t v h
  | .cons _ _ _ rest, .inr v, h => Alts.Wf.listsFit rest v h

end

theorem intoBytes_length (s : Codec) : s.intoBytes.length = (s.bits.length + 7) / 8 := by
  have h2 := congrArg List.length (bytesBits_bitsBytes s.bits)
  rw [bytesBits_length, List.length_append, List.length_replicate] at h2
  unfold padLen at h2
  unfold Codec.intoBytes
  omega

/-- **C130.** The octets of a permitted value: a buffer of this many octets is enough. -/
theorem C130_permitted (t : Ty) (v : t.Val) (hw : t.Wf v) (s : Codec) (h : t.encode v Codec.new = .ok () s) :
    s.intoBytes.length ≤ (t.longest + 7) / 8 := by
  have h1 := C130_longest_partial t v (Ty.Wf.listsFit t v hw) _ _ h
  rw [intoBytes_length]
  have h2 : Codec.new.bits.length = 0 := rfl
  omega

/-- A number from 0 to 255 and up to 31 flags. -/
def flagged : Ty := .sequence true 0 (.required false (.integer .u8 (some 0) (some 255) false)
  (.required false (.sequenceOf (some 0) (some 31) false .boolean) .nil))

def flaggedValue : flagged.Val := show Int × List Bool × Unit from (200, [true, false], ())

example : flagged.longest = 1 + (7 + 8) + (5 + 31) ∧ flagged.Wf flaggedValue ∧
    ∃ s, flagged.encode flaggedValue Codec.new = .ok () s :=
  ⟨by decide, by decide +kernel, ⟨_, rfl⟩⟩

/-! ## Messages of the three protocols -/

mutual

/-- There is no list outside open types. -/
def Ty.listless : Ty → Bool
  | .sequence _ _ fs => fs.listless
  | .sequenceOf .. => false
  | .choice _ _ _ as => as.listless
  | .boolean | .null | .integer .. | .enumerated .. | .bitstring .. | .octetstring ..
  | .charstring .. | .objectIdentifier | .openType _ => true

def Fields.listless : Fields → Bool
  | .nil => true
  | .required _ t rest | .optional _ t rest => t.listless && rest.listless

def Alts.listless : Alts → Bool
  | .nil => true
  | .cons _ _ t rest => t.listless && rest.listless

end

mutual

theorem Ty.listless_fit : (t : Ty) → t.listless = true → (v : t.Val) → t.ListsFit v
  | .sequence _ _ fs, h, v => Fields.listless_fit fs h v
  | .sequenceOf .., h, _ => by simp [Ty.listless] at h
  | .choice _ _ _ as, h, v => Alts.listless_fit as h v
  | .boolean, _, _ | .null, _, _ | .integer .., _, _ | .enumerated .., _, _ | .bitstring .., _, _
  | .octetstring .., _, _ | .charstring .., _, _ | .objectIdentifier, _, _ | .openType _, _, _ => trivial

theorem Fields.listless_fit : (fs : Fields) → fs.listless = true → (v : fs.Val) → fs.ListsFit v
  | .nil, _, _ => trivial
  | .required _ t rest, h, v => by
    simp only [Fields.listless, Bool.and_eq_true] at h
    exact ⟨Ty.listless_fit t h.1 v.1, Fields.listless_fit rest h.2 v.2⟩
  | .optional _ t rest, h, (some x, v) => by
    simp only [Fields.listless, Bool.and_eq_true] at h
    exact ⟨Ty.listless_fit t h.1 x, Fields.listless_fit rest h.2 v⟩
  | .optional _ t rest, h, (none, v) => by
    simp only [Fields.listless, Bool.and_eq_true] at h
    exact ⟨trivial, Fields.listless_fit rest h.2 v⟩

theorem Alts.listless_fit : (as : Alts) → as.listless = true → (v : as.Val) → as.ListsFit v
  | .cons _ _ t rest, h, .inl v => by
    simp only [Alts.listless, Bool.and_eq_true] at h
    exact Ty.listless_fit t h.1 v
  | .cons _ _ t rest, h, .inr v => by
    simp only [Alts.listless, Bool.and_eq_true] at h
    exact Alts.listless_fit rest h.2 v

end

theorem pdu_longest (t : Ty) (ht : t.listless = true) (hn : t.longest ≤ 8 * 16389) (v : t.Val) (s : Codec)
    (h : t.encode v Codec.new = .ok () s) : s.intoBytes.length ≤ 16389 := by
  have h1 := C130_longest_partial t v (t.listless_fit ht v) _ _ h
  rw [intoBytes_length]
  have h2 : Codec.new.bits.length = 0 := rfl
  omega

/-- **C130.** Whatever is in it: an NGAP message that is encoded has at most 16389 octets. -/
theorem C130_ngap (v : Ngap.NGAP_PDU.Val) (s : Codec) (h : Ngap.NGAP_PDU.encode v Codec.new = .ok () s) :
    s.intoBytes.length ≤ 16389 :=
  pdu_longest _ (by decide +kernel) (by decide +kernel) v s h

/-- **C130.** As for NGAP. -/
theorem C130_s1ap (v : S1ap.S1AP_PDU.Val) (s : Codec) (h : S1ap.S1AP_PDU.encode v Codec.new = .ok () s) :
    s.intoBytes.length ≤ 16389 :=
  pdu_longest _ (by decide +kernel) (by decide +kernel) v s h

/-- **C130.** As for NGAP. -/
theorem C130_ranap (v : Ranap.RANAP_PDU.Val) (s : Codec) (h : Ranap.RANAP_PDU.encode v Codec.new = .ok () s) :
    s.intoBytes.length ≤ 16389 :=
  pdu_longest _ (by decide +kernel) (by decide +kernel) v s h

/-- **C130.** What would be longer is refused, not cut: content of an open type of more than 16383 octets is an error. -/
theorem C130_large_refused (as : Alts) (v : as.Val) (inner : Codec) (hi : as.encode v Codec.new = .ok () inner)
    (hl : 16383 < inner.intoBytes.length) (s : Codec) : ∃ s', (Ty.openType as).encode v s = .err s' := by
  rw [intoBytes_length] at hl
  show ∃ s', encodeOpen (as.encode v) s = .err s'
  unfold encodeOpen
  simp only [hi]
  unfold lengthInBytes
  rw [if_neg (by omega)]
  simp only
  have hl' : encodeLength none none false ((inner.bits.length - 1) / 8 + 1) =
      encodeIndefiniteLength ((inner.bits.length - 1) / 8 + 1) := by
    simp [encodeLength]
  rw [hl']
  obtain ⟨t, ht, -⟩ := align_length s
  refine ⟨t, ?_⟩
  simp only [encodeIndefiniteLength, Bind.bind, M.bind, ht]
  rw [if_neg (by omega), if_neg (by omega)]
  rfl

/-- A number in two octets. -/
def u16 : Ty := .integer .u16 (some 0) (some 65535) false

theorem zeros_encode : (n : Nat) → (s : Codec) → s.bits.length % 8 = 0 →
    ∃ t, encodeAll u16.encode (show List u16.Val from List.replicate n (0 : Int)) s = .ok () t ∧
      t.bits.length = s.bits.length + 16 * n
  | 0, s, _ => ⟨s, rfl, rfl⟩
  | n + 1, s, h => by
    have h1 : u16.encode (show Int from 0) s = .ok () { s with bits := s.bits ++ natToBits 16 0 } := by
      show M.bind (Hampi.align) _ s = _
      rw [M.bind, align_of_aligned h]
      rfl
    obtain ⟨t, h2, h3⟩ := zeros_encode n { s with bits := s.bits ++ natToBits 16 0 } (by simp; omega)
    refine ⟨t, ?_, ?_⟩
    · show M.bind (u16.encode (show Int from 0)) _ s = _
      rw [M.bind, h1]
      exact h2
    · rw [h3]
      simp
      omega

/-- A list of such numbers. -/
def u16s : Ty := .sequenceOf none none false u16

theorem zeros_wf (n : Nat) (h0 : 0 < n) (h : n < 16384) : u16s.Wf (show List Int from List.replicate n 0) := by
  refine ⟨?_, ?_, ?_⟩
  · intro h'
    have := congrArg List.length h'
    rw [List.length_replicate] at this
    have : n = 0 := this
    omega
  · show SizeOk none none (List.replicate n (0 : Int)).length
    rw [List.length_replicate]
    exact ⟨⟨nofun, nofun⟩, ⟨nofun, nofun⟩, .inr h⟩
  · intro x hx
    have hx : x ∈ List.replicate n (0 : Int) := hx
    have := (List.mem_replicate.mp hx).2
    subst this
    exact ⟨by decide, nofun⟩

theorem zeros_list (n : Nat) (h0 : 8192 ≤ n) (h : n < 16384) :
    ∃ t, u16s.encode (show List Int from List.replicate n 0) Codec.new = .ok () t ∧
      16383 < t.intoBytes.length := by
  obtain ⟨t, h1, h2⟩ := zeros_encode n ⟨natToBits 16 ((n % 65536) ||| 0x8000), 0, none⟩ (by simp)
  refine ⟨t, ?_, ?_⟩
  · show M.bind (M.ignoreErr (encodeLength none none false (List.replicate n (0 : Int)).length)) _ Codec.new = _
    have : M.ignoreErr (encodeLength none none false (List.replicate n (0 : Int)).length) Codec.new =
        .ok () ⟨natToBits 16 ((n % 65536) ||| 0x8000), 0, none⟩ := by
      rw [List.length_replicate]
      unfold M.ignoreErr encodeLength encodeIndefiniteLength
      simp only [Bind.bind, M.bind, Option.any, Bool.false_eq_true, if_false]
      rw [align_of_aligned (by rfl), if_neg (by omega), if_pos h]
      rfl
    rw [M.bind, this]
    exact h1
  · rw [intoBytes_length, h2]
    simp
    omega

-- An open type with a list of 10000 numbers, which is a permitted value, of 20002 octets.
example : ∃ (as : Alts) (v : as.Val) (inner : Codec), as.Wf v ∧ as.encode v Codec.new = .ok () inner ∧
    16383 < inner.intoBytes.length := by
  obtain ⟨t, h1, h2⟩ := zeros_list 10000 (by omega) (by omega)
  exact ⟨.cons 1 false u16s .nil, .inl _, t, zeros_wf 10000 (by omega) (by omega), h1, h2⟩

/-! ## Lists -/

/-- **C130 is violated**: four elements where two are permitted take more bits than any permitted value. -/
theorem C130_lists_violated : ∃ (t : Ty) (v : t.Val) (s : Codec),
    t.encode v Codec.new = .ok () s ∧ t.longest < s.bits.length := by
  refine ⟨.sequenceOf (some 1) (some 2) false .boolean, show List Bool from [true, true, true, true], ⟨[true, true, true, true], 0, none⟩, ?_, ?_⟩
  · decide +kernel
  · decide

end Hampi
