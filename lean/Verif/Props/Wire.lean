import Verif.Lemmas.Wire
import Verif.Props.Derived
/-!
# C64: derived encoders write what X.691 prescribes
(and what this says for C39 and C43)
-/
namespace Hampi

open Spec (ReadsBack Succeeds Refuses ConstrainedWord LengthWord IsOctets IsWidth generalLength alignment
  octetBits be)

/-! ## C64 -/

/-- **C64 (partial).** Full statement: the bits a derived encoder appends are the ones X.691 prescribes
(`Ty.Layout`). Proved for every type and value, every buffer and every alignment, unless the value
contains one of the cases excluded by `Ty.Regular`. Missing: those cases, in which the code deviates:
see the `_violated` theorems. -/
theorem C64_layout_partial (t : Ty) (v : t.Val) (hv : t.Regular v) (s s' : Codec)
    (h : t.encode v s = .ok () s') :
    ∃ w, t.Layout v s.bits.length w ∧ s' = { s with bits := s.bits ++ w } :=
  Ty.lays t v hv s s' h

/-- `SEQUENCE { a BOOLEAN OPTIONAL, b INTEGER (0..7), c CHOICE { x NULL, y SEQUENCE SIZE (0..3) OF
INTEGER } , d OCTET STRING (SIZE (3)) OPTIONAL, ... }`. -/
def WireExample : Ty :=
  .sequence true 2 (.optional 0 .boolean (.required false (.integer .u8 (some 0) (some 7) false)
    (.required false (.choice 0 1 false (.cons 0 false .null
      (.cons 1 false (.sequenceOf (some 0) (some 3) false (.integer .i8 none none false)) .nil)))
    (.optional 1 (.octetstring (some 3) (some 3) false) .nil))))

/-- `{ b 5, c y : { -1, 200 }, d 'ABCDEF'H }`. -/
def wireValue : WireExample.Val :=
  (show Option Bool × Int × (Unit ⊕ List Int ⊕ Empty) × Option (List UInt8) × Unit from
    (none, 5, .inr (.inl [-1, 200]), some [0xAB, 0xCD, 0xEF], ()))

/-- Its bits: extension bit, two presence bits, five in three bits, the second alternative, two
elements, three bits of padding, the two elements, the octets. -/
example : (WireExample.encode wireValue Codec.new).left.map (·.bits) = some
    ([false] ++ [false, true] ++ [true, false, true] ++ [true] ++ [true, false] ++
      List.replicate 7 false ++ be 8 1 ++ be 8 255 ++ be 8 2 ++ be 16 200 ++
      be 8 0xAB ++ be 8 0xCD ++ be 8 0xEF) := by decide +kernel

example : WireExample.Regular wireValue :=
  ⟨by decide, trivial, ⟨by decide, by decide⟩,
    ⟨by decide, rfl, ⟨⟨by decide, by decide⟩, ⟨by decide, by decide⟩, by decide⟩, by
      show ∀ x ∈ [(-1 : Int), 200], IsI128 x
      intro x hx
      have hx : x = -1 ∨ x = 200 := by simpa using hx
      rcases hx with rfl | rfl <;> decide⟩,
    ⟨⟨by decide, by decide⟩, .inl ⟨3, rfl, rfl, by decide⟩⟩, trivial⟩

theorem isOctets_unique {x a b : Nat} (h1 : IsOctets x a) (h2 : IsOctets x b) : a = b := by
  have := h1.2.2 b h2.1 h2.2.1
  have := h2.2.2 a h1.1 h1.2.1
  omega

theorem be_length (n x : Nat) : (be n x).length = n := by simp [be]

/-- **C64 is violated**: with a lower bound only, the offset from it is an unsigned number for X.691,
but written as a signed one. Offsets from 128 to 255 need one octet; the code writes two. -/
theorem C64_semi_constrained_violated (w : Width) (lb v : Int) (h1 : 128 ≤ v - lb)
    (h2 : v - lb ≤ 255) (s : Codec) :
    ∃ s', (Ty.integer w (some lb) none false).encode v s = .ok () s' ∧
      ∀ word, (Ty.integer w (some lb) none false).Layout v s.bits.length word →
        s'.bits.length = s.bits.length + word.length + 8 := by
  have hi : IsI128 (v - lb) := ⟨by omega, by omega⟩
  have hk : Spec.IsTwosOctets (v - lb) 2 := by
    refine ⟨by decide, ⟨by omega, by omega⟩, ?_⟩
    intro j hj hf
    apply Decidable.byContradiction
    intro h
    have : j = 1 := by omega
    subst this
    have := hf.2
    omega
  refine ⟨{ s with bits := s.bits ++ Spec.unconstrained s.bits.length 2 (v - lb) }, ?_, ?_⟩
  · show encodeInteger (some lb) none false v false s = _
    unfold encodeInteger encodeExtBit
    simp only [Bool.false_eq_true, if_false]
    show encodeSemiConstrained lb v s = _
    unfold encodeSemiConstrained
    rw [if_neg (by omega), chkI128_bind hi]
    exact C08_unconstrained_layout none _ hi 2 hk s
  · rintro word ⟨x, rfl, k, hk, rfl⟩
    have : k = 1 := isOctets_unique hk
      ⟨by decide, by omega, fun j hj _ => hj⟩
    subst this
    simp only [Spec.unconstrained, Spec.semiConstrained, generalLength, extRoot, List.length_append,
      be_length]
    simp [be_length]
    omega

example : ((Ty.integer .u8 (some 0) none false).encode (show Int from 200) Codec.new).left.map (·.bits) =
    some (be 8 2 ++ be 16 200) := by decide +kernel

/-- **C64 is violated**: the content of a string of variable size begins at an octet boundary, but the
code leaves no gap before content of up to 16 bits. Shown for `OCTET STRING (SIZE (1..2))`, all strings of
one octet, all positions but those where the length ends at a boundary. -/
theorem C64_short_string_violated (x : UInt8) (s : Codec) (hp : s.bits.length % 8 ≠ 7) :
    ∃ s', (Ty.octetstring (some 1) (some 2) false).encode [x] s = .ok () s' ∧
      ∀ word, (Ty.octetstring (some 1) (some 2) false).Layout [x] s.bits.length word →
        s'.bits.length < s.bits.length + word.length := by
  refine ⟨{ s with bits := s.bits ++ (be 1 0 ++ be 8 x.toNat) }, ?_, ?_⟩
  · have hl := encodeConstrained_writes (InRange.of (lb := 1) (ub := 2) (v := 1) (by decide) (by decide)
      (by decide)) (by decide) s.bits.length
    have e : cWord s.bits.length ((2 : Int) - 1 + 1).toNat ((1 : Int) - 1).toNat = be 1 0 := rfl
    rw [e] at hl
    have hb : Writes (encodeLength (some 1) (some 2) false 1) s.bits.length (be 1 0) := hl
    have e2 : octetBits [x] = be 8 x.toNat := by simp [octetBits]
    show encodeOctetstring (some 1) (some 2) false [x] false s = _
    unfold encodeOctetstring
    simp only [Bool.false_eq_true, if_false, List.length_singleton]
    rw [← octetBits_eq, e2]
    have h1 : Writes (alignIf (decide (2 < 1))) (s.bits.length + 0 + 1) [] := .alignIf _ _
    have h2 := Writes.bind (g := fun _ => appendBits (be 8 x.toNat)) h1 (.append _ _)
    exact Writes.bind (g := fun _ => _) (extBit_writes false _) (Writes.bind (g := fun _ => _) hb h2) s rfl
  · rintro word (⟨k, h1, h2, -⟩ | ⟨-, l, hl, rfl⟩)
    · injection h1 with h1; injection h2 with h2; omega
    · have hl : ConstrainedWord (s.bits.length + 0) 2 0 l := hl
      unfold ConstrainedWord at hl
      rw [if_pos (by decide)] at hl
      obtain ⟨b, hb, rfl⟩ := hl
      have hb1 : b = 1 := isWidth_unique hb ⟨by decide, fun c hc => by
        cases c with
        | zero => simp at hc
        | succ c => omega⟩
      subst hb1
      simp [extRoot, octetBits, be_length, alignment]
      omega

example : ((Ty.octetstring (some 1) (some 2) false).encode (show List UInt8 from [0xAB]) Codec.new).left.map
    (·.bits) = some (be 1 0 ++ be 8 0xAB) := by decide +kernel

/-- **C64 is violated**: the size constraint of a UTF8String counts characters and is not PER-visible,
but the code uses it as a constraint on the octets. Shown for fixed sizes: no length is written. -/
theorem C64_utf8_constraint_violated (k : Nat) (hk : k ≤ 2) (v : String) (hv : (utf8 v).length = k)
    (s : Codec) :
    ∃ s', (Ty.charstring .utf8 (some (k : Int)) (some k) false).encode v s = .ok () s' ∧
      ∀ word, (Ty.charstring .utf8 (some (k : Int)) (some k) false).Layout v s.bits.length word →
        s'.bits.length + 8 ≤ s.bits.length + word.length := by
  refine ⟨{ s with bits := s.bits ++ octetBits (utf8 v) }, ?_, ?_⟩
  · have hl := encodeConstrained_writes (InRange.of (lb := (k : Int)) (ub := k) (v := k) (by omega)
      (by omega) (by omega)) (by omega) s.bits.length
    have hb : Writes (encodeLength (some (k : Int)) (some (k : Int)) false (utf8 v).length)
        s.bits.length [] := by
      rw [hv]
      unfold encodeLength
      simp only [Bool.false_eq_true, if_false]
      rw [if_pos (by omega)]
      have e : cWord s.bits.length ((k : Int) - k + 1).toNat ((k : Int) - k).toNat = [] := by
        rw [Int.sub_self]; rfl
      rw [e] at hl
      exact hl
    show encodeString (some (k : Int)) (some (k : Int)) false v false s = _
    unfold encodeString
    simp only [Bool.false_eq_true, if_false]
    rw [← octetBits_eq, show decide (2 < (utf8 v).length) = false by simp; omega]
    have h1 : Writes (alignIf false) s.bits.length [] := .alignIf _ _
    have h2 := Writes.bind (g := fun _ => appendBits (octetBits (utf8 v))) h1 (.append _ _)
    have h3 := Writes.bind (g := fun _ => alignIf false >>= fun _ => appendBits (octetBits (utf8 v))) hb h2
    exact Writes.bind (g := fun _ => _) (extBit_writes false _) h3 s rfl
  · rintro word rfl
    simp [generalLength]
    split <;> simp [be_length] <;> omega

example : ((Ty.charstring .utf8 (some 2) (some 2) false).encode (show String from "hi") Codec.new).left.map
    (·.bits) = some (be 8 104 ++ be 8 105) := by decide +kernel

/-- **C64 is violated**: for an extensible SEQUENCE OF the code writes a normally small length (X.691
10.9.3.4) in place of the extension bit and the constrained length. Shown for
`SEQUENCE (SIZE (0..3, ...)) OF BOOLEAN` and all non-empty lists in the root. -/
theorem C64_extensible_list_violated (l : List Bool) (h1 : 1 ≤ l.length) (h3 : l.length ≤ 3) (s : Codec) :
    ∃ s', (Ty.sequenceOf (some 0) (some 3) true .boolean).encode l s = .ok () s' ∧
      ∀ word, (Ty.sequenceOf (some 0) (some 3) true .boolean).Layout l s.bits.length word →
        s'.bits.length = s.bits.length + word.length + 4 := by
  have hlist : ∀ (l : List Bool) (p : Nat), Writes (encodeAll Ty.boolean.encode l) p l := by
    intro l
    induction l with
    | nil => exact fun p => .pure p
    | cons x xs ih =>
      intro p
      exact Writes.bind (g := fun _ => encodeAll Ty.boolean.encode xs) (.push p x) (ih _)
  refine ⟨{ s with bits := s.bits ++ ([false] ++ be 6 (l.length - 1) ++ l) }, ?_, ?_⟩
  · have hb : Writes (M.ignoreErr (encodeLength (some 0) (some 3) true l.length)) s.bits.length
        ([false] ++ be 6 (l.length - 1)) := by
      intro t _
      have := C35_normally_small_layout_partial (some 0) (some 3) l.length t (by omega)
      unfold M.ignoreErr
      rw [this, Spec.normallySmallLength, if_pos (by omega)]
    exact Writes.bind (g := fun _ => encodeAll Ty.boolean.encode l) hb (hlist l _) s rfl
  · rintro word ⟨a, body, ha, hb, rfl⟩
    have ha : ConstrainedWord (s.bits.length + 1) 4 l.length a := ha
    unfold ConstrainedWord at ha
    rw [if_pos (by decide)] at ha
    obtain ⟨b, hb2, rfl⟩ := ha
    have : b = 2 := isWidth_unique hb2 ⟨by decide, fun c hc => by
      match c with
      | 0 => simp at hc
      | 1 => simp at hc
      | c + 2 => omega⟩
    subst this
    have hbl : ∀ (l : List Bool) (p : Nat) (w : List Bool), ListLayout Ty.boolean.Layout l p w →
        w.length = l.length := by
      intro l
      induction l with
      | nil => rintro p w rfl; rfl
      | cons x xs ih =>
        rintro p w ⟨a, b, ha, hb, rfl⟩
        have ha : a = [x] := ha
        have := ih _ _ hb
        simp [ha, this]
    have := hbl l _ _ hb
    simp [extRoot, be_length, this]
    omega

example : ((Ty.sequenceOf (some 0) (some 3) true .boolean).encode (show List Bool from [true]) Codec.new).left.map
    (·.bits) = some [false, false, false, false, false, false, false, true] := by decide +kernel

/-! ## C39 and C43 on the encoding side -/

/-- The alternative after the extension marker of `Ch`. -/
def extensionValue : Ch.Val := (show Unit ⊕ Bool ⊕ Int ⊕ Bool ⊕ Empty from .inr (.inr (.inr (.inl true))))

/-- **C39, encoding side.** An alternative declared after the extension marker is never encoded: the
encoder refuses, and leaves the buffer as it was. -/
theorem C39_extension_refused (lb ub : Int) (ext : Bool) (as : Alts) (v : as.Val)
    (hx : as.extendedOf v = true) (s : Codec) : (Ty.choice lb ub ext as).encode v s = .err s := by
  show (encodeChoiceIdx lb ub ext (as.keyOf v) (as.extendedOf v) >>= fun _ => as.encode v) s = _
  rw [hx]
  rfl

example : (Ty.choice 0 2 true Ch).encode extensionValue Codec.new = .err Codec.new :=
  C39_extension_refused 0 2 true Ch extensionValue rfl _

/-- **C43, encoding side.** An open type is written as the number of octets of the content, then
exactly these octets, the content followed by zero bits; the content is what the alternative's encoder
writes into an empty buffer. -/
theorem C43_open_type_layout (as : Alts) (v : as.Val) (s s' : Codec)
    (h : (Ty.openType as).encode v s = .ok () s') :
    ∃ content n, as.encode v Codec.new = .ok () { Codec.new with bits := content } ∧
      (content ++ alignment content.length).length = 8 * n ∧
      s' = { s with bits := s.bits ++ generalLength s.bits.length n ++ content ++ alignment content.length } := by
  have hlay : Lays (as.encode v) fun p w => p = 0 → as.encode v Codec.new = .ok () ⟨w, 0, none⟩ := by
    intro t t' ht
    obtain ⟨f, -, hf⟩ := as.encode_writer v
    rw [hf t] at ht
    cases hr : f t.bits.length with
    | err w => rw [hr] at ht; cases ht
    | panic => rw [hr] at ht; cases ht
    | ok u w =>
      rw [hr] at ht
      cases ht
      refine ⟨w, fun h0 => ?_, rfl⟩
      rw [hf Codec.new, show Codec.new.bits.length = t.bits.length from h0.symm, hr]
      rfl
  obtain ⟨w, ⟨content, hc, hw⟩, rfl⟩ := hlay.open s s' h
  have hc := hc rfl
  have hne : content ≠ [] := by
    rintro rfl
    have h : encodeOpen (as.encode v) s = .ok () _ := h
    unfold encodeOpen at h
    rw [hc] at h
    cases h
  unfold OpenLayout at hw
  simp only [if_neg hne] at hw
  refine ⟨content, (content ++ alignment content.length).length / 8, hc, ?_, ?_⟩
  · simp only [List.length_append, alignment, List.length_replicate]
    omega
  · rw [hw]
    simp

example : ((Ty.openType (.cons 1 false (.integer .u8 (some 0) (some 7) false) .nil)).encode
    (show Int ⊕ Empty from .inl 5) ⟨[true], 0, none⟩).left.map (·.bits) =
    some ([true] ++ List.replicate 7 false ++ be 8 1 ++ [true, false, true] ++ List.replicate 5 false) := by
  decide +kernel

end Hampi
