import Verif.Spec.Wire
import Verif.Lemmas.DeriveOk
import Verif.Props.Layout
/-!
# The bits derived encoders write
-/
namespace Hampi

open Spec

/-- When it succeeds, `m` appends a word of which `L` holds, and does nothing else. -/
def Lays (m : M Unit) (L : Nat → List Bool → Prop) : Prop :=
  ∀ s s', m s = .ok () s' → ∃ w, L s.bits.length w ∧ s' = { s with bits := s.bits ++ w }

theorem Lays.mono {m : M Unit} {L L' : Nat → List Bool → Prop} (h : Lays m L)
    (hl : ∀ p w, L p w → L' p w) : Lays m L' := by
  intro s s' hs
  obtain ⟨w, h1, h2⟩ := h s s' hs
  exact ⟨w, hl _ _ h1, h2⟩

theorem Lays.bind {m : M Unit} {g : Unit → M Unit} {L1 L2 : Nat → List Bool → Prop} (h1 : Lays m L1)
    (h2 : Lays (g ()) L2) :
    Lays (m >>= g) fun p w => ∃ a b, L1 p a ∧ L2 (p + a.length) b ∧ w = a ++ b := by
  intro s s' hs
  obtain ⟨_, t, ht, hg⟩ := bind_ok hs
  obtain ⟨a, ha, rfl⟩ := h1 s t ht
  obtain ⟨b, hb, rfl⟩ := h2 _ _ hg
  exact ⟨a ++ b, ⟨a, b, ha, by simpa using hb, rfl⟩, by simp⟩

theorem Lays.of {m : M Unit} {L : Nat → List Bool → Prop} (h : ∀ p, ∃ w, Writes m p w ∧ L p w) :
    Lays m L := by
  intro s s' hs
  obtain ⟨w, h1, h2⟩ := h s.bits.length
  rw [h1 s rfl] at hs
  cases hs
  exact ⟨w, h2, rfl⟩

theorem Lays.fail {L : Nat → List Bool → Prop} : Lays M.fail L := by intro s s' h; cases h

theorem Lays.pure : Lays (Pure.pure ()) fun _ w => w = [] := .of fun p => ⟨[], .pure p, rfl⟩

theorem Lays.append (l : List Bool) : Lays (appendBits l) fun _ w => w = l :=
  .of fun p => ⟨l, .append p l, rfl⟩

theorem Lays.alignIf (c : Bool) : Lays (alignIf c) fun p w => w = if c then alignment p else [] :=
  .of fun p => ⟨_, .alignIf p c, rfl⟩

theorem extBit_writes (ext : Bool) (p : Nat) : Writes (encodeExtBit ext false) p (extRoot ext) := by
  unfold encodeExtBit extRoot
  cases ext
  · exact .pure p
  · exact .push p false

theorem Lays.extBit (ext : Bool) : Lays (encodeExtBit ext false) fun _ w => w = extRoot ext :=
  .of fun p => ⟨_, extBit_writes ext p, rfl⟩

/-! ## Numbers -/

theorem Lays.constrained {lb ub v : Int} (h32 : ub - lb + 1 ≠ 2 ^ 32) (h64 : ub - lb + 1 ≠ 2 ^ 64) :
    Lays (encodeConstrained lb ub v) fun p w =>
      ConstrainedWord p (ub - lb + 1).toNat (v - lb).toNat w := by
  intro s s' hs
  obtain ⟨R, x, hi, h0⟩ := encodeConstrained_ok hs
  have h1 := hi.hR
  have h2 := hi.hx
  have h3 := hi.lt
  have h4 := hi.max
  obtain ⟨w, hw, he⟩ := C07_constrained_layout_partial lb ub v s (by omega) (by omega) (by omega)
    (by omega) h32 h64
  have he' : encodeConstrained lb ub v s = .ok () { s with bits := s.bits ++ w } := he
  rw [hs] at he'
  injection he' with _ he'
  exact ⟨w, hw, he'⟩

theorem Lays.unconstrained {v : Int} (hv : IsI128 v) :
    Lays (encodeUnconstrained v) fun p w => ∃ k, IsTwosOctets v k ∧ w = Spec.unconstrained p k v := by
  intro s s' hs
  have hk := (isTwosOctets_iff hv (k := unconstrainedBytes v)).mpr rfl
  have he : encodeUnconstrained v s = _ := C08_unconstrained_layout none v hv _ hk s
  rw [hs] at he
  injection he with _ he
  exact ⟨_, ⟨_, hk, rfl⟩, he⟩

theorem chkI128_bind_ok {d : Int} {g : Int → M Unit} {s s' : Codec}
    (h : (chkI128 d >>= g) s = .ok () s') : IsI128 d ∧ g d s = .ok () s' := by
  by_cases hd : IsI128 d
  · rw [chkI128_bind hd] at h
    exact ⟨hd, h⟩
  · obtain ⟨a, t, h1, h2⟩ := bind_ok h
    unfold chkI128 at h1
    split at h1
    · rename_i h'; exact absurd h' hd
    · cases h1

theorem pow8 (k : Nat) : (256 : Nat) ^ k = 2 ^ (8 * k) := by
  rw [show (256 : Nat) = 2 ^ 8 from rfl, ← Nat.pow_mul]

theorem twosOctets_of_octets {d : Int} {k : Nat} (hd : 0 ≤ d) (hk : IsOctets d.toNat k)
    (hlt : d < 2 ^ (8 * k - 1)) : IsTwosOctets d k := by
  obtain ⟨h1, h2, h3⟩ := hk
  refine ⟨h1, ⟨by have := Int.pow_pos (n := 2) (m := 8 * k - 1) (by omega); omega, hlt⟩, ?_⟩
  intro j hj hf
  apply h3 j hj
  have h4 := hf.2
  have h5 : (2 : Nat) ^ (8 * j - 1) ≤ 2 ^ (8 * j) := Nat.pow_le_pow_right (by decide) (by omega)
  have h6 := ipow_cast (8 * j - 1)
  rw [pow8]
  omega

theorem twos_nonneg {d : Int} {n : Nat} (h0 : 0 ≤ d) (h : d < 2 ^ n) : twos n d = d.toNat := by
  unfold twos
  rw [Int.emod_eq_of_lt h0 h]

theorem Lays.semiConstrained {lb v : Int}
    (h : ∃ k, IsOctets (v - lb).toNat k ∧ v - lb < 2 ^ (8 * k - 1)) :
    Lays (encodeSemiConstrained lb v) fun p w =>
      ∃ k, IsOctets (v - lb).toNat k ∧ w = Spec.semiConstrained p k (v - lb).toNat := by
  intro s s' hs
  unfold encodeSemiConstrained at hs
  by_cases h1 : v < lb
  · rw [if_pos h1] at hs; cases hs
  · rw [if_neg h1] at hs
    obtain ⟨hd, hs⟩ := chkI128_bind_ok hs
    obtain ⟨k, hk, hlt⟩ := h
    have hk2 := twosOctets_of_octets (by omega) hk hlt
    have he : encodeUnconstrained (v - lb) s = _ := C08_unconstrained_layout none _ hd k hk2 s
    rw [hs] at he
    injection he with _ he
    refine ⟨_, ⟨k, hk, rfl⟩, ?_⟩
    rw [he]
    unfold Spec.unconstrained Spec.semiConstrained
    have h2 : (2 : Nat) ^ (8 * k - 1) ≤ 2 ^ (8 * k) := Nat.pow_le_pow_right (by decide) (by omega)
    have h3 := ipow_cast (8 * k - 1)
    have h4 := ipow_cast (8 * k)
    rw [twos_nonneg (by omega) (by omega)]

theorem Lays.integer {lb ub : Option Int} {v : Int} (h : IntRegular lb ub v) (ext : Bool) :
    Lays (encodeInteger lb ub ext v false) (IntLayout lb ub ext v) := by
  unfold encodeInteger
  simp only [Bool.false_eq_true, if_false]
  cases lb with
  | none =>
    refine ((Lays.extBit ext).bind (.unconstrained h)).mono ?_
    rintro p w ⟨a, b, rfl, hb, rfl⟩
    exact ⟨b, rfl, hb⟩
  | some l =>
    cases ub with
    | none =>
      refine ((Lays.extBit ext).bind (.semiConstrained h)).mono ?_
      rintro p w ⟨a, b, rfl, hb, rfl⟩
      exact ⟨b, rfl, hb⟩
    | some u =>
      refine ((Lays.extBit ext).bind (.constrained h.1 h.2)).mono ?_
      rintro p w ⟨a, b, rfl, hb, rfl⟩
      exact ⟨b, rfl, hb⟩

theorem Lays.enumerated {lb ub : Option Int} {v : Int} (h : IntRegular lb ub v) (ext : Bool) :
    Lays (encodeEnumerated lb ub ext v false) (IntLayout lb ub ext v) := by
  unfold encodeEnumerated
  simp only [Bool.false_eq_true, if_false]
  refine ((Lays.extBit ext).bind (.integer h false)).mono ?_
  rintro p w ⟨a, b, rfl, ⟨c, hc1, hc2⟩, rfl⟩
  refine ⟨c, by rw [hc1]; simp [extRoot], ?_⟩
  simpa [extRoot] using hc2

/-! ## Lengths and strings -/

theorem Lays.length {lb ub : Option Int} (hb : SizeBounds lb ub) (n : Nat) :
    Lays (encodeLength lb ub false n) fun p w => Within lb ub n ∧
      LengthWord (lb.getD 0).toNat (ub.map Int.toNat) p n w ∧
      (lengthAligns lb ub = true → (p + w.length) % 8 = 0) := by
  intro s s' hs
  by_cases ha : Within lb ub n ∧ Expressible ub n
  · obtain ⟨w, hw, he⟩ := C35_length_layout lb ub hb n s ha.1 ha.2
    have he' := he
    rw [hs] at he'
    injection he' with _ he'
    refine ⟨w, ⟨ha.1, hw, fun hl => ?_⟩, he'⟩
    have := encodeLength_end hl he
    simpa using this
  · obtain ⟨t, ht⟩ := (C10_accepted_lengths lb ub hb n s).2 ha
    rw [hs] at ht
    cases ht

theorem alignment_nil {p : Nat} (h : p % 8 = 0) : alignment p = [] := by
  unfold alignment; simp [h]

/-- A fixed length needs no bits. -/
theorem fixed_length_empty {k : Int} {n p : Nat} {w : List Bool} (h0 : 0 ≤ k) (hk : k < 65536)
    (h : LengthWord ((some k).getD 0).toNat ((some k).map Int.toNat) p n w)
    (hn : (n : Int) = k) : w = [] := by
  unfold LengthWord at h
  simp only [Option.map_some, Option.getD_some] at h
  rw [if_pos (by omega)] at h
  unfold ConstrainedWord at h
  rw [if_pos (by omega)] at h
  obtain ⟨b, hb, rfl⟩ := h
  have : b = 0 := by
    have := hb.2 0 (by simp)
    omega
  subst this
  rfl

theorem content_lays {c : Bool} {l : List Bool} (n : Nat) (hl : n = 0 → l = []) :
    Lays (if 0 < n then (Hampi.alignIf c >>= fun _ => appendBits l) else Pure.pure ()) fun p w =>
      w = if n = 0 then [] else (if c then alignment p else []) ++ l := by
  split
  · refine ((Lays.alignIf c).bind (.append l)).mono ?_
    rintro p w ⟨a, b, ha, hb, hw⟩
    rw [if_neg (show ¬ n = 0 by omega), hw, ha, hb]
  · refine Lays.pure.mono ?_
    rintro p w rfl
    rw [if_pos (by omega)]

/-- The common part of bit and octet strings. -/
theorem string_layout {short : Nat} {lb ub : Option Int} {ext : Bool} {n : Nat} {content : List Bool}
    (h : StringRegular short lb ub n) (hc : n = 0 → content = []) {p : Nat} {l c : List Bool}
    (hw : Within lb ub n)
    (hl : LengthWord (lb.getD 0).toNat (ub.map Int.toNat) (p + (extRoot ext).length) n l)
    (ha : lengthAligns lb ub = true → (p + (extRoot ext).length + l.length) % 8 = 0)
    (hcw : c = if n = 0 then [] else
      (if decide (short < n) then alignment (p + (extRoot ext).length + l.length) else []) ++ content) :
    StringLayout short lb ub ext n content p (extRoot ext ++ (l ++ c)) := by
  by_cases hf : FixedSize lb ub
  · obtain ⟨k, rfl, rfl, hk⟩ := hf
    left
    have h1 := hw.1 k rfl
    have h2 := hw.2 k rfl
    have h0 := (h.1.1 k rfl).1
    have := fixed_length_empty h0 hk hl (by omega)
    subst this
    refine ⟨k, rfl, rfl, hk, ?_⟩
    subst hcw
    simp only [List.nil_append, List.length_nil, Nat.add_zero]
    by_cases hn : n = 0
    · rw [if_pos hn, hc hn, if_pos (by omega)]
    · rw [if_neg hn]
      by_cases hs : short < n
      · rw [if_neg (show ¬ k ≤ (short : Int) by omega)]
        simp [hs]
      · rw [if_pos (show k ≤ (short : Int) by omega)]
        simp [hs]
  · right
    refine ⟨hf, l, hl, ?_⟩
    subst hcw
    rw [List.append_assoc]
    congr 2
    split
    · rfl
    · congr 1
      rcases h.2 with h | h | h | h
      · exact absurd h hf
      · have := alignment_nil (ha h)
        rw [this]; split <;> rfl
      · simp [show short < n by omega]
      · omega

theorem Lays.bitstring {lb ub : Option Int} {v : List Bool} (h : StringRegular 16 lb ub v.length)
    (ext : Bool) :
    Lays (encodeBitstring lb ub ext v false) (StringLayout 16 lb ub ext v.length v) := by
  unfold encodeBitstring
  simp only [Bool.false_eq_true, if_false]
  by_cases hbig : 16384 ≤ v.length
  · rw [if_pos hbig]
    exact ((Lays.extBit ext).bind (L2 := fun _ _ => False) .fail).mono fun p w ⟨_, _, _, h, _⟩ => h.elim
  · rw [if_neg hbig]
    refine ((Lays.extBit ext).bind ((Lays.length h.1 v.length).bind
      (content_lays v.length (by intro h; exact List.length_eq_zero_iff.mp h)))).mono ?_
    rintro p w ⟨a, b, rfl, ⟨l, c, ⟨hw, hl, ha⟩, hcw, rfl⟩, rfl⟩
    exact string_layout (short := 16) h (by intro h; exact List.length_eq_zero_iff.mp h) hw hl ha hcw

theorem Lays.octetstring {lb ub : Option Int} {v : List UInt8} (h : StringRegular 2 lb ub v.length)
    (ext : Bool) :
    Lays (encodeOctetstring lb ub ext v false) (StringLayout 2 lb ub ext v.length (octetBits v)) := by
  have hc : v.length = 0 → octetBits v = [] := by
    intro h; rw [List.length_eq_zero_iff.mp h]; rfl
  unfold encodeOctetstring
  simp only [Bool.false_eq_true, if_false]
  rw [← octetBits_eq]
  by_cases hbig : 16384 ≤ v.length
  · rw [if_pos hbig]
    exact ((Lays.extBit ext).bind (L2 := fun _ _ => False) .fail).mono fun p w ⟨_, _, _, h, _⟩ => h.elim
  · rw [if_neg hbig]
    refine ((Lays.extBit ext).bind ((Lays.length h.1 v.length).bind
      (content_lays v.length hc))).mono ?_
    rintro p w ⟨a, b, rfl, ⟨l, c, ⟨hw, hl, ha⟩, hcw, rfl⟩, rfl⟩
    exact string_layout (short := 2) h hc hw hl ha hcw

theorem string_lays {lb ub : Option Int} {v : String} (hb : SizeBounds lb ub) (ext : Bool) :
    Lays (encodeString lb ub ext v false) fun p w =>
      ∃ l c, Within lb ub (utf8 v).length ∧
        LengthWord (lb.getD 0).toNat (ub.map Int.toNat) (p + (extRoot ext).length) (utf8 v).length l ∧
        (lengthAligns lb ub = true → (p + (extRoot ext).length + l.length) % 8 = 0) ∧
        c = (if decide (2 < (utf8 v).length) then alignment (p + (extRoot ext).length + l.length)
          else []) ++ octetBits (utf8 v) ∧ w = extRoot ext ++ (l ++ c) := by
  unfold encodeString
  simp only [Bool.false_eq_true, if_false]
  rw [← octetBits_eq]
  refine ((Lays.extBit ext).bind ((Lays.length hb _).bind
    ((Lays.alignIf _).bind (.append _)))).mono ?_
  rintro p w ⟨a, b, rfl, ⟨l, c, ⟨hw, hl, ha⟩, ⟨d, e, rfl, rfl, rfl⟩, rfl⟩, rfl⟩
  exact ⟨l, _, hw, hl, ha, rfl, rfl⟩

theorem Lays.utf8String {lb ub : Option Int} {v : String} {ext : Bool}
    (h : CharRegular .utf8 lb ub ext (utf8 v).length) :
    Lays (encodeString lb ub ext v false) (Utf8Layout (utf8 v).length (octetBits (utf8 v))) := by
  obtain ⟨hb, rfl, hu⟩ := h
  refine (string_lays hb false).mono ?_
  rintro p w ⟨l, c, hw, hl, ha, rfl, rfl⟩
  have hla : lengthAligns lb ub = true := by
    unfold lengthAligns
    cases ub with
    | none => rfl
    | some u => have := hu u rfl; simp [this]
  have hgl : l = generalLength p (utf8 v).length := by
    unfold LengthWord at hl
    simp only [extRoot, Bool.false_eq_true, if_false, List.length_nil, Nat.add_zero] at hl
    cases ub with
    | none => exact hl
    | some u =>
      have := hu u rfl
      have := (hb.2 u rfl).1
      simp only [Option.map_some] at hl
      rw [if_neg (by omega)] at hl
      exact hl
  have hal := alignment_nil (ha hla)
  rw [hal]
  unfold Utf8Layout
  subst hgl
  simp [extRoot]

theorem Lays.charString {lb ub : Option Int} {v : String} {ext : Bool}
    (hb : SizeBounds lb ub)
    (h : FixedSize lb ub ∨ lengthAligns lb ub = true ∨ 2 < (utf8 v).length ∨ (utf8 v).length = 0 ∨
      ∃ u, ub = some u ∧ u ≤ 1) :
    Lays (encodeString lb ub ext v false) (CharLayout lb ub ext (utf8 v).length (octetBits (utf8 v))) := by
  refine (string_lays hb ext).mono ?_
  rintro p w ⟨l, c, hw, hl, ha, rfl, rfl⟩
  have hc : (utf8 v).length = 0 → octetBits (utf8 v) = [] := by
    intro h; rw [List.length_eq_zero_iff.mp h]; rfl
  generalize (utf8 v).length = n at *
  generalize octetBits (utf8 v) = content at *
  by_cases hf : FixedSize lb ub
  · obtain ⟨k, rfl, rfl, hk⟩ := hf
    left
    have h1 := hw.1 k rfl
    have h2 := hw.2 k rfl
    have h0 := (hb.1 k rfl).1
    have := fixed_length_empty h0 hk hl (by omega)
    subst this
    refine ⟨k, rfl, rfl, hk, ?_⟩
    simp only [List.nil_append, List.length_nil, Nat.add_zero]
    by_cases hs : 2 < n
    · rw [if_neg (show ¬ k ≤ (2 : Int) by omega)]
      simp [hs]
    · rw [if_pos (show k ≤ (2 : Int) by omega)]
      simp [hs]
  · right
    refine ⟨hf, l, hl, ?_⟩
    rw [List.append_assoc]
    congr 2
    by_cases h0 : n = 0 ∨ ∃ u, ub = some u ∧ u ≤ 1
    · rw [if_pos h0]
      have : ¬ 2 < n := by
        rcases h0 with h0 | ⟨u, rfl, hu⟩
        · omega
        · have := hw.2 u rfl; omega
      simp [this]
    · rw [if_neg h0]
      rcases h with h | h | h | h | h
      · exact absurd h hf
      · rw [alignment_nil (ha h)]; split <;> rfl
      · simp [h]
      · exact absurd (Or.inl h) h0
      · exact absurd (Or.inr h) h0

/-! ## Presence bits -/

theorem mark_range : (fs : Fields) → (v : fs.Val) → (i n : Nat) → (pre : List Bool) → pre.length = i →
    fs.indexes = List.range' i n →
    fs.mark v (pre ++ List.replicate n false) = some (pre ++ fs.presenceBits v) ∧
      (fs.presenceBits v).length = n
  | .nil, _, i, n, pre, hp, h => by
      have : n = 0 := by
        simp only [Fields.indexes] at h
        have := congrArg List.length h
        simpa using this.symm
      subst this
      simp [Fields.mark, Fields.presenceBits]
  | .required _ _ rest, v, i, n, pre, hp, h => by
      have := mark_range rest v.2 i n pre hp h
      simpa [Fields.mark, Fields.presenceBits] using this
  | .optional j _ rest, v, i, n, pre, hp, h => by
      cases n with
      | zero => simp [Fields.indexes] at h
      | succ n =>
        simp only [Fields.indexes, List.range'_succ, List.cons.injEq] at h
        obtain ⟨rfl, h⟩ := h
        obtain ⟨o, v⟩ := v
        cases o with
        | none =>
          have := mark_range rest v (j + 1) n (pre ++ [false]) (by simp [hp]) h
          simp only [Fields.mark, Fields.presenceBits, Option.isSome_none, List.length_cons]
          rw [List.replicate_succ]
          have e1 : pre ++ false :: List.replicate n false = pre ++ [false] ++ List.replicate n false := by
            simp
          rw [e1, this.1]
          exact ⟨by simp, by rw [this.2]⟩
        | some x =>
          have := mark_range rest v (j + 1) n (pre ++ [true]) (by simp [hp]) h
          simp only [Fields.mark, Fields.presenceBits, Option.isSome_some, List.length_cons]
          have e1 : (pre ++ List.replicate (n + 1) false).set j true =
              pre ++ [true] ++ List.replicate n false := by
            rw [List.replicate_succ, List.set_append_right _ _ (by omega)]
            simp [hp]
          rw [if_pos (by simp; omega), e1, this.1]
          exact ⟨by simp, by rw [this.2]⟩

theorem Lays.header {fs : Fields} {v : fs.Val} {n : Nat} (h : fs.indexes = List.range n) (ext : Bool) :
    Lays (encodeHeader fs v ext n) fun _ w => w = extRoot ext ++ fs.presenceBits v := by
  unfold encodeHeader
  have := (mark_range fs v 0 n [] rfl (by rw [h, List.range_eq_range'])).1
  simp only [List.nil_append] at this
  rw [this]
  simp only [encodeSequenceHeader, Bool.false_eq_true, if_false]
  refine ((Lays.extBit ext).bind (.append _)).mono ?_
  rintro p w ⟨a, b, rfl, rfl, rfl⟩
  rfl

/-! ## Lists and open types -/

theorem Lays.all {α : Type} {enc : α → M Unit} {L : α → Nat → List Bool → Prop} : (l : List α) →
    (∀ x ∈ l, Lays (enc x) (L x)) → Lays (encodeAll enc l) (ListLayout L l)
  | [], _ => .pure
  | x :: xs, h => ((h x (by simp)).bind (Lays.all xs fun y hy => h y (List.mem_cons_of_mem _ hy))).mono
      fun _ _ h => h

theorem ignoreErr_eq {m : M Unit} (hok : ∀ s, ∃ s', m s = .ok () s') : M.ignoreErr m = m := by
  funext s
  unfold M.ignoreErr
  obtain ⟨s', h⟩ := hok s
  rw [h]

theorem Lays.open {payload : M Unit} {L : Nat → List Bool → Prop} (h : Lays payload L) :
    Lays (encodeOpen payload) fun p w => ∃ content, L 0 content ∧ OpenLayout content p w := by
  intro s s' hs
  unfold encodeOpen at hs
  cases hp : payload Codec.new with
  | err _ => rw [hp] at hs; cases hs
  | panic => rw [hp] at hs; cases hs
  | ok u inner =>
    rw [hp] at hs
    obtain ⟨w, hw, rfl⟩ := h _ _ hp
    simp only [Codec.new, List.nil_append, List.length_nil] at hs hw
    by_cases h0 : w.length = 0
    · unfold lengthInBytes at hs
      simp only [h0, if_true] at hs
      cases hs
    · have hl : lengthInBytes ⟨w, 0, none⟩ = .ok ((w.length - 1) / 8 + 1) ⟨w, 0, none⟩ := by
        unfold lengthInBytes; exact if_neg h0
      rw [hl] at hs
      dsimp only at hs
      have hlen := Lays.length (lb := none) (ub := none) ⟨by simp, by simp⟩ ((w.length - 1) / 8 + 1)
      have happ : Lays (appendAligned ⟨w, 0, none⟩) fun p x => x = alignment p ++ (w ++ alignment w.length) := by
        unfold appendAligned
        rw [Writes.align w.length ⟨w, 0, none⟩ rfl]
        exact ((Lays.of fun p => ⟨_, .align p, rfl⟩ : Lays align fun p x => x = alignment p).bind
          (.append _)).mono (by rintro p x ⟨a, b, rfl, rfl, rfl⟩; rfl)
      obtain ⟨x, ⟨a, b, ⟨-, ha, hal⟩, hb, rfl⟩, hx⟩ := (hlen.bind (g := fun _ => appendAligned ⟨w, 0, none⟩) happ) s s' hs
      refine ⟨_, ⟨w, hw, ?_⟩, hx⟩
      have hne : w ≠ [] := by intro h; rw [h] at h0; exact h0 rfl
      have := hal rfl
      unfold OpenLayout
      simp only [if_neg hne]
      have hnum : (w ++ alignment w.length).length / 8 = (w.length - 1) / 8 + 1 := by
        simp only [List.length_append, alignment, List.length_replicate]
        omega
      rw [hnum, hb, alignment_nil this]
      have ha' : a = generalLength s.bits.length ((w.length - 1) / 8 + 1) := ha
      rw [ha']
      rfl

/-! ## All types -/

mutual

theorem Ty.lays : (t : Ty) → (v : t.Val) → t.Regular v → Lays (t.encode v) (t.Layout v)
  | .boolean, v, _ => .of fun p => ⟨_, .push p v, rfl⟩
  | .null, _, _ => .pure
  | .integer _ _ _ ext, _, h => .integer h ext
  | .enumerated _ _ _ ext, _, h => .enumerated h ext
  | .bitstring _ _ ext, _, h => .bitstring h ext
  | .octetstring _ _ ext, _, h => .octetstring h ext
  | .charstring .utf8 _ _ _, _, h => .utf8String h
  | .charstring .printable _ _ _, _, h => .charString h.1 h.2
  | .charstring .visible _ _ _, _, h => .charString h.1 h.2
  | .objectIdentifier, _, _ => .fail
  | .sequence ext n fs, v, h => by
      refine ((Lays.header h.1 ext).bind (Fields.lays fs v h.2)).mono ?_
      rintro p w ⟨a, b, rfl, hb, rfl⟩
      exact ⟨b, by simpa [Nat.add_assoc] using hb, rfl⟩
  | .sequenceOf lb ub ext e, v, h => by
      obtain ⟨rfl, hs, he⟩ := h
      have hok : M.ignoreErr (encodeLength lb ub false (List.length v)) =
          encodeLength lb ub false (List.length v) := ignoreErr_eq fun s => encodeLength_sizeOk hs s
      have := (Lays.length hs.1 (List.length v)).bind (g := fun _ => encodeAll e.encode v)
        (Lays.all (L := e.Layout) v fun x hx => Ty.lays e x (he x hx))
      rw [← hok] at this
      refine this.mono ?_
      rintro p w ⟨a, b, ⟨-, ha, -⟩, hb, rfl⟩
      exact ⟨a, b, by simpa [extRoot] using ha, by simpa [extRoot] using hb, by simp [extRoot]⟩
  | .choice lb ub ext as, v, h => by
      show Lays (encodeChoiceIdx lb ub ext (as.keyOf v) (as.extendedOf v) >>= fun _ => as.encode v) _
      cases hx : as.extendedOf v with
      | true =>
        intro s s' hs
        obtain ⟨_, _, h1, _⟩ := bind_ok hs
        cases h1
      | false =>
        unfold encodeChoiceIdx
        simp only [Bool.false_eq_true, if_false]
        have hi : Lays (encodeInteger (some lb) (some ub) false (as.keyOf v) false) _ :=
          .integer (lb := some lb) (ub := some ub) (v := as.keyOf v)
            ⟨by have := h.1; omega, by have := h.1; omega⟩ false
        refine (((Lays.extBit ext).bind hi).bind (g := fun _ => as.encode v)
          (Alts.lays as v h.2)).mono ?_
        rintro p w ⟨a, b, ⟨c, d, rfl, ⟨i, hd, hi⟩, rfl⟩, hb, rfl⟩
        simp only [extRoot, Bool.false_eq_true, if_false, List.nil_append, List.length_nil,
          Nat.add_zero] at hd hi
        subst hd
        exact ⟨hx, d, b, hi, by simpa [Nat.add_assoc] using hb, rfl⟩
  | .openType as, v, h => .open (Alts.lays as v h)

theorem Fields.lays : (fs : Fields) → (v : fs.Val) → fs.Regular v → Lays (fs.encode v) (fs.Layout v)
  | .nil, _, _ => .pure
  | .required _ t rest, v, h => ((Ty.lays t v.1 h.1).bind (Fields.lays rest v.2 h.2)).mono
      fun _ _ h => h
  | .optional _ t rest, (some x, vs), h => ((Ty.lays t x h.1).bind (Fields.lays rest vs h.2)).mono
      fun _ _ h => h
  | .optional _ t rest, (none, vs), h => (Lays.pure.bind (Fields.lays rest vs h.2)).mono
      fun _ _ h => h

theorem Alts.lays : (as : Alts) → (v : as.Val) → as.Regular v → Lays (as.encode v) (as.Layout v)
  | .cons _ _ t _, .inl v, h => Ty.lays t v h
  | .cons _ _ _ rest, .inr v, h => Alts.lays rest v h

end

end Hampi
