import Verif.Props.Frame
import Verif.Props.Strings
import Verif.Spec.Hostile
/-!
# C24, C25: panics
-/
namespace Hampi

open Spec (SizeBounds)

variable {α β : Type}

/-- The buffer holds whole octets and the position is inside it. -/
def OctetBuffer (s : Codec) : Prop := s.off ≤ s.bits.length ∧ s.bits.length % 8 = 0

/-- No panic on octet buffers. -/
def Safe (m : M α) : Prop := ∀ s, OctetBuffer s → m s ≠ .panic

namespace Safe

theorem pure (a : α) : Safe (pure a : M α) := by intro s _ h; cases h
theorem fail : Safe (M.fail : M α) := by intro s _ h; cases h

theorem after {m : M α} (hd : IsDec m) {s s' : Codec} (hs : OctetBuffer s) {a : α}
    (h : m s = .ok a s') : OctetBuffer s' := by
  have := hd.reader.frame s
  rw [h] at this
  obtain ⟨h1, -, h3⟩ := this
  unfold OctetBuffer at *
  rw [h1]
  exact ⟨h3 hs.1, hs.2⟩

theorem bind' {m : M α} {g : α → M β} (hd : IsDec m) (hm : Safe m)
    (hg : ∀ a s s', m s = .ok a s' → Safe (g a)) : Safe (m >>= g) := by
  intro s hs h
  rw [M.bind_apply] at h
  cases hr : m s with
  | ok a t => rw [hr] at h; exact hg a _ _ hr t (after hd hs hr) h
  | err t => rw [hr] at h; cases h
  | panic => exact hm s hs hr

theorem bind {m : M α} {g : α → M β} (hd : IsDec m) (hm : Safe m) (hg : ∀ a, Safe (g a)) :
    Safe (m >>= g) := bind' hd hm fun a _ _ _ => hg a

theorem ite {c : Prop} [Decidable c] {a b : M α} (ha : c → Safe a) (hb : ¬ c → Safe b) :
    Safe (if c then a else b) := by
  split
  · next h => exact ha h
  · next h => exact hb h

theorem chkI128 {v : Int} (h : IsI128 v) : Safe (chkI128 v) := by
  unfold Hampi.chkI128; rw [if_pos h]; exact pure _

theorem takeBits (n : Nat) : Safe (takeBits n) := by
  intro s hs h
  unfold Hampi.takeBits at h
  rw [if_neg (by have := hs.1; omega)] at h
  split at h <;> cases h

theorem align : Safe decodeAlign := by
  intro s hs h
  unfold decodeAlign at h
  obtain ⟨h1, h2⟩ := hs
  split at h
  · cases h
  · dsimp only at h
    rw [if_neg (by omega)] at h
    split at h <;> cases h

theorem alignIf (c : Bool) : Safe (decodeAlignIf c) := by
  unfold decodeAlignIf; exact ite (fun _ => align) (fun _ => pure _)

theorem boolM : Safe decodeBoolM := by
  rw [decodeBoolM_eq]; exact bind (.takeBits 1) (takeBits 1) fun _ => pure _

theorem bitvec (n : Nat) : Safe (getBitvec n) := by rw [getBitvec_eq]; exact takeBits n

theorem bytes (n : Nat) : Safe (getBytes n) := by
  rw [getBytes_eq]; exact bind (.takeBits _) (takeBits _) fun _ => pure _

theorem unsigned {n : Nat} (h : n ≤ 128) : Safe (decodeBitsAsInteger n false) := by
  rw [decodeBitsAsInteger_unsigned, if_pos h]
  exact bind (.takeBits _) (takeBits _) fun _ => pure _

theorem signed (n : Nat) : Safe (decodeBitsAsInteger n true) := by
  rw [decodeBitsAsInteger_signed]
  intro s hs h
  dsimp only at h
  split at h
  · exact bind (.takeBits n) (takeBits n) (fun l => pure (signExtend n (bitsToNat l))) s hs h
  · rw [if_neg (by have := hs.1; omega)] at h
    cases h

theorem indefinite : Safe decodeIndefiniteLength := by
  unfold decodeIndefiniteLength
  refine bind .align align fun _ => bind .boolM boolM fun b => ite (fun _ => ?_) fun _ =>
    bind .boolM boolM fun c => ite (fun _ => ?_) fun _ => ?_
  · exact bind (.bitsAsInteger _ _) (unsigned (by omega)) fun _ => pure _
  · exact bind (.bitsAsInteger _ _) (unsigned (by omega)) fun _ => pure _
  · exact bind (.bitsAsInteger _ _) (unsigned (by omega)) fun _ =>
      ite (fun _ => fail) fun _ => pure _

end Safe

/-! ## Constrained numbers -/

/-- The number read by a field of a range up to 65536 is below 65536. -/
theorem decodeField_small_range {large : Int → M Int} {R : Int} (hR : R ≤ 65536) {s s' : Codec}
    {a : Int} (h : decodeConstrainedField large R s = .ok a s') :
    0 ≤ a ∧ (R < 256 → a < 2 ^ decFieldBits R) ∧ a < 65536 := by
  unfold decodeConstrainedField at h
  by_cases h1 : R < 256
  · rw [if_pos h1] at h
    have h8 := decFieldBits_le R
    have := bitsAsInteger_range (by omega) h
    have h3 : (2 : Nat) ^ decFieldBits R ≤ 2 ^ 8 := pow_le_iff.mpr h8
    have := ipow_cast (decFieldBits R)
    exact ⟨by omega, fun _ => by omega, by omega⟩
  · rw [if_neg h1] at h
    refine ⟨?_, fun h => absurd h h1, ?_⟩
    all_goals
      split at h
      · obtain ⟨_, t, -, h2⟩ := bind_ok h
        have := bitsAsInteger_range (by omega) h2
        omega
      · obtain ⟨_, t, -, h2⟩ := bind_ok h
        have := bitsAsInteger_range (by omega) h2
        omega

theorem IsDec.constrainedField {large : Int → M Int} (h : ∀ a, IsDec (large a)) (R : Int) :
    IsDec (decodeConstrainedField large R) := by
  unfold decodeConstrainedField
  exact .ite (.bitsAsInteger _ _) (.ite (.bind .align fun _ => .bitsAsInteger _ _)
    (.ite (.bind .align fun _ => .bitsAsInteger _ _) (h _)))

theorem Safe.constrainedField {large : Int → M Int} {R : Int}
    (h : 65536 < R → Safe (large R)) : Safe (decodeConstrainedField large R) := by
  unfold decodeConstrainedField
  refine .ite (fun _ => .unsigned ?_) fun _ => .ite (fun _ => .bind .align .align fun _ => .unsigned
    (by omega)) fun _ => .ite (fun _ => .bind .align .align fun _ => .unsigned (by omega))
    fun _ => h (by omega)
  have := decFieldBits_le R
  omega

/-- A length field `1..=n` with at most 8 octets. -/
theorem decodeConstrainedLengthSmall_range {n : Nat} (h1 : 1 ≤ n) (h8 : n ≤ 8) {s s' : Codec} {l : Nat}
    (h : decodeConstrainedLengthSmall 1 n s = .ok l s') : l ≤ 8 := by
  unfold decodeConstrainedLengthSmall at h
  rw [if_neg (by omega), if_pos (by omega)] at h
  obtain ⟨v, t, h2, h3⟩ := bind_ok h
  unfold decodeConstrainedSmall at h2
  rw [decodeConstrainedWith_eq _ (R := n) (by omega) (by omega) (by omega)] at h2
  obtain ⟨a, t2, h4, rfl⟩ := chk_ok h2
  obtain ⟨h5, h6, -⟩ := decodeField_small_range (by omega) h4
  have h7 := h6 (by omega)
  have hd : decFieldBits n ≤ 3 := by
    unfold decFieldBits
    repeat' split
    all_goals omega
  have h9 : (2 : Nat) ^ decFieldBits n ≤ 2 ^ 3 := pow_le_iff.mpr hd
  have := ipow_cast (decFieldBits n)
  cases h3
  unfold asUsize
  omega

theorem Safe.constrainedLengthSmall {n : Nat} (h1 : 1 ≤ n) (h8 : n ≤ 16) :
    Safe (decodeConstrainedLengthSmall 1 n) := by
  unfold decodeConstrainedLengthSmall
  rw [if_neg (by omega), if_pos (by omega)]
  refine .bind (.constrainedSmall _ _) ?_ fun _ => .pure _
  unfold decodeConstrainedSmall
  rw [decodeConstrainedWith_eq _ (R := n) (by omega) (by omega) (by omega)]
  refine .bind' (.constrainedField (fun _ => .panic) _) (.constrainedField fun h => by omega) ?_
  intro a s s' h
  have := decodeField_small_range (by omega) h
  exact .chkI128 (by unfold IsI128; omega)

theorem octets_le_eight {R : Nat} (h : R < 2 ^ 64) : octets R ≤ 8 := by
  apply Decidable.byContradiction
  intro hn
  have h1 : 256 ^ (octets R - 1) ≤ R := octets_ge (by
    apply Decidable.byContradiction
    intro h0
    have : R = 0 := by omega
    rw [this, octets_zero] at hn
    omega)
  have h2 : (256 : Nat) ^ 8 ≤ 256 ^ (octets R - 1) := Nat.pow_le_pow_right (by omega) (by omega)
  omega

theorem Safe.constrained {lb ub : Int} (h : IntSane lb ub) : Safe (decodeConstrained lb ub) := by
  obtain ⟨h1, h2, h3, h4⟩ := h
  unfold decodeConstrained
  by_cases h0 : ub - lb + 1 ≤ 0
  · unfold decodeConstrainedWith
    rw [chkI128_bind (by unfold IsI128; omega), chkI128_bind (by unfold IsI128; omega), if_pos h0]
    exact .fail
  · have hR : (((ub - lb + 1).toNat : Nat) : Int) = ub - lb + 1 := by omega
    generalize (ub - lb + 1).toNat = R at hR
    rw [decodeConstrainedWith_eq _ hR (by omega) (by omega)]
    have hlarge : 65536 < (R : Int) → bytesNeededForRange (R : Int) = octets R ∧ 3 ≤ octets R ∧
        octets R ≤ 8 := by
      intro h
      rw [bytesNeededForRange_eq (by omega) (by omega), Int.toNat_natCast]
      have h5 := octets_range_bounds (R := R) (by omega) (by omega)
      exact ⟨rfl, h5.1, octets_le_eight (by omega)⟩
    refine .bind' (.constrainedField (fun a => .bind (.constrainedLengthSmall _ _) fun _ =>
      .bind .align fun _ => .bitsAsInteger _ _) _) (.constrainedField fun h => ?_) ?_
    · obtain ⟨e, h5, h6⟩ := hlarge h
      rw [e]
      refine .bind' (.constrainedLengthSmall _ _) (.constrainedLengthSmall (by omega) (by omega)) ?_
      intro l s s' hl
      have := decodeConstrainedLengthSmall_range (by omega) h6 hl
      exact .bind .align .align fun _ => .unsigned (by omega)
    · intro a s s' ha
      have hr : 0 ≤ a ∧ a < 2 ^ 64 := by
        by_cases hs : (R : Int) ≤ 65536
        · have := decodeField_small_range hs ha
          omega
        · obtain ⟨e, h5, h6⟩ := hlarge (by omega)
          unfold decodeConstrainedField at ha
          rw [if_neg (by omega), if_neg (by omega), if_neg (by omega)] at ha
          dsimp only at ha
          rw [e] at ha
          obtain ⟨l, t, hl, ha⟩ := bind_ok ha
          obtain ⟨_, t2, -, ha⟩ := bind_ok ha
          have hl8 := decodeConstrainedLengthSmall_range (by omega) h6 hl
          have := bitsAsInteger_range (by omega) ha
          have hp : (2 : Nat) ^ (l * 8) ≤ 2 ^ 64 := pow_le_iff.mpr (by omega)
          have := ipow_cast (l * 8)
          omega
      exact .chkI128 (by unfold IsI128; omega)

/-! ## Lengths and strings -/

theorem Safe.constrainedLength {l u : Nat} (h : l ≤ u) (hu : u < 65536) :
    Safe (decodeConstrainedLength l u) := by
  unfold decodeConstrainedLength
  rw [if_neg (by omega), if_pos (by omega)]
  exact .bind (.constrained _ _) (.constrained ⟨by omega, by omega, by omega, by omega⟩)
    fun _ => .pure _

theorem Safe.toUsizeOrPanic {v : Int} (h : 0 ≤ v ∧ v < 2 ^ 64) : Safe (toUsizeOrPanic v) := by
  unfold Hampi.toUsizeOrPanic; rw [if_pos h]; exact .pure _

theorem Safe.normallySmallLength : Safe decodeNormallySmallLength := by
  unfold decodeNormallySmallLength
  exact .bind .boolM .boolM fun _ => .ite (fun _ => .bind (.bitsAsInteger _ _)
    (.unsigned (by omega)) fun _ => .pure _) fun _ => .indefinite

theorem Safe.length {lb ub : Option Int} {ns : Bool} (h : ns = true ∨ SizeSane lb ub) :
    Safe (decodeLength lb ub ns) := by
  unfold decodeLength
  refine .ite (fun _ => .normallySmallLength) fun hns => ?_
  obtain ⟨hb, hle⟩ : SizeSane lb ub := h.resolve_left hns
  rw [lengthLowerBound_eq hb, M.pure_bind']
  cases ub with
  | none => exact .indefinite
  | some u =>
    have hu := hb.2 u rfl
    dsimp only
    have e : Hampi.toUsizeOrPanic u = Pure.pure u.toNat := by
      unfold Hampi.toUsizeOrPanic; rw [if_pos hu]
    rw [e, M.pure_bind']
    refine .ite (fun h1 => .ite (fun _ => .pure _) fun _ => .constrainedLength ?_ h1)
      fun _ => .indefinite
    cases lb with
    | none => simp
    | some l =>
      have := hle l u rfl rfl
      have := hb.1 l rfl
      show l.toNat ≤ u.toNat
      omega

theorem Safe.stringLength {lb ub : Option Int} (h : SizeSane lb ub) (x : Bool) :
    Safe (decodeStringLength x lb ub) := by
  unfold decodeStringLength
  refine .ite (fun _ => .length (.inr ⟨⟨?_, ?_⟩, ?_⟩)) fun _ => .length (.inr h)
  · intro l h; cases h
  · intro l h; cases h
  · intro l u h; cases h

theorem Safe.chunk {f : Nat → M (List α)} (hs : ∀ n, Safe (f n)) (n l : Nat) :
    Safe (decodeChunk n f l) := by
  unfold decodeChunk
  exact .ite (fun _ => .bind (.alignIf _) (.alignIf _) fun _ => hs _) fun _ => .pure _

theorem fragLoop_safe {len : M Nat} (hl : IsDec len) (hls : Safe len) (n : Nat)
    {f : Nat → M (List α)} (hf : Consumes f) (hd : ∀ n, IsDec (f n)) (hs : ∀ n, Safe (f n)) :
    ∀ (fuel : Nat) (acc : List α) (s : Codec), OctetBuffer s → s.bits.length - s.off < fuel →
      Hampi.fragLoop len n f fuel acc s ≠ .panic := by
  intro fuel
  induction fuel with
  | zero => intro acc s _ h; omega
  | succ fuel ih =>
    intro acc s hb hfu h
    simp only [Hampi.fragLoop] at h
    rw [M.bind_apply] at h
    cases hr : len s with
    | panic => exact hls s hb hr
    | err t => rw [hr] at h; cases h
    | ok l t =>
      rw [hr] at h
      have hb1 := Safe.after hl hb hr
      have hf1 := hl.reader.frame s
      rw [hr] at hf1
      dsimp only at h
      rw [M.bind_apply] at h
      cases hr2 : decodeChunk n f l t with
      | panic => exact Safe.chunk hs n l t hb1 hr2
      | err t => rw [hr2] at h; cases h
      | ok c t2 =>
        rw [hr2] at h
        have hb2 := Safe.after (.chunk n hd l) hb1 hr2
        have hf2 := (IsDec.chunk n hd l).reader.frame t
        rw [hr2] at hf2
        dsimp only at h
        rw [M.ite_apply] at h
        split at h
        · have hc := decodeChunk_consumes hf (by omega) hr2
          refine ih _ t2 hb2 ?_ h
          have e1 := hf1.1
          have e2 := hf2.1
          have e3 := hf1.2.1
          rw [e2, e1]
          rw [e1] at hc
          omega
        · cases h

theorem Safe.fragments {len : M Nat} (hl : IsDec len) (hls : Safe len) (n : Nat)
    {f : Nat → M (List α)} (hf : Consumes f) (hd : ∀ n, IsDec (f n)) (hs : ∀ n, Safe (f n)) :
    Safe (decodeFragments len n f) := by
  intro s hb
  exact fragLoop_safe hl hls n hf hd hs _ [] s hb (by omega)

theorem Safe.bitvecStored (n : Nat) : Safe (getBitvecStored n) := by
  intro s hs h
  rw [getBitvecStored_apply] at h
  cases hr : Hampi.takeBits n s with
  | ok l t => rw [hr] at h; cases h
  | err t => rw [hr] at h; cases h
  | panic => exact Safe.takeBits n s hs hr

theorem Safe.extBit (e : Bool) : Safe (decodeExtBit e) := by
  unfold decodeExtBit; exact .ite (fun _ => .boolM) fun _ => .pure _

theorem Safe.string {lb ub : Option Int} (h : SizeSane lb ub) (e : Bool) :
    Safe (decodeString lb ub e) := by
  unfold decodeString
  refine .bind (.extBit e) (.extBit e) fun x => .bind (.stringLength x lb ub) (.stringLength h x)
    fun n => .bind (.alignIf _) (.alignIf _) fun _ => .bind (.bitvecStored _) (.bitvecStored _)
    fun b => ?_
  unfold decodeText
  cases fromUtf8 (loadChunks b.1 b.2) with
  | none => exact .fail
  | some v => exact .pure _

theorem Safe.unconstrained : Safe decodeUnconstrained := by
  rw [decodeUnconstrained_eq]
  exact .bind .indefinite .indefinite fun _ => .signed _

theorem Safe.integer {lb ub : Option Int} (h : ∀ l, lb = some l → ∃ u, ub = some u ∧ IntSane l u)
    (e : Bool) : Safe (decodeInteger lb ub e) := by
  unfold decodeInteger
  refine .bind (.extBit e) (.extBit e) fun x => .bind (.integerValue lb ub x) ?_ fun _ => .pure _
  unfold decodeIntegerValue
  refine .ite (fun _ => .unconstrained) fun _ => ?_
  cases lb with
  | none => exact .unconstrained
  | some l =>
    obtain ⟨u, rfl, hs⟩ := h l rfl
    exact .constrained hs

/-- Parameters for which decoding is claimed not to panic. Excluded: semi-constrained integers,
extensible ENUMERATED and CHOICE, integers of 2^64 or more values, sizes out of order. -/
def Kind.DecSane : Kind → Prop
  | .integer lb ub _ => ∀ l, lb = some l → ∃ u, ub = some u ∧ IntSane l u
  | .enumerated lb ub e => e = false ∧ ∀ l, lb = some l → ∃ u, ub = some u ∧ IntSane l u
  | .choiceIdx lb ub e => e = false ∧ IntSane lb ub
  | .sequenceHeader .. | .bool => True
  | .bitstring lb ub _ | .octetstring lb ub _ => SizeSane lb ub
  | .visibleString lb ub _ | .printableString lb ub _ | .utf8String lb ub _ => SizeSane lb ub
  | .length lb ub ns => ns = true ∨ SizeSane lb ub

/-- **C24 (partial).** Full statement: on a buffer made of octets no decode function panics, whatever
the octets. Proved: for the parameters of `Kind.DecSane`. Missing, because false: semi-constrained
integers, extended ENUMERATED and CHOICE, and integers of 2^64 or more values, see the three
violations below. -/
theorem C24_no_decode_panic_partial (k : Kind) (hk : k.DecSane) (octets : List UInt8)
    (position : Nat) (hp : position ≤ 8 * octets.length) (key : Option Int) :
    k.decode ⟨bytesBits octets, position, key⟩ ≠ .panic := by
  have hb : OctetBuffer ⟨bytesBits octets, position, key⟩ := by
    unfold OctetBuffer; simp; exact hp
  revert hb
  generalize (⟨bytesBits octets, position, key⟩ : Codec) = s
  revert s
  show Safe k.decode
  cases k with
  | integer lb ub e => exact .integer hk e
  | enumerated lb ub e =>
    obtain ⟨rfl, hk⟩ := hk
    exact Safe.bind (m := decodeInteger lb ub false >>= fun d => (Pure.pure d.1 : M Int))
      (g := fun d => (Pure.pure (d, false) : M (Int × Bool)))
      (.bind (.integer lb ub false) fun _ => .pure _)
      (.bind (.integer lb ub false) (.integer hk false) fun d => .pure d.1)
      fun d => .pure (d, false)
  | choiceIdx lb ub e =>
    obtain ⟨rfl, hk⟩ := hk
    exact .bind (.integer _ _ _) (.integer (fun l h => by cases h; exact ⟨ub, rfl, hk⟩) _)
      fun _ => .pure _
  | sequenceHeader e n =>
    exact .bind (.extBit e) (.extBit e) fun _ => .bind
      (by unfold decodeBitmap; exact .ite (.bitvec _) (.pure _))
      (by unfold decodeBitmap; exact .ite (fun _ => .bitvec _) fun _ => .pure _) fun _ => .pure _
  | bool => exact .boolM
  | bitstring lb ub e =>
    exact .bind (.extBit e) (.extBit e) fun x => .fragments (.stringLength x lb ub)
      (.stringLength hk x) 16 getBitvec_consumes .bitvec .bitvec
  | octetstring lb ub e =>
    exact .bind (.extBit e) (.extBit e) fun x => .fragments (.stringLength x lb ub)
      (.stringLength hk x) 2 getBytes_consumes .bytes .bytes
  | visibleString lb ub e => exact .string hk e
  | printableString lb ub e => exact .string hk e
  | utf8String lb ub e => exact .string hk e
  | length lb ub ns => exact .length hk

example : (Kind.integer (some (-5)) (some 1000000) true).DecSane := by
  intro l h; cases h; exact ⟨_, rfl, by unfold IntSane; omega⟩
example : (Kind.octetstring (some 1) none true).DecSane := by
  refine ⟨⟨?_, ?_⟩, ?_⟩ <;> intro l h <;> cases h <;> simp

set_option maxRecDepth 4000 in
/-- **C24 is violated**: 18 octets make the decoder of every semi-constrained INTEGER panic. -/
theorem C24_semi_constrained_violated (lb : Int) :
    decodeInteger (some lb) none false (Codec.fromSlice (17 :: List.replicate 17 0)) = .panic := rfl

set_option maxRecDepth 4000 in
/-- **C24 is violated**: 20 octets make the decoder of every extensible ENUMERATED and CHOICE
panic. -/
theorem C24_extension_index_violated (lb ub : Int) :
    decodeEnumerated (some lb) (some ub) true
      (Codec.fromSlice (0xC0 :: 17 :: List.replicate 17 0)) = .panic ∧
    decodeChoiceIdx lb ub true (Codec.fromSlice (0xC0 :: 17 :: List.replicate 17 0)) = .panic :=
  ⟨rfl, rfl⟩

/-- **C24 is violated**: 17 octets make the decoder of an INTEGER with the bounds of `i64` panic. -/
theorem C24_i64_bounds_violated :
    decodeInteger (some (-(2 ^ 63))) (some (2 ^ 63 - 1)) false
      (Codec.fromSlice (0xF0 :: 0x80 :: List.replicate 15 0)) = .panic := by decide +kernel

/-- A buffer that does not hold whole octets makes alignment panic. -/
theorem C24_partial_octet_violated :
    decodeOctetstring none none false ⟨[true], 0, none⟩ = .err ⟨[true], 1, none⟩ ∧
    decodeOctetstring none none false ⟨[true, true, true], 1, none⟩ = .panic := ⟨rfl, rfl⟩

/-! ## C25 -/

/-- The encoder returns. -/
def Returns (m : M Unit) : Prop := ∀ s, m s ≠ .panic

theorem Returns.bind {m : M Unit} {g : Unit → M Unit} (h1 : Returns m) (h2 : Returns (g ())) :
    Returns (m >>= g) := by
  intro s h
  rw [M.bind_apply] at h
  cases hr : m s with
  | ok a t => rw [hr] at h; exact h2 t h
  | err t => rw [hr] at h; cases h
  | panic => exact h1 s hr

theorem Returns.append (w : List Bool) : Returns (appendBits w) := by intro s h; cases h
theorem Returns.push (b : Bool) : Returns (pushBit b) := by intro s h; cases h
theorem Returns.pure : Returns (Pure.pure ()) := by intro s h; cases h
theorem Returns.fail : Returns M.fail := by intro s h; cases h
theorem Returns.align : Returns align := by
  intro s h
  rw [IsWriter.align_eq] at h
  cases h
theorem Returns.alignIf (c : Bool) : Returns (alignIf c) := by
  unfold Hampi.alignIf; cases c
  · exact .pure
  · exact .align
theorem Returns.ite {c : Prop} [Decidable c] {a b : M Unit} (ha : c → Returns a)
    (hb : ¬ c → Returns b) : Returns (if c then a else b) := by
  split
  · next h => exact ha h
  · next h => exact hb h

theorem Returns.extBit (e x : Bool) : Returns (encodeExtBit e x) := by
  unfold encodeExtBit; exact .ite (fun _ => .push _) fun _ => .pure

theorem Returns.constrained {lb ub v : Int} (h : ub - lb + 1 < 2 ^ 127) :
    Returns (encodeConstrained lb ub v) := by
  intro s hs
  by_cases ho : v < lb ∨ ub < v
  · have h2 : encodeConstrained lb ub v s = _ :=
      encodeConstrainedWith_outside _ ho s.bits.length s rfl
    rw [h2] at hs
    cases hs
  · have hi := InRange.of (lb := lb) (ub := ub) (v := v) (by omega) (by omega) h
    by_cases hw : (ub - lb + 1).toNat ≤ 65536 ∨ 0 < (v - lb).toNat
    · rw [encodeConstrained_writes hi hw s.bits.length s rfl] at hs; cases hs
    · rw [encodeConstrained_lower hi (by omega) (by omega) s.bits.length s rfl] at hs; cases hs

theorem Returns.indefinite (n : Nat) : Returns (encodeIndefiniteLength n) := by
  unfold encodeIndefiniteLength
  exact .bind .align (.ite (fun _ => .append _) fun _ => .ite (fun _ => .append _) fun _ => .fail)

theorem Returns.length {lb ub : Option Int} (hb : SizeBounds lb ub) {ns : Bool} {n : Nat}
    (h : ns = true → n ≠ 0) : Returns (encodeLength lb ub ns n) := by
  unfold encodeLength
  refine .ite (fun hns => ?_) fun _ => ?_
  · unfold encodeNormallySmallLength
    exact .ite (fun _ => .ite (fun h0 => absurd h0 (h hns)) fun _ => .bind (.push _) (.append _))
      fun _ => .bind (.push _) (.indefinite _)
  · have hi : Returns (if ub.any (fun u => decide (n > asUsize u)) then M.fail
        else if lb.any (fun l => decide (n < asUsize l)) then M.fail
        else encodeIndefiniteLength n) :=
      .ite (fun _ => .fail) fun _ => .ite (fun _ => .fail) fun _ => .indefinite _
    cases ub with
    | none => exact hi
    | some u =>
      refine .ite (fun hu => .constrained ?_) fun _ => hi
      cases lb with
      | none => show u - 0 + 1 < _; omega
      | some l =>
        have := hb.1 l rfl
        show u - l + 1 < _
        omega

theorem Returns.unconstrained {v : Int} (hv : IsI128 v) : Returns (encodeUnconstrained v) := by
  rw [encodeUnconstrained_eq hv]
  exact .bind (.indefinite _) (.append _)

theorem Returns.integer {lb ub : Option Int} {v : Int} (hv : IsI128 v)
    (h1 : ∀ l, lb = some l → ub = none → IsI128 (v - l))
    (h2 : ∀ l u, lb = some l → ub = some u → u - l + 1 < 2 ^ 127) (e x : Bool) :
    Returns (encodeInteger lb ub e v x) := by
  unfold encodeInteger
  refine .ite (fun _ => .fail) fun _ => .bind (.extBit _ _) ?_
  cases lb with
  | none => exact .unconstrained hv
  | some l =>
    cases ub with
    | none =>
      show Returns (encodeSemiConstrained l v)
      unfold encodeSemiConstrained
      refine .ite (fun _ => .fail) fun _ => ?_
      rw [chkI128_bind (h1 l rfl rfl)]
      exact .unconstrained (h1 l rfl rfl)
    | some u => exact .constrained (h2 l u rfl rfl)

/-- The span of the bounds, or the distance from the lower bound, is an `i128`. -/
def SpanSane (lb ub : Option Int) (v : Int) : Prop :=
  IsI128 v ∧ (∀ l, lb = some l → ub = none → IsI128 (v - l)) ∧
    ∀ l u, lb = some l → ub = some u → u - l + 1 < 2 ^ 127

/-- Not a normally small length of 0. -/
def LengthSane (lb ub : Option Int) (ns : Bool) (n : Nat) : Prop :=
  SizeBounds lb ub ∧ (ns = true → n ≠ 0)

/-- Arguments for which encoding is claimed not to panic. -/
def Kind.EncSane : (k : Kind) → k.In → Prop
  | .integer lb ub _, v | .enumerated lb ub _, v => SpanSane lb ub v
  | .choiceIdx lb ub _, v => SpanSane (some lb) (some ub) v
  | .sequenceHeader .., _ | .bool, _ => True
  | .bitstring lb ub _, _ | .octetstring lb ub _, _ => SizeBounds lb ub
  | .visibleString lb ub _, _ | .printableString lb ub _, _ | .utf8String lb ub _, _ =>
      SizeBounds lb ub
  | .length lb ub ns, n => LengthSane lb ub ns n

theorem Returns.string {lb ub : Option Int} (h : SizeBounds lb ub) (e : Bool) (v : String)
    (x : Bool) : Returns (encodeString lb ub e v x) := by
  unfold encodeString
  exact .ite (fun _ => .fail) fun _ => .bind (.extBit _ _) (.bind (.length h (by simp))
    (.bind (.alignIf _) (.append _)))

/-- **C25 (partial).** Full statement: no encode function panics. Proved for `Kind.EncSane`
arguments. Missing, because false: normally small length 0, spans of 2^127 or more. -/
theorem C25_no_encode_panic_partial (k : Kind) (v : k.In) (hk : k.EncSane v) (extended : Bool)
    (s : Codec) : k.encode v extended s ≠ .panic := by
  revert s
  show Returns (k.encode v extended)
  cases k with
  | integer lb ub e => exact .integer hk.1 hk.2.1 hk.2.2 _ _
  | enumerated lb ub e =>
    exact .ite (fun _ => .fail) fun _ => .bind (.extBit _ _) (.integer hk.1 hk.2.1 hk.2.2 _ _)
  | choiceIdx lb ub e =>
    exact .ite (fun _ => .fail) fun _ => .bind (.extBit _ _)
      (.integer hk.1 hk.2.1 hk.2.2 _ _)
  | sequenceHeader e n =>
    exact .ite (fun _ => .fail) fun _ => .bind (.extBit _ _) (.append _)
  | bool => exact .push _
  | bitstring lb ub e =>
    exact .ite (fun _ => .fail) fun _ => .bind (.extBit _ _) (.ite (fun _ => .fail) fun _ =>
      .bind (.length hk (by simp)) (.ite (fun _ => .bind (.alignIf _) (.append _)) fun _ => .pure))
  | octetstring lb ub e =>
    exact .ite (fun _ => .fail) fun _ => .bind (.extBit _ _) (.ite (fun _ => .fail) fun _ =>
      .bind (.length hk (by simp)) (.ite (fun _ => .bind (.alignIf _) (.append _)) fun _ => .pure))
  | visibleString lb ub e => exact .string hk _ _ _
  | printableString lb ub e => exact .string hk _ _ _
  | utf8String lb ub e => exact .string hk _ _ _
  | length lb ub ns => exact .length hk.1 hk.2

example : (Kind.integer (some 0) none true).EncSane (2 ^ 100 : Int) := by
  refine ⟨by decide, ?_, ?_⟩
  · intro l h _; cases h; decide
  · intro l u _ h; cases h

/-- **C25 is violated**: a normally small length of 0 panics, in every buffer. -/
theorem C25_normally_small_zero_violated (lb ub : Option Int) (s : Codec) :
    encodeLength lb ub true 0 s = .panic := rfl

/-- **C25 is violated**: with 2^127 or more permitted values every permitted value panics. -/
theorem C25_wide_bounds_violated (lb ub v : Int) (h1 : lb ≤ v) (h2 : v ≤ ub)
    (h : 2 ^ 127 ≤ ub - lb + 1) (s : Codec) :
    encodeInteger (some lb) (some ub) false v false s = .panic := by
  have := encodeConstrainedWith_overflow (fun range v => do
    let n := bytesNeededForRange range
    let bytes := i128Bytes v
    let firstNonZero := bytes.findIdx (fun x => x ≠ 0)
    encodeConstrainedSmall 1 n (16 - (firstNonZero : Int))
    align
    appendBits ((bytes.drop firstNonZero).flatMap (natToBits 8))) h1 h2 h
  show encodeConstrained lb ub v s = .panic
  unfold encodeConstrained
  rw [this]
  rfl

example (s : Codec) : encodeInteger (some (-(2 ^ 126))) (some (2 ^ 126)) false 5 false s = .panic :=
  C25_wide_bounds_violated _ _ 5 (by decide) (by decide) (by decide) s

/-- The distance from the lower bound leaves an `i128`. -/
def Overflows (lb ub : Option Int) (v : Int) : Prop :=
  match lb, ub with
  | some l, some u => l ≤ v ∧ v ≤ u ∧ 2 ^ 127 ≤ u - l + 1
  | some l, none => 2 ^ 127 ≤ v - l
  | none, _ => False

/-- **C25**, exactly, for integers: the encoder panics if and only if the value is permitted and the distance of the bounds, or of the value
from a lower bound without upper one, leaves an `i128`. -/
theorem C25_integer_panics_iff (lb ub : Option Int) (v : Int) (hl : ∀ l, lb = some l → IsI128 l) (hv : IsI128 v)
    (ext extended : Bool) (s : Codec) :
    encodeInteger lb ub ext v extended s = .panic ↔ extended = false ∧ Overflows lb ub v := by
  obtain ⟨hv1, hv2⟩ := hv
  cases extended with
  | true => exact ⟨fun h => (nomatch h), fun h => absurd h.1 (by decide)⟩
  | false =>
    have step : ∀ m : M Unit, encodeInteger lb ub ext v false = (encodeExtBit ext false >>= fun _ => m) →
        ∀ P : Prop, (P → ∀ s, m s = .panic) → (¬ P → Returns m) →
        (encodeInteger lb ub ext v false s = .panic ↔ false = false ∧ P) := by
      intro m e P h1 h2
      rw [e]
      refine ⟨fun h => ⟨rfl, ?_⟩, fun h => ?_⟩
      · by_cases hP : P
        · exact hP
        · exact absurd h (Returns.bind (g := fun _ => m) (.extBit _ _) (h2 hP) s)
      · rw [M.bind_apply]
        cases hx : encodeExtBit ext false s with
        | ok a t => exact h1 h.2 t
        | err t => cases ext <;> cases hx
        | panic => rfl
    cases lb with
    | none => exact step (encodeUnconstrained v) rfl _ False.elim fun _ => .unconstrained ⟨hv1, hv2⟩
    | some l =>
      obtain ⟨hl1, hl2⟩ := hl l rfl
      cases ub with
      | none =>
        refine step (encodeSemiConstrained l v) rfl _ (fun h s => ?_) fun h => ?_
        · have h : 2 ^ 127 ≤ v - l := h
          unfold encodeSemiConstrained
          rw [if_neg (by omega), chkI128_bind_panic (fun h' => by have := h'.2; omega)]
          rfl
        · have h : ¬ 2 ^ 127 ≤ v - l := h
          unfold encodeSemiConstrained
          refine .ite (fun _ => .fail) fun hlt => ?_
          have hi : IsI128 (v - l) := ⟨by omega, by omega⟩
          rw [chkI128_bind hi]
          exact .unconstrained hi
      | some u =>
        refine step (encodeConstrained l u v) rfl _ (fun h s => ?_) fun h => ?_
        · have := C25_wide_bounds_violated l u v h.1 h.2.1 h.2.2 s
          exact this
        · have h : ¬ (l ≤ v ∧ v ≤ u ∧ 2 ^ 127 ≤ u - l + 1) := h
          by_cases hs : u - l + 1 < 2 ^ 127
          · exact .constrained hs
          · unfold encodeConstrained encodeConstrainedWith
            refine .ite (fun _ => .fail) fun h1 => .ite (fun _ => .fail) fun h2 => ?_
            exact absurd ⟨by omega, by omega, by omega⟩ h

example (s : Codec) : encodeInteger (some (-5)) none false (2 ^ 127 - 1) false s = .panic :=
  (C25_integer_panics_iff (some (-5)) none _ (by rintro _ ⟨⟩; decide) (by decide) false false s).2
    ⟨rfl, by unfold Overflows; decide⟩

/-- **C25**, exactly, for lengths: the encoder panics if and only if the length is normally small and 0. -/
theorem C25_length_panics_iff (lb ub : Option Int) (h : SizeBounds lb ub) (ns : Bool) (n : Nat) (s : Codec) :
    encodeLength lb ub ns n s = .panic ↔ ns = true ∧ n = 0 := by
  refine ⟨fun hp => ?_, fun ⟨h1, h2⟩ => by subst h1 h2; rfl⟩
  by_cases hc : ns = true ∧ n = 0
  · exact hc
  · exact absurd hp (Returns.length h (fun h1 h2 => hc ⟨h1, h2⟩) s)

example : Overflows (some (-(2 ^ 127))) none 5 ∧ ¬ Overflows (some (-5)) (some (2 ^ 64)) 7 := by
  unfold Overflows; decide

end Hampi
