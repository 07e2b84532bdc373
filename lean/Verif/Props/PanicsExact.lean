import Verif.Props.Panics
import Verif.Spec.DecodePanics
/-!
# C24, exactly: with which parameters a decode function can panic
-/
namespace Hampi

open Spec (fieldTop IntPanics IntegerPanics SizePanics NotUsize CanPanic I128Bounds)

/-- The state from which the decoders below are shown to panic: one octet has been read. -/
def afterOctet (os : List UInt8) : Codec := ⟨bytesBits (0 :: os), 8, none⟩

/-! ## The field of a constrained whole number -/

/-- The field of a range above 65536 (as in `decodeConstrained`). -/
abbrev largeField (range : Int) : M Int := do
  let length ← decodeConstrainedLengthSmall 1 (bytesNeededForRange range)
  decodeAlign
  decodeBitsAsInteger (length * 8) false

theorem decodeConstrained_def (lb ub : Int) :
    decodeConstrained lb ub = decodeConstrainedWith largeField lb ub := rfl

theorem octets_le_four {R : Nat} (h : R < 2 ^ 32) : octets R ≤ 4 := octets_le (k := 4) (by omega)

theorem octets_gt_four {R : Nat} (h : 2 ^ 32 ≤ R) : 5 ≤ octets R := by
  apply Decidable.byContradiction
  intro hn
  have h1 := octets_lt R
  have h2 : (256 : Nat) ^ octets R ≤ 256 ^ 4 := Nat.pow_le_pow_right (by omega) (by omega)
  omega

theorem octets_gt_eight {R : Nat} (h : 2 ^ 64 ≤ R) : 9 ≤ octets R := by
  apply Decidable.byContradiction
  intro hn
  have h1 := octets_lt R
  have h2 : (256 : Nat) ^ octets R ≤ 256 ^ 8 := Nat.pow_le_pow_right (by omega) (by omega)
  omega

theorem decFieldBits_top {R : Nat} (h : (R : Int) < 256) : (2 : Int) ^ decFieldBits R = fieldTop R + 1 := by
  have key : ∀ R : Fin 256, (2 : Int) ^ decFieldBits (R.val : Int) = fieldTop (R.val : Int) + 1 := by decide +kernel
  exact key ⟨R, by omega⟩

theorem bits_allOnes : ∀ k : Fin 9, ∃ t, decodeBitsAsInteger k.val false (afterOctet (List.replicate 17 255)) =
    .ok ((2 : Int) ^ k.val - 1) t := by
  intro k
  refine ⟨⟨bytesBits (0 :: List.replicate 17 255), 8 + k.val, none⟩, ?_⟩
  revert k
  decide +kernel

/-- A length field `1..=n` with at most 4 octets. -/
theorem decodeConstrainedLengthSmall_four {n : Nat} (h1 : 1 ≤ n) (h8 : n ≤ 4) {s s' : Codec} {l : Nat}
    (h : decodeConstrainedLengthSmall 1 n s = .ok l s') : l ≤ 4 := by
  unfold decodeConstrainedLengthSmall at h
  rw [if_neg (by omega), if_pos (by omega)] at h
  obtain ⟨v, t, h2, h3⟩ := bind_ok h
  unfold decodeConstrainedSmall at h2
  rw [decodeConstrainedWith_eq _ (R := n) (by omega) (by omega) (by omega)] at h2
  obtain ⟨a, t2, h4, rfl⟩ := chk_ok h2
  obtain ⟨h5, h6, -⟩ := decodeField_small_range (by omega) h4
  have h7 := h6 (by omega)
  have hd : decFieldBits n ≤ 2 := by
    unfold decFieldBits
    repeat' split
    all_goals omega
  have h9 : (2 : Nat) ^ decFieldBits n ≤ 2 ^ 2 := pow_le_iff.mpr hd
  have := ipow_cast (decFieldBits n)
  cases h3
  unfold asUsize
  omega

/-- A length field `1..=n` with at most 16 octets. -/
theorem decodeConstrainedLengthSmall_sixteen {n : Nat} (h1 : 1 ≤ n) (h8 : n ≤ 16) {s s' : Codec} {l : Nat}
    (h : decodeConstrainedLengthSmall 1 n s = .ok l s') : l ≤ 16 := by
  unfold decodeConstrainedLengthSmall at h
  rw [if_neg (by omega), if_pos (by omega)] at h
  obtain ⟨v, t, h2, h3⟩ := bind_ok h
  unfold decodeConstrainedSmall at h2
  rw [decodeConstrainedWith_eq _ (R := n) (by omega) (by omega) (by omega)] at h2
  obtain ⟨a, t2, h4, rfl⟩ := chk_ok h2
  obtain ⟨h5, h6, -⟩ := decodeField_small_range (by omega) h4
  have h7 := h6 (by omega)
  have hd : decFieldBits n ≤ 4 := by
    unfold decFieldBits
    repeat' split
    all_goals omega
  have h9 : (2 : Nat) ^ decFieldBits n ≤ 2 ^ 4 := pow_le_iff.mpr hd
  have := ipow_cast (decFieldBits n)
  cases h3
  unfold asUsize
  omega

theorem bytesNeeded_octets {R : Nat} (h : R < 2 ^ 127) : bytesNeededForRange (R : Int) = octets R := by
  rw [bytesNeededForRange_eq (by omega) (by omega), Int.toNat_natCast]

/-- The field of a range below 2^127 does not panic. -/
theorem Safe.field {R : Nat} (h : R < 2 ^ 127) : Safe (decodeConstrainedField largeField R) := by
  refine .constrainedField fun hR => ?_
  have hb := octets_range_bounds (R := R) (by omega) h
  show Safe (decodeConstrainedLengthSmall 1 (bytesNeededForRange (R : Int)) >>= fun l => decodeAlign >>= fun _ =>
    decodeBitsAsInteger (l * 8) false)
  rw [bytesNeeded_octets h]
  refine .bind' (.constrainedLengthSmall _ _) (.constrainedLengthSmall (by omega) (by omega)) ?_
  intro l s s' hl
  have := decodeConstrainedLengthSmall_sixteen (by omega) hb.2 hl
  exact .bind .align .align fun _ => .unsigned (by omega)

/-- The field of a range below 2^64 holds at most `fieldTop`. -/
theorem field_le_top {R : Nat} (h : R < 2 ^ 64) {s s' : Codec} {a : Int}
    (ha : decodeConstrainedField largeField R s = .ok a s') : 0 ≤ a ∧ a ≤ fieldTop R := by
  by_cases h1 : (R : Int) < 256
  · obtain ⟨h2, h3, -⟩ := decodeField_small_range (by omega) ha
    have := h3 h1
    have := decFieldBits_top h1
    exact ⟨h2, by omega⟩
  · unfold decodeConstrainedField at ha
    rw [if_neg h1] at ha
    by_cases h2 : (R : Int) = 256
    · rw [if_pos h2] at ha
      obtain ⟨_, t, -, ha⟩ := bind_ok ha
      have := bitsAsInteger_range (by omega) ha
      have : fieldTop R = 255 := by rw [h2]; rfl
      omega
    · rw [if_neg h2] at ha
      by_cases h3 : (R : Int) ≤ 65536
      · rw [if_pos h3] at ha
        obtain ⟨_, t, -, ha⟩ := bind_ok ha
        have := bitsAsInteger_range (by omega) ha
        have : fieldTop R = 65535 := by
          unfold fieldTop
          repeat rw [if_neg (by omega)]
          rw [if_pos h3]
        omega
      · rw [if_neg h3] at ha
        have ha : (decodeConstrainedLengthSmall 1 (bytesNeededForRange (R : Int)) >>= fun l =>
          decodeAlign >>= fun _ => decodeBitsAsInteger (l * 8) false) s = .ok a s' := ha
        rw [bytesNeeded_octets (by omega)] at ha
        have hb := octets_range_bounds (R := R) (by omega) (by omega)
        obtain ⟨l, t, hl, ha⟩ := bind_ok ha
        obtain ⟨_, t2, -, ha⟩ := bind_ok ha
        have ht : fieldTop R = if (R : Int) < 2 ^ 32 then 2 ^ 32 - 1 else 2 ^ 64 - 1 := by
          unfold fieldTop
          repeat rw [if_neg (by omega)]
        rw [ht]
        by_cases h4 : (R : Int) < 2 ^ 32
        · rw [if_pos h4]
          have hl4 := decodeConstrainedLengthSmall_four (by omega) (octets_le_four (by omega)) hl
          have := bitsAsInteger_range (by omega) ha
          have hp : (2 : Nat) ^ (l * 8) ≤ 2 ^ 32 := pow_le_iff.mpr (by omega)
          have := ipow_cast (l * 8)
          omega
        · rw [if_neg h4]
          have hl8 := decodeConstrainedLengthSmall_range (by omega) (octets_le_eight h) hl
          have := bitsAsInteger_range (by omega) ha
          have hp : (2 : Nat) ^ (l * 8) ≤ 2 ^ 64 := pow_le_iff.mpr (by omega)
          have := ipow_cast (l * 8)
          omega

theorem bitsAsInteger_i128 {n : Nat} {s s' : Codec} {a : Int} (h : decodeBitsAsInteger n false s = .ok a s') :
    IsI128 a := by
  have hs : ∀ x, IsI128 (signExtend 128 x) := by
    intro x
    unfold IsI128 signExtend
    dsimp only
    split <;> omega
  unfold decodeBitsAsInteger at h
  split at h
  · cases h
  · split at h
    · cases h
    · simp only [Bool.not_false, if_true] at h
      split at h
      · obtain ⟨_, t, -, h⟩ := bind_ok h
        cases h
        decide
      · split at h
        · cases h
        · obtain ⟨_, t, -, h⟩ := bind_ok h
          cases h
          exact hs _

theorem field_i128 {R : Nat} (h : 2 ^ 64 ≤ R) {s s' : Codec} {a : Int}
    (ha : decodeConstrainedField largeField R s = .ok a s') : IsI128 a := by
  unfold decodeConstrainedField at ha
  rw [if_neg (by omega), if_neg (by omega), if_neg (by omega)] at ha
  obtain ⟨l, t, hl, ha⟩ := bind_ok ha
  obtain ⟨_, t2, -, ha⟩ := bind_ok ha
  exact bitsAsInteger_i128 ha

/-- Some octets fill the field. -/
theorem field_reaches_top {R : Nat} (h : R < 2 ^ 64) :
    ∃ os t, decodeConstrainedField largeField R (afterOctet os) = .ok (fieldTop R) t := by
  by_cases h1 : (R : Int) < 256
  · unfold decodeConstrainedField
    rw [if_pos h1]
    obtain ⟨t, ht⟩ := bits_allOnes ⟨decFieldBits R, by have := decFieldBits_le (R : Int); omega⟩
    refine ⟨List.replicate 17 255, t, ?_⟩
    rw [decFieldBits_top h1] at ht
    rw [show fieldTop (R : Int) = fieldTop (R : Int) + 1 - 1 by omega]
    exact ht
  · unfold decodeConstrainedField
    rw [if_neg h1]
    by_cases h2 : (R : Int) = 256
    · rw [if_pos h2, h2]
      exact ⟨[255], ⟨bytesBits [0, 255], 16, none⟩, by decide +kernel⟩
    · rw [if_neg h2]
      by_cases h3 : (R : Int) ≤ 65536
      · rw [if_pos h3]
        have : fieldTop R = 65535 := by
          unfold fieldTop
          repeat rw [if_neg (by omega)]
          rw [if_pos h3]
        rw [this]
        exact ⟨[255, 255], ⟨bytesBits [0, 255, 255], 24, none⟩, by decide +kernel⟩
      · rw [if_neg h3]
        show ∃ os t, (decodeConstrainedLengthSmall 1 (bytesNeededForRange (R : Int)) >>= fun l =>
          decodeAlign >>= fun _ => decodeBitsAsInteger (l * 8) false) (afterOctet os) = .ok (fieldTop R) t
        rw [bytesNeeded_octets (by omega)]
        have hb := octets_range_bounds (R := R) (by omega) (by omega)
        have ht : fieldTop R = if (R : Int) < 2 ^ 32 then 2 ^ 32 - 1 else 2 ^ 64 - 1 := by
          unfold fieldTop
          repeat rw [if_neg (by omega)]
        rw [ht]
        by_cases h4 : (R : Int) < 2 ^ 32
        · rw [if_pos h4]
          have h5 := octets_le_four (R := R) (by omega)
          have : octets R = 3 ∨ octets R = 4 := by omega
          rcases this with e | e <;> rw [e] <;>
            exact ⟨[0xC0, 255, 255, 255, 255], ⟨bytesBits [0, 0xC0, 255, 255, 255, 255], 48, none⟩, by decide +kernel⟩
        · rw [if_neg h4]
          have h5 := octets_gt_four (R := R) (by omega)
          have h6 := octets_le_eight h
          have : octets R = 5 ∨ octets R = 6 ∨ octets R = 7 ∨ octets R = 8 := by omega
          rcases this with e | e | e | e <;> rw [e] <;>
            exact ⟨[0xE0, 255, 255, 255, 255, 255, 255, 255, 255],
              ⟨bytesBits [0, 0xE0, 255, 255, 255, 255, 255, 255, 255, 255], 80, none⟩, by decide +kernel⟩

/-- Octets with which a field of 2^64 or more values is read as the largest `i128`. -/
def largest : List UInt8 := 0xF0 :: 0x7F :: List.replicate 15 255
/-- Octets with which it is read as the smallest. -/
def smallest : List UInt8 := 0xF0 :: 0x80 :: List.replicate 15 0

theorem field_extremes {R : Nat} (h : 2 ^ 64 ≤ R) (hm : R < 2 ^ 127) :
    (∃ t, decodeConstrainedField largeField R (afterOctet largest) = .ok (2 ^ 127 - 1) t) ∧
      ∃ t, decodeConstrainedField largeField R (afterOctet smallest) = .ok (-(2 ^ 127)) t := by
  unfold decodeConstrainedField
  simp only [if_neg (show ¬ (R : Int) < 256 by omega), if_neg (show ¬ (R : Int) = 256 by omega),
    if_neg (show ¬ (R : Int) ≤ 65536 by omega)]
  have h5 := octets_gt_eight h
  have h6 := (octets_range_bounds (R := R) (by omega) hm).2
  show (∃ t, (decodeConstrainedLengthSmall 1 (bytesNeededForRange (R : Int)) >>= fun l =>
      decodeAlign >>= fun _ => decodeBitsAsInteger (l * 8) false) (afterOctet largest) = .ok (2 ^ 127 - 1) t) ∧
    ∃ t, (decodeConstrainedLengthSmall 1 (bytesNeededForRange (R : Int)) >>= fun l =>
      decodeAlign >>= fun _ => decodeBitsAsInteger (l * 8) false) (afterOctet smallest) = .ok (-(2 ^ 127)) t
  rw [bytesNeeded_octets hm]
  have key : ∀ n : Fin 8,
      (decodeConstrainedLengthSmall 1 (n.val + 9) >>= fun l => decodeAlign >>= fun _ =>
        decodeBitsAsInteger (l * 8) false) (afterOctet largest) =
          .ok (2 ^ 127 - 1) ⟨bytesBits (0 :: largest), 144, none⟩ ∧
      (decodeConstrainedLengthSmall 1 (n.val + 9) >>= fun l => decodeAlign >>= fun _ =>
        decodeBitsAsInteger (l * 8) false) (afterOctet smallest) =
          .ok (-(2 ^ 127)) ⟨bytesBits (0 :: smallest), 144, none⟩ := by decide +kernel
  have := key ⟨octets R - 9, by omega⟩
  rw [show octets R - 9 + 9 = octets R by omega] at this
  exact ⟨⟨_, this.1⟩, ⟨_, this.2⟩⟩

/-! ## Constrained whole numbers -/

theorem Safe.constrained' {lb ub : Int} (hl : IsI128 lb) (h : ¬ IntPanics lb ub) : Safe (decodeConstrained lb ub) := by
  unfold IntPanics at h
  obtain ⟨hl1, hl2⟩ := hl
  rw [decodeConstrained_def]
  by_cases h0 : ub - lb + 1 ≤ 0
  · unfold decodeConstrainedWith
    rw [chkI128_bind (by unfold IsI128; omega), chkI128_bind (by unfold IsI128; omega), if_pos h0]
    exact .fail
  · have hR : (((ub - lb + 1).toNat : Nat) : Int) = ub - lb + 1 := by omega
    rw [← hR] at h
    generalize (ub - lb + 1).toNat = R at hR h
    have hm : R < 2 ^ 127 := by omega
    rw [decodeConstrainedWith_eq _ hR (by omega) hm]
    refine .bind' (.constrainedField (fun a => .bind (.constrainedLengthSmall _ _) fun _ =>
      .bind .align fun _ => .bitsAsInteger _ _) _) (.field hm) ?_
    intro a s s' ha
    by_cases h64 : R < 2 ^ 64
    · have := field_le_top h64 ha
      exact .chkI128 ⟨by omega, by omega⟩
    · have e : lb = 0 := by omega
      subst e
      rw [Int.add_zero]
      exact .chkI128 (field_i128 (by omega) ha)

theorem constrained_panics {lb ub : Int} (h : IntPanics lb ub) : ∃ os, decodeConstrained lb ub (afterOctet os) = .panic := by
  by_cases hd : IsI128 (ub - lb) ∧ IsI128 (ub - lb + 1)
  · obtain ⟨⟨hd1, hd2⟩, hd3, hd4⟩ := hd
    unfold IntPanics at h
    have hR : (((ub - lb + 1).toNat : Nat) : Int) = ub - lb + 1 := by omega
    rw [← hR] at h
    generalize (ub - lb + 1).toNat = R at hR h
    have hm : R < 2 ^ 127 := by omega
    have run : ∀ {os : List UInt8} {a : Int} {t : Codec},
        decodeConstrainedField largeField R (afterOctet os) = .ok a t → ¬ IsI128 (a + lb) →
        decodeConstrained lb ub (afterOctet os) = .panic := by
      intro os a t h1 h2
      rw [decodeConstrained_def, decodeConstrainedWith_eq _ hR (by omega) hm, M.bind_apply, h1]
      show chkI128 (a + lb) t = _
      unfold chkI128
      rw [if_neg h2]
      rfl
    by_cases h64 : R < 2 ^ 64
    · obtain ⟨os, t, ht⟩ := field_reaches_top h64
      exact ⟨os, run ht fun h' => by have := h'.2; omega⟩
    · obtain ⟨⟨t1, h1⟩, t2, h2⟩ := field_extremes (R := R) (by omega) hm
      by_cases hp : 0 < lb
      · exact ⟨largest, run h1 fun h' => by have := h'.2; omega⟩
      · exact ⟨smallest, run h2 fun h' => by have := h'.1; omega⟩
  · refine ⟨[], ?_⟩
    unfold decodeConstrained decodeConstrainedWith
    by_cases h1 : IsI128 (ub - lb)
    · rw [chkI128_bind h1, chkI128_bind_panic (fun h2 => hd ⟨h1, h2⟩)]
      rfl
    · rw [chkI128_bind_panic h1]
      rfl

theorem Safe.integer' {lb ub : Option Int} (hl : ∀ l, lb = some l → IsI128 l) (h : ¬ IntegerPanics lb ub) (e : Bool) :
    Safe (decodeInteger lb ub e) := by
  unfold decodeInteger
  refine .bind (.extBit e) (.extBit e) fun x => .bind (.integerValue lb ub x) ?_ fun _ => .pure _
  unfold decodeIntegerValue
  refine .ite (fun _ => .unconstrained) fun _ => ?_
  cases lb with
  | none => exact .unconstrained
  | some l =>
    cases ub with
    | none => exact absurd trivial h
    | some u => exact .constrained' (hl l rfl) h

set_option maxRecDepth 4000 in
theorem integerValue_panics {lb ub : Option Int} (h : IntegerPanics lb ub) :
    ∃ os, decodeIntegerValue lb ub false (afterOctet os) = .panic := by
  cases lb with
  | none => exact absurd h id
  | some l =>
    cases ub with
    | none => exact ⟨17 :: List.replicate 17 0, rfl⟩
    | some u => exact constrained_panics h

/-! ## Sizes -/

theorem Safe.length' {lb ub : Option Int} (h : ¬ SizePanics lb ub) : Safe (decodeLength lb ub false) := by
  have hl : ∀ l, lb = some l → 0 ≤ l ∧ l < 2 ^ 64 := by
    intro l e
    apply Decidable.byContradiction
    intro hn
    exact h (.inl ⟨l, e, by unfold NotUsize; omega⟩)
  have hu : ∀ u, ub = some u → 0 ≤ u ∧ u < 2 ^ 64 := by
    intro u e
    apply Decidable.byContradiction
    intro hn
    exact h (.inr (.inl ⟨u, e, by unfold NotUsize; omega⟩))
  unfold decodeLength
  rw [if_neg (by decide), lengthLowerBound_eq ⟨hl, hu⟩, M.pure_bind']
  cases ub with
  | none => exact .indefinite
  | some u =>
    have hu := hu u rfl
    dsimp only
    have e : Hampi.toUsizeOrPanic u = Pure.pure u.toNat := by
      unfold Hampi.toUsizeOrPanic; rw [if_pos hu]
    rw [e, M.pure_bind']
    refine .ite (fun h1 => .ite (fun _ => .pure _) fun _ => .constrainedLength ?_ h1) fun _ => .indefinite
    cases lb with
    | none => simp
    | some l =>
      have := hl l rfl
      show l.toNat ≤ u.toNat
      apply Decidable.byContradiction
      intro hn
      exact h (.inr (.inr ⟨l, u, rfl, rfl, by omega, by omega⟩))

theorem length_panics {lb ub : Option Int} (h : SizePanics lb ub) (s : Codec) : decodeLength lb ub false s = .panic := by
  unfold decodeLength
  rw [if_neg (by decide)]
  by_cases hl : ∀ l, lb = some l → 0 ≤ l ∧ l < 2 ^ 64
  · have e : ∃ n : Nat, lengthLowerBound lb = Pure.pure n ∧ ∀ l, lb = some l → n = l.toNat := by
      cases lb with
      | none => exact ⟨0, rfl, fun l h => by cases h⟩
      | some l =>
        refine ⟨l.toNat, ?_, fun l' h' => by cases h'; rfl⟩
        show toUsizeOrPanic l = _
        unfold toUsizeOrPanic
        rw [if_pos (hl l rfl)]
    obtain ⟨n, e, hn⟩ := e
    rw [e, M.pure_bind']
    cases ub with
    | none =>
      rcases h with ⟨l, h1, h2⟩ | ⟨u, h1, -⟩ | ⟨l, u, -, h1, -⟩
      · have := hl l h1
        unfold NotUsize at h2
        omega
      · cases h1
      · cases h1
    | some u =>
      dsimp only
      by_cases hu : 0 ≤ u ∧ u < 2 ^ 64
      · have e : Hampi.toUsizeOrPanic u = Pure.pure u.toNat := by
          unfold Hampi.toUsizeOrPanic; rw [if_pos hu]
        rw [e, M.pure_bind']
        rcases h with ⟨l, h1, h2⟩ | ⟨u, h1, h2⟩ | ⟨l, u, h0, h1, h2, h3⟩
        · have := hl l h1
          unfold NotUsize at h2
          omega
        · cases h1
          unfold NotUsize at h2
          omega
        · cases h1
          have := hn l h0
          have := hl l h0
          rw [if_pos (by omega), if_neg (by omega)]
          unfold decodeConstrainedLength
          rw [if_pos (by omega)]
          rfl
      · have e : Hampi.toUsizeOrPanic u = M.panic := by
          unfold Hampi.toUsizeOrPanic; rw [if_neg hu]
        rw [e]
        rfl
  · cases lb with
    | none => exact absurd (fun l h => by cases h) hl
    | some l =>
      have e : lengthLowerBound (some l) = M.panic := by
        show toUsizeOrPanic l = _
        unfold toUsizeOrPanic
        rw [if_neg (fun h' => hl fun l' e => by cases e; exact h')]
      rw [e]
      rfl

theorem Safe.stringLength' {lb ub : Option Int} (h : ¬ SizePanics lb ub) (x : Bool) :
    Safe (decodeStringLength x lb ub) := by
  unfold decodeStringLength
  refine .ite (fun _ => .length' ?_) fun _ => .length' h
  rintro (⟨l, h, -⟩ | ⟨u, h, -⟩ | ⟨l, u, h, -⟩) <;> cases h

theorem Safe.string' {lb ub : Option Int} (h : ¬ SizePanics lb ub) (e : Bool) : Safe (decodeString lb ub e) := by
  unfold decodeString
  refine .bind (.extBit e) (.extBit e) fun x => .bind (.stringLength x lb ub) (.stringLength' h x)
    fun n => .bind (.alignIf _) (.alignIf _) fun _ => .bind (.bitvecStored _) (.bitvecStored _)
    fun b => ?_
  unfold decodeText
  cases fromUtf8 (loadChunks b.1 b.2) with
  | none => exact .fail
  | some v => exact .pure _

/-! ## All decode functions -/

theorem bind_panic {α β : Type} {m : M α} {g : α → M β} {s : Codec} (h : m s = .panic) : (m >>= g) s = .panic := by
  rw [M.bind_apply, h]

theorem integer_panics {lb ub : Option Int} {s : Codec} (h : decodeIntegerValue lb ub false s = .panic) :
    decodeInteger lb ub false s = .panic := by
  show (decodeExtBit false >>= fun x => decodeIntegerValue lb ub x >>= fun v =>
    (Pure.pure (v, x) : M (Int × Bool))) s = _
  rw [M.bind_apply]
  exact bind_panic (g := fun v => (Pure.pure (v, false) : M (Int × Bool))) h

/-- Reading the extension bit, if there is one, leads to `afterOctet`. -/
theorem extBit_afterOctet (e : Bool) (os : List UInt8) :
    decodeExtBit e ⟨bytesBits (0 :: os), if e then 7 else 8, none⟩ = .ok false (afterOctet os) := by
  cases e with
  | false => rfl
  | true =>
    unfold decodeExtBit
    rw [if_pos rfl, decodeBoolM_eq, M.bind_apply]
    have : takeBits 1 ⟨bytesBits (0 :: os), 7, none⟩ = .ok [false] (afterOctet os) := by
      unfold takeBits
      have hl : (bytesBits (0 :: os)).length = 8 + 8 * os.length := by simp; omega
      rw [if_neg (by dsimp only; omega), if_neg (by dsimp only; omega)]
      rfl
    rw [if_pos rfl, this]
    rfl

theorem ext_panics {α : Type} {e : Bool} {os : List UInt8} {g : Bool → M α} (h : g false (afterOctet os) = .panic) :
    ∃ octets position, position ≤ 8 * List.length octets ∧
      (decodeExtBit e >>= g) ⟨bytesBits octets, position, none⟩ = .panic := by
  refine ⟨0 :: os, if e then 7 else 8, ?_, ?_⟩
  · simp only [List.length_cons]; split <;> omega
  · rw [M.bind_apply, extBit_afterOctet]
    exact h

set_option maxRecDepth 4000 in
/-- **C24**, exactly: some octets make a decode function panic, at some position of a buffer of whole octets, if
and only if its parameters are among those of `Spec.CanPanic`. -/
theorem C24_panics_iff (k : Kind) (hk : I128Bounds k) :
    (∃ octets position key, position ≤ 8 * List.length octets ∧
      k.decode ⟨bytesBits octets, position, key⟩ = .panic) ↔ CanPanic k := by
  constructor
  · rintro ⟨octets, position, key, hp, h⟩
    apply Classical.byContradiction
    intro hn
    have hb : OctetBuffer ⟨bytesBits octets, position, key⟩ := by
      unfold OctetBuffer; simp; exact hp
    revert h
    revert hb
    generalize (⟨bytesBits octets, position, key⟩ : Codec) = s
    revert s
    show Safe k.decode
    cases k with
    | integer lb ub e => exact .integer' hk.1 hn e
    | enumerated lb ub e =>
      cases e with
      | true => exact absurd (.inl rfl) hn
      | false =>
        exact Safe.bind (m := decodeInteger lb ub false >>= fun d => (Pure.pure d.1 : M Int))
          (g := fun d => (Pure.pure (d, false) : M (Int × Bool)))
          (.bind (.integer lb ub false) fun _ => .pure _)
          (.bind (.integer lb ub false) (.integer' hk.1 (fun h => hn (.inr h)) false) fun d => .pure d.1)
          fun d => .pure (d, false)
    | choiceIdx lb ub e =>
      cases e with
      | true => exact absurd (.inl rfl) hn
      | false =>
        exact .bind (.integer _ _ _) (.integer' (lb := some lb) (ub := some ub) (fun l h => by cases h; exact hk.1) (fun h => hn (.inr h)) _)
          fun _ => .pure _
    | sequenceHeader e n =>
      exact .bind (.extBit e) (.extBit e) fun _ => .bind
        (by unfold decodeBitmap; exact .ite (.bitvec _) (.pure _))
        (by unfold decodeBitmap; exact .ite (fun _ => .bitvec _) fun _ => .pure _) fun _ => .pure _
    | bool => exact .boolM
    | bitstring lb ub e =>
      exact .bind (.extBit e) (.extBit e) fun x => .fragments (.stringLength x lb ub)
        (.stringLength' hn x) 16 getBitvec_consumes .bitvec .bitvec
    | octetstring lb ub e =>
      exact .bind (.extBit e) (.extBit e) fun x => .fragments (.stringLength x lb ub)
        (.stringLength' hn x) 2 getBytes_consumes .bytes .bytes
    | visibleString lb ub e => exact .string' hn e
    | printableString lb ub e => exact .string' hn e
    | utf8String lb ub e => exact .string' hn e
    | length lb ub ns =>
      cases ns with
      | true => exact .length (.inl rfl)
      | false => exact .length' fun h => hn ⟨rfl, h⟩
  · intro h
    have str : ∀ {lb ub : Option Int} {e : Bool}, SizePanics lb ub → ∃ octets position key,
        position ≤ 8 * List.length octets ∧ decodeString lb ub e ⟨bytesBits octets, position, key⟩ = .panic := by
      intro lb ub e h
      obtain ⟨os, p, hp, h⟩ := ext_panics (e := e) (os := []) (g := fun x => decodeStringLength x lb ub >>= fun len =>
        decodeAlignIf (16 < len * 8) >>= fun _ => getBitvecStored (len * 8) >>= fun bits => decodeText bits)
        (bind_panic (m := decodeLength lb ub false) (length_panics h _))
      exact ⟨os, p, none, hp, h⟩
    cases k with
    | integer lb ub e =>
      obtain ⟨os, ho⟩ := integerValue_panics h
      obtain ⟨os, p, hp, h⟩ := ext_panics (e := e) (os := os) (g := fun x => decodeIntegerValue lb ub x >>= fun v =>
        (Pure.pure (v, x) : M (Int × Bool))) (bind_panic ho)
      exact ⟨os, p, none, hp, h⟩
    | enumerated lb ub e =>
      by_cases he : e = true
      · subst he
        refine ⟨0xC0 :: 17 :: List.replicate 17 0, 0, none, by simp, ?_⟩
        rfl
      · have h : IntegerPanics lb ub := h.resolve_left he
        obtain ⟨os, ho⟩ := integerValue_panics h
        obtain ⟨os, p, hp, h⟩ := ext_panics (e := e) (os := os) (g := fun x => decodeEnumeratedValue lb ub x >>= fun v =>
          (Pure.pure (v, x) : M (Int × Bool))) (bind_panic
            (bind_panic (m := decodeInteger lb ub false) (integer_panics ho)))
        exact ⟨os, p, none, hp, h⟩
    | choiceIdx lb ub e =>
      by_cases he : e = true
      · subst he
        refine ⟨0xC0 :: 17 :: List.replicate 17 0, 0, none, by simp, ?_⟩
        rfl
      · have h : IntPanics lb ub := h.resolve_left he
        obtain ⟨os, ho⟩ := integerValue_panics (lb := some lb) (ub := some ub) h
        have he : e = false := by simpa using he
        subst he
        refine ⟨0 :: os, 8, none, by simp; omega, ?_⟩
        exact bind_panic (m := decodeInteger (some lb) (some ub) false) (integer_panics ho)
    | sequenceHeader e n => exact absurd h id
    | bool => exact absurd h id
    | bitstring lb ub e =>
      obtain ⟨os, p, hp, h⟩ := ext_panics (e := e) (os := []) (g := fun x =>
        decodeFragments (decodeStringLength x lb ub) 16 getBitvec) (bind_panic (m := decodeLength lb ub false) (length_panics h _))
      exact ⟨os, p, none, hp, h⟩
    | octetstring lb ub e =>
      obtain ⟨os, p, hp, h⟩ := ext_panics (e := e) (os := []) (g := fun x =>
        decodeFragments (decodeStringLength x lb ub) 2 getBytes) (bind_panic (m := decodeLength lb ub false) (length_panics h _))
      exact ⟨os, p, none, hp, h⟩
    | visibleString lb ub e => exact str h
    | printableString lb ub e => exact str h
    | utf8String lb ub e => exact str h
    | length lb ub ns =>
      obtain ⟨rfl, h⟩ := h
      exact ⟨[], 0, none, by simp, length_panics h _⟩

/-- For bounds that are `i64` numbers, in order, only the type of all `i64` numbers can panic. -/
theorem C24_i64_bounds_iff (lb ub : Int) (h1 : -(2 ^ 63) ≤ lb) (h2 : lb ≤ ub) (h3 : ub < 2 ^ 63) :
    (∃ octets position key, position ≤ 8 * List.length octets ∧
      decodeInteger (some lb) (some ub) false ⟨bytesBits octets, position, key⟩ = .panic) ↔
      lb = -(2 ^ 63) ∧ ub = 2 ^ 63 - 1 := by
  have hk : I128Bounds (.integer (some lb) (some ub) false) :=
    ⟨fun l h => by cases h; exact ⟨by omega, by omega⟩, fun u h => by cases h; exact ⟨by omega, by omega⟩⟩
  rw [show (∃ octets position key, position ≤ 8 * List.length octets ∧
      decodeInteger (some lb) (some ub) false ⟨bytesBits octets, position, key⟩ = .panic) ↔ IntPanics lb ub from
    C24_panics_iff (.integer (some lb) (some ub) false) hk]
  have ht : fieldTop (ub - lb + 1) ≤ 2 ^ 64 - 1 := by
    unfold fieldTop
    repeat' split
    all_goals omega
  unfold IntPanics
  omega

example : CanPanic (.integer (some (-(2 ^ 63))) (some (2 ^ 63 - 1)) false) ∧
    ¬ CanPanic (.integer (some 0) (some (2 ^ 64 - 1)) true) ∧ ¬ CanPanic (.octetstring (some 3) (some 8) true) := by
  refine ⟨.inr (.inr (.inl (by decide))), ?_, ?_⟩
  · show ¬ IntPanics 0 (2 ^ 64 - 1)
    unfold IntPanics
    omega
  · rintro (⟨l, h, h'⟩ | ⟨u, h, h'⟩ | ⟨l, u, h, h2, h3, h4⟩)
    · cases h; unfold NotUsize at h'; omega
    · cases h; unfold NotUsize at h'; omega
    · cases h; cases h2; omega

end Hampi
