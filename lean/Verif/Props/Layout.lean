import Verif.Props.Integers
/-!
# C06, C07: what the bits of a constrained whole number look like
-/
namespace Hampi

open Spec (ReadsBack Succeeds Refuses)

/-! ## Helper facts -/

theorem isWidth_of {R b : Nat} (h1 : R ≤ 2 ^ b) (h2 : b = 0 ∨ 2 ^ (b - 1) < R) :
    Spec.IsWidth R b := by
  refine ⟨h1, fun c hc => ?_⟩
  rcases h2 with h2 | h2
  · omega
  · have : 2 ^ (b - 1) < 2 ^ c := by omega
    have := pow_lt_iff.mp this
    omega

theorem isWidth_decFieldBits {R : Nat} (h2 : R ≤ 256) : Spec.IsWidth R (decFieldBits R) := by
  apply isWidth_of
  · unfold decFieldBits; repeat' split
    all_goals omega
  · unfold decFieldBits; repeat' split
    all_goals omega

theorem isWidth_unique {R a b : Nat} (h1 : Spec.IsWidth R a) (h2 : Spec.IsWidth R b) : a = b := by
  have := h1.2 b h2.1
  have := h2.2 a h1.1
  omega

/-- The code's length field has the width X.691 prescribes, except for two sizes. -/
theorem lenWidth_eq {R : Nat} (h1 : 65536 < R) (h2 : R < 2 ^ 127) (h32 : R ≠ 2 ^ 32)
    (h64 : R ≠ 2 ^ 64) :
    decFieldBits (octets R : Nat) = decFieldBits (octets (R - 1) : Nat) := by
  have hb := octets_range_bounds h1 h2
  have hlt := octets_lt (R - 1)
  have hle := octets_mono (show R - 1 ≤ R by omega)
  have hL3 : 3 ≤ octets (R - 1) := by
    apply Decidable.byContradiction
    intro h
    have h3 : (256 : Nat) ^ octets (R - 1) ≤ 256 ^ 2 := Nat.pow_le_pow_right (by omega) (by omega)
    omega
  by_cases he : octets R = octets (R - 1)
  · rw [he]
  · -- then `R` is a power of 256
    have hge : 256 ^ (octets R - 1) ≤ R := octets_ge (by omega)
    have h3 : 256 ^ octets (R - 1) ≤ 256 ^ (octets R - 1) :=
      Nat.pow_le_pow_right (by omega) (by omega)
    have hR : R = 256 ^ octets (R - 1) := by omega
    have hL' : octets R = octets (R - 1) + 1 := by
      have h4 : R < 256 ^ (octets (R - 1) + 1) := by
        have : 256 ^ octets (R - 1) < 256 ^ (octets (R - 1) + 1) :=
          Nat.pow_lt_pow_right (by omega) (by omega)
        omega
      have := octets_le h4
      omega
    rw [hL']
    revert hR hL3 hL' hb
    generalize octets (R - 1) = L
    intro hb hL3 hR hL'
    have hL15 : L ≤ 15 := by omega
    have h4 : L ≠ 4 := by rintro rfl; exact h32 (by omega)
    have h8 : L ≠ 8 := by rintro rfl; exact h64 (by omega)
    have h : ∀ n : Fin 16, 3 ≤ n.val → n.val ≠ 4 → n.val ≠ 8 →
        decFieldBits ((n.val + 1 : Nat) : Int) = decFieldBits ((n.val : Nat) : Int) := by decide
    exact h ⟨L, by omega⟩ hL3 h4 h8

theorem alignment_eq (p : Nat) : Spec.alignment p = pad p := rfl

theorem constrainedWord_cWord {p R x : Nat} (h2 : R < 2 ^ 127) (h32 : R ≠ 2 ^ 32)
    (h64 : R ≠ 2 ^ 64) (h0 : R ≤ 65536 ∨ 0 < x) : Spec.ConstrainedWord p R x (cWord p R x) := by
  unfold Spec.ConstrainedWord cWord smallWord
  simp only [be_eq, alignment_eq]
  by_cases h : R ≤ 255
  · rw [if_pos h, if_pos (by omega), if_pos (by omega)]
    exact ⟨_, isWidth_decFieldBits (by omega), rfl⟩
  · rw [if_neg h]
    by_cases h3 : R = 256
    · rw [if_pos h3, if_pos (by omega), if_neg (by omega), if_pos h3]
    · rw [if_neg h3]
      by_cases h4 : R ≤ 65536
      · rw [if_pos h4, if_pos h4, if_neg (by omega), if_neg h3]
      · rw [if_neg h4, if_neg h4]
        have hb := octets_range_bounds (R := R) (by omega) h2
        refine ⟨octets (R - 1), octets x, decFieldBits (octets R : Nat), ?_, ?_, ?_, ?_⟩
        · exact (isOctets_iff (by omega)).mpr rfl
        · exact (isOctets_iff (by omega)).mpr rfl
        · rw [lenWidth_eq (by omega) h2 h32 h64]
          apply isWidth_decFieldBits
          have := octets_mono (show R - 1 ≤ R by omega)
          omega
        · unfold lenField
          simp

/-! ## C07 -/

/-- **C07 (partial).** Full statement: the bits written for a constrained INTEGER are those X.691
prescribes. Proved: for every accepted value of a type whose number of values is not exactly `2^32`
or `2^64`. Missing: those two sizes, where the length field is one bit too wide, see
`C07_two_pow_32_violated`; and the lower bound of large types, which is refused (C02). -/
theorem C07_constrained_layout_partial (lb ub v : Int) (s : Codec)
    (h1 : lb ≤ v) (h2 : v ≤ ub) (hspan : ub - lb + 1 < 2 ^ 127)
    (hlow : ub - lb + 1 ≤ 65536 ∨ v ≠ lb)
    (h32 : ub - lb + 1 ≠ 2 ^ 32) (h64 : ub - lb + 1 ≠ 2 ^ 64) :
    ∃ w, Spec.ConstrainedWord s.bits.length (ub - lb + 1).toNat (v - lb).toNat w ∧
      encodeInteger (some lb) (some ub) false v false s = .ok () { s with bits := s.bits ++ w } := by
  have hi := InRange.of h1 h2 hspan
  refine ⟨_, constrainedWord_cWord hi.max (by omega) (by omega) (by omega),
    encodeConstrained_writes hi (by omega) s.bits.length s rfl⟩

example : ∃ w, Spec.ConstrainedWord 3 1000000 4711 w ∧
    encodeInteger (some (-2)) (some 999997) false 4709 false ⟨[true, true, false], 0, none⟩ =
      .ok () ⟨[true, true, false] ++ w, 0, none⟩ :=
  by
    have := C07_constrained_layout_partial (-2) 999997 4709 ⟨[true, true, false], 0, none⟩
      (by decide) (by decide) (by decide) (by decide) (by decide) (by decide)
    simpa using this

/-- **C07 is violated** for `INTEGER (0..4294967295)`: the value 1000 is not written as X.691
prescribes. -/
theorem C07_two_pow_32_violated :
    ∃ w, encodeInteger (some 0) (some 4294967295) false 1000 false Codec.new =
        .ok () { Codec.new with bits := w } ∧
      ¬ Spec.ConstrainedWord 0 4294967296 1000 w := by
  refine ⟨[false, false, true, false, false, false, false, false,
    false, false, false, false, false, false, true, true,
    true, true, true, false, true, false, false, false], by decide, ?_⟩
  unfold Spec.ConstrainedWord
  rw [if_neg (by omega), if_neg (by omega), if_neg (by omega)]
  rintro ⟨L, k, b, hL, hk, hb, hw⟩
  have hL4 : L = 4 := by
    have h1 := hL.2.2 4 (by omega) (by decide)
    have h2 := hL.2.1
    have : ¬ L ≤ 3 := fun h => by
      have h3 : (256 : Nat) ^ L ≤ 256 ^ 3 := Nat.pow_le_pow_right (by omega) h
      omega
    omega
  have hk2 : k = 2 := by
    have h1 := hk.2.2 2 (by omega) (by decide)
    have h2 := hk.2.1
    have : ¬ k ≤ 1 := fun h => by
      have h3 : (256 : Nat) ^ k ≤ 256 ^ 1 := Nat.pow_le_pow_right (by omega) h
      omega
    omega
  subst hL4 hk2
  have hb2 : b = 2 := isWidth_unique hb (isWidth_of (by omega) (by omega))
  subst hb2
  revert hw
  decide

/-- The word of a range of `256 ^ L` values, `L = 4` or `8`, is that of X.691 only if the wider length field makes no
difference: it is all zeros, and does not reach beyond the next octet boundary. -/
theorem cWord_two_pow {p x L b : Nat} (hL : L = 4 ∧ b = 2 ∨ L = 8 ∧ b = 3) (hx : 0 < x) (hlt : x < 256 ^ L) :
    Spec.ConstrainedWord p (256 ^ L) x (cWord p (256 ^ L) x) ↔ x < 256 ∧ (p + b) % 8 ≠ 0 := by
  have hk : octets x ≤ L := octets_le hlt
  have hk1 : 1 ≤ octets x := by rw [octets, if_neg (by omega)]; omega
  have hk2 : octets x = 1 ↔ x < 256 := by
    constructor
    · intro h; have := octets_lt x; rw [h] at this; omega
    · intro h; have := octets_le (v := x) (k := 1) (by omega); omega
  rw [← hk2]
  have hbits : ∀ a c : List Bool, a ++ natToBits (8 * octets x) x = c ++ natToBits (8 * octets x) x ↔ a = c :=
    fun _ _ => List.append_left_inj _
  have hspec : Spec.ConstrainedWord p (256 ^ L) x (cWord p (256 ^ L) x) ↔
      natToBits (b + 1) (octets x - 1) ++ pad (p + (b + 1)) = natToBits b (octets x - 1) ++ pad (p + b) := by
    have hR : 65536 < 256 ^ L := by rcases hL with ⟨rfl, -⟩ | ⟨rfl, -⟩ <;> decide
    have hoct : octets (256 ^ L) = L + 1 := by
      rcases hL with ⟨rfl, -⟩ | ⟨rfl, -⟩ <;> decide +kernel
    have hoct' : octets (256 ^ L - 1) = L := by
      rcases hL with ⟨rfl, -⟩ | ⟨rfl, -⟩ <;> decide +kernel
    have hw : decFieldBits ((L + 1 : Nat) : Int) = b + 1 := by
      rcases hL with ⟨rfl, rfl⟩ | ⟨rfl, rfl⟩ <;> decide
    have hw' : Spec.IsWidth L b := by
      rcases hL with ⟨rfl, rfl⟩ | ⟨rfl, rfl⟩ <;> exact isWidth_of (by omega) (by omega)
    have hc : cWord p (256 ^ L) x =
        (natToBits (b + 1) (octets x - 1) ++ pad (p + (b + 1))) ++ natToBits (8 * octets x) x := by
      unfold cWord lenField
      rw [if_neg (by omega), hoct, hw, natToBits_length, List.append_assoc]
    unfold Spec.ConstrainedWord
    rw [if_neg (by omega), if_neg (by omega), if_neg (by omega), hc]
    simp only [be_eq, alignment_eq]
    constructor
    · rintro ⟨L', k, b', h1, h2, h3, h4⟩
      have e1 : octets (256 ^ L - 1) = L' := ((isOctets_iff (by omega)).mp h1).symm
      have e2 : octets x = k := ((isOctets_iff (by omega)).mp h2).symm
      have e3 : L' = L := by omega
      subst e3 e2
      have e4 := isWidth_unique h3 hw'
      subst e4
      exact (hbits _ _).mp h4
    · intro h
      exact ⟨L, octets x, b, (isOctets_iff (by omega)).mpr hoct'.symm, (isOctets_iff (by omega)).mpr rfl, hw', by rw [h]⟩
  rw [hspec]
  have hpad : ∀ c, pad (p + c) = pad (p % 8 + c) := fun c => by
    rw [← alignment_eq, ← alignment_eq]
    unfold Spec.alignment
    rw [show (p + c) % 8 = (p % 8 + c) % 8 by omega]
  rw [hpad, hpad, show (p + b) % 8 = (p % 8 + b) % 8 by omega]
  have hp : p % 8 < 8 := by omega
  revert hk hk1 hp
  generalize p % 8 = q
  generalize octets x = k
  intro hk hk1 hq
  have h4 : ∀ q : Fin 8, ∀ k : Fin 5, 1 ≤ k.val →
      (natToBits 3 (k.val - 1) ++ pad (q.val + 3) = natToBits 2 (k.val - 1) ++ pad (q.val + 2) ↔
        k.val = 1 ∧ (q.val + 2) % 8 ≠ 0) := by decide +kernel
  have h8 : ∀ q : Fin 8, ∀ k : Fin 9, 1 ≤ k.val →
      (natToBits 4 (k.val - 1) ++ pad (q.val + 4) = natToBits 3 (k.val - 1) ++ pad (q.val + 3) ↔
        k.val = 1 ∧ (q.val + 3) % 8 ≠ 0) := by decide +kernel
  rcases hL with ⟨rfl, rfl⟩ | ⟨rfl, rfl⟩
  · exact h4 ⟨q, hq⟩ ⟨k, by omega⟩ hk1
  · exact h8 ⟨q, hq⟩ ⟨k, by omega⟩ hk1

/-- **C07**, exactly, for the sizes that are missing there: which values of a type of `2^32` or `2^64` values are written as
X.691 prescribes. Only those less than 256 above the lower bound are, and these only if the length field, which is a bit too
wide, does not end at an octet boundary when it has the width prescribed. -/
theorem C07_two_pow_iff (lb ub v : Int) (s : Codec) (h1 : lb < v) (h2 : v ≤ ub) (b : Nat)
    (hb : ub - lb + 1 = 2 ^ 32 ∧ b = 2 ∨ ub - lb + 1 = 2 ^ 64 ∧ b = 3) :
    ∃ w, encodeInteger (some lb) (some ub) false v false s = .ok () { s with bits := s.bits ++ w } ∧
      (Spec.ConstrainedWord s.bits.length (ub - lb + 1).toNat (v - lb).toNat w ↔
        v - lb < 256 ∧ (s.bits.length + b) % 8 ≠ 0) := by
  have hi := InRange.of (Int.le_of_lt h1) h2 (by omega)
  refine ⟨_, encodeConstrained_writes hi (by omega) s.bits.length s rfl, ?_⟩
  rw [show v - lb < 256 ↔ (v - lb).toNat < 256 by omega]
  rcases hb with ⟨hR, rfl⟩ | ⟨hR, rfl⟩
  · rw [show (ub - lb + 1).toNat = 256 ^ 4 by omega]
    exact cWord_two_pow (.inl ⟨rfl, rfl⟩) (by omega) (by omega)
  · rw [show (ub - lb + 1).toNat = 256 ^ 8 by omega]
    exact cWord_two_pow (.inr ⟨rfl, rfl⟩) (by omega) (by omega)

-- NGAP's `INTEGER (0..4294967295)`: 7 after three bits is written as prescribed, after six it is not.
example (s : Codec) (h : s.bits.length = 3) : ∃ w,
    encodeInteger (some 0) (some 4294967295) false 7 false s = .ok () { s with bits := s.bits ++ w } ∧
      Spec.ConstrainedWord 3 4294967296 7 w := by
  obtain ⟨w, h1, h2⟩ := C07_two_pow_iff 0 4294967295 7 s (by decide) (by decide) 2 (.inl (by decide))
  exact ⟨w, h1, by have := h2.mpr (by rw [h]; decide); rwa [h] at this⟩

example (s : Codec) (h : s.bits.length = 6) : ∃ w,
    encodeInteger (some 0) (some 4294967295) false 7 false s = .ok () { s with bits := s.bits ++ w } ∧
      ¬ Spec.ConstrainedWord 6 4294967296 7 w := by
  obtain ⟨w, h1, h2⟩ := C07_two_pow_iff 0 4294967295 7 s (by decide) (by decide) 2 (.inl (by decide))
  exact ⟨w, h1, fun hw => absurd (h2.mp (by rw [h]; exact hw)) (by rw [h]; decide)⟩

/-! ## C06 -/

/-- The numbers of values whose bit field has no unused codes. -/
def FullRange (R : Int) : Prop := (∃ b : Nat, b ≤ 8 ∧ R = 2 ^ b) ∨ R = 65536

theorem bitsAsInteger_range {n : Nat} {s s' : Codec} {a : Int} (hn : n ≤ 127)
    (h : decodeBitsAsInteger n false s = .ok a s') : 0 ≤ a ∧ a < 2 ^ n := by
  rw [decodeBitsAsInteger_unsigned, if_pos (by omega), M.bind_apply] at h
  cases hr : takeBits n s with
  | ok l s1 =>
    rw [hr] at h
    have hl := (takeBits_length hr).1
    have hlt := bitsToNat_lt l
    rw [hl] at hlt
    have h127 : (2 : Nat) ^ n ≤ 2 ^ 127 := pow_le_iff.mpr hn
    have he : a = signExtend 128 (bitsToNat l) := by cases h; rfl
    rw [he, signExtend_128 (by omega)]
    have := ipow_cast n
    omega
  | err _ => rw [hr] at h; cases h
  | panic => rw [hr] at h; cases h

theorem align_bits_range {n : Nat} {s s' : Codec} {a : Int} (hn : n ≤ 127)
    (h : (decodeAlign >>= fun _ => decodeBitsAsInteger n false) s = .ok a s') : 0 ≤ a ∧ a < 2 ^ n := by
  rw [M.bind_apply] at h
  cases hr : decodeAlign s with
  | ok l s1 => rw [hr] at h; exact bitsAsInteger_range hn h
  | err _ => rw [hr] at h; cases h
  | panic => rw [hr] at h; cases h

theorem chk_ok {m : M Int} {lb : Int} {s s' : Codec} {v : Int}
    (h : (m >>= fun a => chkI128 (a + lb)) s = .ok v s') : ∃ a t, m s = .ok a t ∧ v = a + lb := by
  rw [M.bind_apply] at h
  cases hr : m s with
  | ok a s1 =>
    rw [hr] at h
    refine ⟨a, s1, rfl, ?_⟩
    unfold chkI128 at h
    dsimp only at h
    split at h
    · cases h; rfl
    · cases h
  | err _ => rw [hr] at h; cases h
  | panic => rw [hr] at h; cases h

theorem decodeInteger_value {lb ub : Int} {s s' : Codec} {v : Int} {x : Bool}
    (h : decodeInteger (some lb) (some ub) false s = .ok (v, x) s') :
    decodeConstrained lb ub s = .ok v s' ∧ x = false := by
  have h' : (decodeConstrained lb ub >>= fun value => pure (value, false)) s = .ok (v, x) s' := h
  rw [M.bind_apply] at h'
  cases hr : decodeConstrained lb ub s with
  | ok a s1 => rw [hr] at h'; cases h'; exact ⟨rfl, rfl⟩
  | err _ => rw [hr] at h'; cases h'
  | panic => rw [hr] at h'; cases h'

/-- **C06 (partial).** Full statement: `decode_integer` with both bounds returns only values within
them. Proved: when the bounds fill their bit field. Missing: all other bounds, for every one of which
the claim fails, see `C06_out_of_bounds_violated`. -/
theorem C06_decoded_in_bounds_partial (lb ub v : Int) (s s' : Codec) (x : Bool)
    (hfull : FullRange (ub - lb + 1))
    (h : decodeInteger (some lb) (some ub) false s = .ok (v, x) s') : lb ≤ v ∧ v ≤ ub := by
  obtain ⟨h, -⟩ := decodeInteger_value h
  have hR : ∃ R : Nat, (R : Int) = ub - lb + 1 ∧ 0 < R ∧ R < 2 ^ 127 ∧ (R = 65536 ∨ R = 256 ∨
      (R < 256 ∧ 2 ^ decFieldBits R = (R : Int))) := by
    rcases hfull with ⟨b, hb, he⟩ | he
    · refine ⟨2 ^ b, by rw [ipow_cast]; omega, Nat.pow_pos (by omega), ?_, ?_⟩
      · have : (2 : Nat) ^ b ≤ 2 ^ 8 := pow_le_iff.mpr hb
        omega
      · have h9 : ∀ b : Fin 9, (2 ^ b.val = 256) ∨ (2 ^ b.val < 256 ∧
            (2 : Int) ^ decFieldBits ((2 ^ b.val : Nat) : Int) = ((2 ^ b.val : Nat) : Int)) := by decide
        exact .inr (h9 ⟨b, by omega⟩)
    · exact ⟨65536, by omega, by omega, by omega, by omega⟩
  obtain ⟨R, hRe, h0, hm, hcase⟩ := hR
  unfold decodeConstrained at h
  rw [decodeConstrainedWith_eq _ hRe h0 hm] at h
  obtain ⟨a, t, ha, rfl⟩ := chk_ok h
  unfold decodeConstrainedField at ha
  rcases hcase with rfl | rfl | ⟨h1, h2⟩
  · rw [if_neg (by omega), if_neg (by omega), if_pos (by omega)] at ha
    have := align_bits_range (by omega) ha
    omega
  · rw [if_neg (by omega), if_pos (by omega)] at ha
    have := align_bits_range (by omega) ha
    omega
  · rw [if_pos (by omega)] at ha
    have h8 := decFieldBits_le R
    have := bitsAsInteger_range (by omega) ha
    rw [h2] at this
    omega

example : FullRange (15 - 0 + 1) := .inl ⟨4, by decide, by decide⟩

theorem not_fullRange {R : Nat} (h : ¬ FullRange R) (h0 : 0 < R) :
    R ≠ 65536 ∧ R ≠ 256 ∧ (R < 256 → R < 2 ^ decFieldBits R) := by
  refine ⟨fun e => h (.inr (by omega)), fun e => h (.inl ⟨8, by omega, by omega⟩), fun hlt => ?_⟩
  have hw := isWidth_decFieldBits (R := R) (by omega)
  have h8 := decFieldBits_le R
  rcases Nat.lt_or_eq_of_le hw.1 with h1 | h1
  · exact h1
  · exact absurd (.inl ⟨_, h8, by rw [← ipow_cast, ← h1]⟩) h

/-- Some bits are read, at whatever position, as the first value above the upper bound. -/
theorem decodes_above (lb ub : Int) (hub : IsI128 (ub + 1)) (hle : lb ≤ ub)
    (hspan : ub - lb + 1 < 2 ^ 127) (hfull : ¬ FullRange (ub - lb + 1)) (p : Nat) :
    ∃ w, Decodes (decodeConstrained lb ub) p w (ub + 1) := by
  obtain ⟨R, hR⟩ : ∃ R : Nat, (R : Int) = ub - lb + 1 := ⟨(ub - lb + 1).toNat, by omega⟩
  have hm : R < 2 ^ 127 := by omega
  have h0 : 0 < R := by omega
  rw [← hR] at hfull
  obtain ⟨h1, h2, h3⟩ := not_fullRange hfull h0
  unfold decodeConstrained
  rw [decodeConstrainedWith_eq _ hR h0 hm]
  have e : (R : Int) + lb = ub + 1 := by omega
  rw [← e]
  rw [← e] at hub
  suffices h : ∃ w, Decodes (decodeConstrainedField _ R) p w (R : Int) by
    obtain ⟨w, hw⟩ := h
    exact ⟨w, decodes_chk hw hub⟩
  unfold decodeConstrainedField
  by_cases hs : R < 256
  · rw [if_pos (by omega)]
    have h8 := decFieldBits_le R
    exact ⟨_, .nat p (by omega) (h3 hs) hm⟩
  · rw [if_neg (by omega), if_neg (by omega)]
    by_cases hl : R ≤ 65536
    · rw [if_pos (by omega)]
      exact ⟨_, .bind (.align p) (.nat _ (n := 16) (by omega) (by omega) hm)⟩
    · rw [if_neg (by omega)]
      dsimp only
      rw [bytesNeededForRange_eq (by omega) (by omega), Int.toNat_natCast]
      have hb := octets_range_bounds (R := R) (by omega) hm
      have hlen : Decodes (decodeConstrainedLengthSmall 1 (octets R)) p
          (smallWord p (octets R) (octets R - 1)) (octets R) := by
        unfold decodeConstrainedLengthSmall
        rw [if_neg (by omega), if_pos (by omega)]
        have hi : InRange 1 (octets R) (octets R) (octets R) (octets R - 1) :=
          ⟨by omega, by omega, by omega, by omega⟩
        have := Decodes.map (decodeConstrainedSmall_decodes hi (by unfold IsI128; omega)
          (by omega) p) asUsize
        rw [asUsize_natCast (by omega)] at this
        exact this
      have hlt := octets_lt R
      rw [pow256] at hlt
      exact ⟨_, .bind hlen (.bind (.align _) (.nat _ (n := octets R * 8) (by omega)
        (by rw [Nat.mul_comm]; exact hlt) hm))⟩

/-- **C06 is violated** by every constrained type whose bounds do not fill their bit field: after any bits, some
input is decoded, without error, to the first value above the upper bound. -/
theorem C06_out_of_bounds_violated (lb ub : Int) (hub : IsI128 (ub + 1)) (hle : lb ≤ ub)
    (hspan : ub - lb + 1 < 2 ^ 127) (hfull : ¬ FullRange (ub - lb + 1)) (before : List Bool) (key : Option Int) :
    ∃ w, decodeInteger (some lb) (some ub) false ⟨before ++ w, before.length, key⟩ =
      .ok (ub + 1, false) ⟨before ++ w, before.length + w.length, key⟩ := by
  obtain ⟨w, hw⟩ := decodes_above lb ub hub hle hspan hfull before.length
  refine ⟨w, ?_⟩
  have h := Decodes.map hw (fun v => (v, false)) before [] key rfl
  rw [List.append_nil] at h
  exact h

example : ∃ w, decodeInteger (some 0) (some 4) false ⟨[true] ++ w, 1, none⟩ = .ok (5, false) ⟨[true] ++ w, 1 + w.length, none⟩ := by
  refine C06_out_of_bounds_violated 0 4 (by decide) (by decide) (by decide) ?_ [true] none
  rintro (⟨b, hb, h⟩ | h)
  · have : ∀ b : Fin 9, (4 : Int) - 0 + 1 ≠ 2 ^ b.val := by decide
    exact this ⟨b, by omega⟩ h
  · omega

/-- **C06**, exactly: the values read stay within the bounds if and only if the bounds fill their bit field. -/
theorem C06_in_bounds_iff (lb ub : Int) (hub : IsI128 (ub + 1)) (hle : lb ≤ ub) (hspan : ub - lb + 1 < 2 ^ 127) :
    (∀ s s' v x, decodeInteger (some lb) (some ub) false s = .ok (v, x) s' → lb ≤ v ∧ v ≤ ub) ↔
      FullRange (ub - lb + 1) := by
  refine ⟨fun h => ?_, fun hf s s' v x h => C06_decoded_in_bounds_partial lb ub v s s' x hf h⟩
  by_cases hf : FullRange (ub - lb + 1)
  · exact hf
  · obtain ⟨w, hw⟩ := C06_out_of_bounds_violated lb ub hub hle hspan hf [] none
    have := (h _ _ _ _ hw).2
    omega

example : decodeInteger (some 0) (some 4) false ⟨[true, true, true], 0, none⟩ =
  .ok (7, false) ⟨[true, true, true], 3, none⟩ := by decide
example : ¬ FullRange (4 - 0 + 1) := by
  rintro (⟨b, hb, h⟩ | h)
  · have : ∀ b : Fin 9, (4 : Int) - 0 + 1 ≠ 2 ^ b.val := by decide
    exact this ⟨b, by omega⟩ h
  · omega

end Hampi
