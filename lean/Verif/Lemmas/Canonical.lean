import Verif.Spec.Canonical
import Verif.Lemmas.DeriveOk
import Verif.Props.Derived
/-!
# What a decoder has read, exactly
-/
namespace Hampi

open Spec (SizeBounds Within)

variable {α β : Type}

/-- From `s` to `s'` the word `w` was read. -/
structure Eaten (s s' : Codec) (w : List Bool) : Prop where
  start : s.off ≤ s.bits.length
  bits : s'.bits = s.bits
  off : s'.off = s.off + w.length
  word : consumed s s' = w

theorem Eaten.end_le {s s' : Codec} {w : List Bool} (h : Eaten s s' w) :
    s'.off ≤ s'.bits.length := by
  have h1 := h.word
  have h2 := h.off
  have h3 := h.start
  have : (consumed s s').length = w.length := by rw [h1]
  unfold consumed at this
  rw [List.length_take, List.length_drop] at this
  rw [h.bits]
  omega

theorem Eaten.refl {s : Codec} (h : s.off ≤ s.bits.length) : Eaten s s [] :=
  ⟨h, rfl, rfl, by simp [consumed]⟩

theorem Eaten.trans {a b c : Codec} {w w2 : List Bool} (h1 : Eaten a b w) (h2 : Eaten b c w2) :
    Eaten a c (w ++ w2) where
  start := h1.start
  bits := by rw [h2.bits, h1.bits]
  off := by rw [h2.off, h1.off, List.length_append]; omega
  word := by
    have e1 := h1.word
    have e2 := h2.word
    have o1 := h1.off
    have o2 := h2.off
    unfold consumed at *
    rw [h1.bits] at e2
    have : c.off - a.off = (b.off - a.off) + (c.off - b.off) := by omega
    rw [this, List.take_add, e1, List.drop_drop]
    have : a.off + (b.off - a.off) = b.off := by omega
    rw [this, e2]

theorem Eaten.take {n : Nat} {s s' : Codec} {l : List Bool} (h : takeBits n s = .ok l s') :
    l.length = n ∧ Eaten s s' l := by
  obtain ⟨h1, h2, h3⟩ := takeBits_length h
  refine ⟨h1, by omega, ?_, by omega, ?_⟩
  · have := (takeBits_reader n).frame s
    rw [h] at this
    exact this.1
  · unfold consumed
    rw [h2, Nat.add_sub_cancel_left]
    unfold takeBits at h
    rw [if_neg (by omega), if_neg (by omega)] at h
    injection h

theorem Eaten.align {s s' : Codec} {u : Unit} (h0 : s.off ≤ s.bits.length)
    (h : decodeAlign s = .ok u s') : Eaten s s' (pad s.off) := by
  unfold decodeAlign at h
  by_cases h1 : s.off % 8 = 0
  · rw [if_pos h1] at h
    cases h
    have : pad s.off = [] := by
      unfold pad
      have : padLen s.off = 0 := by unfold padLen; omega
      rw [this]; rfl
    rw [this]
    exact .refl h0
  · rw [if_neg h1] at h
    dsimp only at h
    split at h
    · cases h
    · next hl =>
      split at h
      · next ha =>
        cases h
        have hp : padLen s.off = 8 - s.off % 8 := by unfold padLen; omega
        refine ⟨h0, rfl, by rw [pad_length, hp], ?_⟩
        unfold consumed
        dsimp only
        rw [Nat.add_sub_cancel_left]
        unfold pad
        rw [hp]
        refine List.eq_replicate_iff.mpr ⟨?_, fun b hb => ?_⟩
        · rw [List.length_take, List.length_drop]; omega
        · simpa using List.all_eq_true.mp ha b hb
      · cases h

theorem Eaten.alignIf {s s' : Codec} {u : Unit} {c : Bool} (h0 : s.off ≤ s.bits.length)
    (h : decodeAlignIf c s = .ok u s') : Eaten s s' (if c then pad s.off else []) := by
  unfold decodeAlignIf at h
  cases c
  · cases h; exact .refl h0
  · exact .align h0 h

theorem Eaten.unsigned {n : Nat} (hn : n ≤ 16) {s s' : Codec} {v : Int}
    (h : decodeBitsAsInteger n false s = .ok v s') :
    ∃ x : Nat, v = x ∧ x < 2 ^ n ∧ Eaten s s' (natToBits n x) := by
  rw [decodeBitsAsInteger_unsigned, if_pos (by omega)] at h
  obtain ⟨l, t, h1, h⟩ := bind_ok h
  obtain ⟨h2, h3⟩ := Eaten.take h1
  cases h
  have hl := bitsToNat_lt l
  rw [h2] at hl
  refine ⟨bitsToNat l, ?_, hl, ?_⟩
  · apply signExtend_128
    have : 2 ^ n ≤ 2 ^ 16 := Nat.pow_le_pow_right (by omega) hn
    omega
  · rw [← h2, natToBits_bitsToNat]
    exact h3

/-- The field of a constrained whole number. -/
theorem Eaten.field {large : Int → M Int} {R : Nat} (hR : R ≤ 65536) {s s' : Codec} {v : Int}
    (h0 : s.off ≤ s.bits.length) (h : decodeConstrainedField large R s = .ok v s') :
    ∃ x : Nat, v = x ∧ x < 65536 ∧ (R ≤ 256 → x < 256) ∧ Eaten s s' (smallWord s.off R x) := by
  unfold decodeConstrainedField at h
  unfold smallWord
  by_cases h1 : R < 256
  · rw [if_pos (by omega)] at h
    have h8 := decFieldBits_le R
    obtain ⟨x, e, hx, hw⟩ := Eaten.unsigned (by omega) h
    have : 2 ^ decFieldBits (R : Int) ≤ 2 ^ 8 := Nat.pow_le_pow_right (by omega) h8
    refine ⟨x, e, by omega, by omega, ?_⟩
    rw [if_pos h1]
    exact hw
  · rw [if_neg (by omega)] at h
    simp only [if_neg h1]
    by_cases h2 : R = 256
    · rw [if_pos (by omega)] at h
      obtain ⟨u, t, ha, h⟩ := bind_ok h
      have hp := Eaten.align h0 ha
      obtain ⟨x, e, hx, hw⟩ := Eaten.unsigned (by omega) h
      refine ⟨x, e, by omega, by omega, ?_⟩
      rw [if_pos h2]
      exact hp.trans hw
    · rw [if_neg (by omega), if_pos (by omega)] at h
      obtain ⟨u, t, ha, h⟩ := bind_ok h
      have hp := Eaten.align h0 ha
      obtain ⟨x, e, hx, hw⟩ := Eaten.unsigned (by omega) h
      refine ⟨x, e, by omega, by omega, ?_⟩
      rw [if_neg h2]
      exact hp.trans hw

theorem chkI128_ok {v r : Int} {s s' : Codec} (h : chkI128 v s = .ok r s') : r = v ∧ s' = s := by
  unfold chkI128 at h
  split at h
  · cases h; exact ⟨rfl, rfl⟩
  · cases h

theorem Eaten.constrained {lb ub : Int} (hR : ub - lb + 1 ≤ 65536) {s s' : Codec} {v : Int}
    (h0 : s.off ≤ s.bits.length) (h : decodeConstrained lb ub s = .ok v s') :
    ∃ x : Nat, v = x + lb ∧ x < 65536 ∧ (ub - lb + 1 ≤ 256 → x < 256) ∧ lb ≤ ub ∧
      Eaten s s' (smallWord s.off (ub - lb + 1).toNat x) := by
  unfold decodeConstrained decodeConstrainedWith at h
  obtain ⟨d, t, h1, ha⟩ := bind_ok h
  obtain ⟨rfl, rfl⟩ := chkI128_ok h1
  obtain ⟨r, t, h2, hb⟩ := bind_ok ha
  obtain ⟨rfl, rfl⟩ := chkI128_ok h2
  split at hb
  · cases hb
  · next hpos =>
    obtain ⟨y, t2, h3, hc⟩ := bind_ok hb
    obtain ⟨rfl, rfl⟩ := chkI128_ok hc
    have e : ub - lb + 1 = ((ub - lb + 1).toNat : Int) := by omega
    rw [e] at h3
    obtain ⟨x, rfl, hx, h256, hw⟩ := Eaten.field (by omega) h0 h3
    exact ⟨x, rfl, hx, fun h => h256 (by omega), by omega, hw⟩

/-- What the encoder writes, if it accepts the value, is the word that was read. -/
theorem encodeConstrained_same {lb ub v : Int} {x : Nat} (hv : v = x + lb) (hR : ub - lb + 1 ≤ 65536)
    {p : Nat} {u u' : Codec} (hp : u.bits.length % 8 = p % 8)
    (h : encodeConstrained lb ub v u = .ok () u') :
    u'.bits = u.bits ++ smallWord p (ub - lb + 1).toNat x := by
  obtain ⟨R, y, hr, -⟩ := encodeConstrained_ok h
  have h1 := hr.hR
  have h2 := hr.hx
  have h3 := encodeConstrained_writes hr (by omega) p u hp
  rw [h] at h3
  injection h3 with _ h3
  rw [h3]
  show u.bits ++ cWord p R y = _
  unfold cWord
  rw [if_pos (by omega)]
  have : R = (ub - lb + 1).toNat := by omega
  have : y = x := by omega
  subst_vars
  rfl

theorem Eaten.length {lb ub : Option Int} (hs : SizeCanonical lb ub) {s s' : Codec} {n : Nat}
    (h0 : s.off ≤ s.bits.length) (h : decodeLength lb ub false s = .ok n s') :
    ∃ x : Nat, (n : Int) = x + lb.getD 0 ∧
      Eaten s s' (smallWord s.off (ub.getD 0 - lb.getD 0 + 1).toNat x) := by
  obtain ⟨hb, u, rfl, hu⟩ := hs
  have hu2 := hb.2 u rfl
  have hl : 0 ≤ lb.getD 0 := by
    cases lb with
    | none => exact Int.le_refl 0
    | some l => exact (hb.1 l rfl).1
  unfold decodeLength at h
  rw [if_neg (by decide), lengthLowerBound_eq hb, M.pure_bind'] at h
  dsimp only at h
  have e : toUsizeOrPanic u = Pure.pure u.toNat := by unfold toUsizeOrPanic; rw [if_pos hu2]
  rw [e, M.pure_bind', if_pos (by omega)] at h
  rw [Option.getD_some]
  split at h
  · next heq =>
    cases h
    refine ⟨0, by omega, ?_⟩
    have : (u - lb.getD 0 + 1).toNat = 1 := by omega
    rw [this]
    exact .refl h0
  · next hne =>
    unfold decodeConstrainedLength at h
    split at h
    · cases h
    · next hlt =>
      split at h
      · obtain ⟨v, t, h1, h⟩ := bind_ok h
        cases h
        obtain ⟨x, rfl, hx, -, -, hw⟩ := Eaten.constrained (by omega) h0 h1
        refine ⟨x, ?_, ?_⟩
        · unfold asUsize
          omega
        · have e1 : ((lb.getD 0).toNat : Int) = lb.getD 0 := by omega
          have e2 : (u.toNat : Int) = u := by omega
          rw [e1, e2] at hw
          exact hw
      · cases h

theorem encodeLength_same {lb ub : Option Int} (hs : SizeCanonical lb ub) {n x : Nat}
    (hn : (n : Int) = x + lb.getD 0) {p : Nat} {u u' : Codec} (hp : u.bits.length % 8 = p % 8)
    (h : encodeLength lb ub false n u = .ok () u') :
    u'.bits = u.bits ++ smallWord p (ub.getD 0 - lb.getD 0 + 1).toNat x := by
  obtain ⟨hb, v, rfl, hu⟩ := hs
  have hl : 0 ≤ lb.getD 0 := by
    cases lb with
    | none => exact Int.le_refl 0
    | some l => exact (hb.1 l rfl).1
  unfold encodeLength at h
  rw [if_neg (by decide)] at h
  dsimp only at h
  rw [if_pos hu] at h
  rw [Option.getD_some]
  exact encodeConstrained_same hn (by omega) hp h

/-- Two's complement truncation of a number read from a field narrower than the Rust type, if it
lands within the bounds, has changed nothing. -/
theorem Width.cast_within {w : Width} {l u : Int} {x : Nat} (hl : w.Fits l) (hu : w.Fits u)
    (hx : x < 65536) (h256 : u - l + 1 ≤ 256 → x < 256) (h1 : l ≤ w.cast (x + l))
    (h2 : w.cast (x + l) ≤ u) (h3 : u - l + 1 ≤ 65536) : w.cast (x + l) = x + l := by
  obtain ⟨-, k, hk⟩ := Width.cast_spec w (x + l)
  have hk0 : k = 0 := by
    unfold Width.Fits at hl hu
    cases w <;> simp only [Width.signed, Width.bits, if_true, Bool.false_eq_true, if_false] at hl hu hk <;>
      omega
  rw [hk0] at hk
  omega

/-! ## Strings -/

theorem fragLoop_le {len : M Nat} {n : Nat} {f : Nat → M (List α)} :
    (fuel : Nat) → (acc : List α) → (s s' : Codec) → (v : List α) →
    fragLoop len n f fuel acc s = .ok v s' → acc.length ≤ v.length
  | 0, _, _, _, _, h => by cases h
  | fuel + 1, acc, s, s', v, h => by
    unfold fragLoop at h
    obtain ⟨k, t, -, h⟩ := bind_ok h
    obtain ⟨c, t2, -, h⟩ := bind_ok h
    split at h
    · have := fragLoop_le fuel _ _ _ _ h
      rw [List.length_append] at this
      omega
    · cases h
      rw [List.length_append]
      omega

/-- Units of a string, with their bits. -/
def Units (get : Nat → M (List α)) (bits : List α → List Bool) : Prop :=
  ∀ n s l s', get n s = .ok l s' → l.length = n ∧ Eaten s s' (bits l)

theorem Units.bitvec : Units getBitvec id := by
  intro n s l s' h
  rw [getBitvec_eq] at h
  exact Eaten.take h

theorem bytesBits_bitsBytes_of {l : List Bool} {n : Nat} (h : l.length = n * 8) :
    (bitsBytes l).length = n ∧ bytesBits (bitsBytes l) = l := by
  obtain ⟨bs, hn, rfl⟩ := exists_bytes (n := n) (l := l) (by omega)
  rw [bitsBytes_bytesBits]
  exact ⟨hn, rfl⟩

theorem Units.bytes : Units getBytes bytesBits := by
  intro n s l s' h
  rw [getBytes_eq] at h
  obtain ⟨w, t, h1, h⟩ := bind_ok h
  obtain ⟨h2, h3⟩ := Eaten.take h1
  cases h
  obtain ⟨h4, h5⟩ := bytesBits_bitsBytes_of h2
  rw [h5]
  exact ⟨h4, h3⟩

theorem Eaten.chunk {a : Nat} {get : Nat → M (List α)} {bits : List α → List Bool}
    (hg : Units get bits) {s s' : Codec} {n : Nat} {l : List α}
    (h0 : s.off ≤ s.bits.length) (h : decodeChunk a get n s = .ok l s') :
    l.length = n ∧ Eaten s s' (if 0 < n then (if decide (a < n) then pad s.off else []) ++ bits l else []) := by
  unfold decodeChunk at h
  by_cases hn : 0 < n
  · rw [if_pos hn] at h ⊢
    obtain ⟨u, t, h1, h⟩ := bind_ok h
    obtain ⟨h2, h3⟩ := hg _ _ _ _ h
    exact ⟨h2, (Eaten.alignIf h0 h1).trans h3⟩
  · rw [if_neg hn] at h ⊢
    cases h
    exact ⟨by simp; omega, .refl h0⟩

/-- A string that was read in one piece, or one too long for the encoder. -/
theorem Eaten.fragments {lb ub : Option Int} (hs : SizeCanonical lb ub) {a : Nat}
    {get : Nat → M (List α)} {bits : List α → List Bool} (hg : Units get bits)
    {s s' : Codec} {v : List α} (h0 : s.off ≤ s.bits.length)
    (h : decodeFragments (decodeStringLength false lb ub) a get s = .ok v s') :
    16384 ≤ v.length ∨ ∃ x : Nat, (v.length : Int) = x + lb.getD 0 ∧
      ∃ t, Eaten s t (smallWord s.off (ub.getD 0 - lb.getD 0 + 1).toNat x) ∧
        Eaten t s' (if 0 < v.length then (if decide (a < v.length) then pad t.off else []) ++ bits v
          else []) := by
  unfold decodeFragments fragLoop at h
  obtain ⟨n, t, h1, h⟩ := bind_ok h
  obtain ⟨x, hx, hw⟩ := Eaten.length hs h0 h1
  obtain ⟨c, t2, h2, h⟩ := bind_ok h
  obtain ⟨hc, hw2⟩ := Eaten.chunk hg hw.end_le h2
  split at h
  · have := fragLoop_le _ _ _ _ _ h
    rw [List.nil_append] at this
    left
    omega
  · right
    cases h
    rw [List.nil_append, hc]
    exact ⟨x, hx, t, hw, hw2⟩

end Hampi
