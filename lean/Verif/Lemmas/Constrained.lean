import Verif.Lemmas.RoundTrip
/-!
# Constrained whole numbers: exact outcome of the encoder, and what the decoder makes of it
-/
namespace Hampi

theorem encFieldBits_eq {R : Int} (h1 : 1 ≤ R) (h2 : R ≤ 255) :
    encFieldBits R = some (decFieldBits R) := by
  have h : ∀ n : Fin 256, 1 ≤ n.val →
      encFieldBits (n.val : Int) = some (decFieldBits (n.val : Int)) := by decide +kernel
  have h3 := h ⟨R.toNat, by omega⟩ (by dsimp only; omega)
  simpa [Int.toNat_of_nonneg (show 0 ≤ R by omega)] using h3

theorem decFieldBits_le (R : Int) : decFieldBits R ≤ 8 := by
  unfold decFieldBits; repeat' split
  all_goals omega

theorem lt_pow_decFieldBits {R : Int} {x : Nat} (h2 : R ≤ 256) (hx : (x : Int) < R) :
    x < 2 ^ decFieldBits R := by
  unfold decFieldBits; repeat' split
  all_goals omega

/-- The bits of offset `x` in a range of `R ≤ 65536` values. -/
def smallWord (p R x : Nat) : List Bool :=
  if R < 256 then natToBits (decFieldBits R) x
  else if R = 256 then pad p ++ natToBits 8 x
  else pad p ++ natToBits 16 x

/-- The length field of a large range. -/
def lenField (R x : Nat) : List Bool :=
  natToBits (decFieldBits (octets R : Nat)) (octets x - 1)

/-- The bits of offset `x` in a range of `R` values. -/
def cWord (p R x : Nat) : List Bool :=
  if R ≤ 65536 then smallWord p R x
  else lenField R x ++ (pad (p + (lenField R x).length) ++ natToBits (8 * octets x) x)

theorem asU8_natCast {x : Nat} (h : x < 256) : asU8 (x : Int) = x := by unfold asU8; omega
theorem asU16_natCast {x : Nat} (h : x < 65536) : asU16 (x : Int) = x := by unfold asU16; omega

theorem encodeConstrainedWith_outside (large : Int → Int → M Unit) {lb ub v : Int}
    (h : v < lb ∨ ub < v) (p : Nat) : Fails (encodeConstrainedWith large lb ub v) p [] := by
  unfold encodeConstrainedWith
  by_cases h1 : v < lb
  · rw [if_pos h1]; exact .fail p
  · rw [if_neg h1, if_pos (by omega)]; exact .fail p

theorem encodeConstrainedWith_overflow (large : Int → Int → M Unit) {lb ub v : Int}
    (h1 : lb ≤ v) (h2 : v ≤ ub) (h : 2 ^ 127 ≤ ub - lb + 1) :
    encodeConstrainedWith large lb ub v = M.panic := by
  unfold encodeConstrainedWith
  rw [if_neg (by omega), if_neg (by omega)]
  by_cases hd : IsI128 (ub - lb)
  · rw [chkI128_bind hd, chkI128_bind_panic]
    unfold IsI128; omega
  · rw [chkI128_bind_panic hd]

/-- Bounds `lb..=ub` whose number of values does not overflow, and a value inside. -/
structure InRange (lb ub v : Int) (R x : Nat) : Prop where
  hR : (R : Int) = ub - lb + 1
  hx : (x : Int) = v - lb
  lt : x < R
  max : R < 2 ^ 127

theorem InRange.of {lb ub v : Int} (h1 : lb ≤ v) (h2 : v ≤ ub) (h : ub - lb + 1 < 2 ^ 127) :
    InRange lb ub v (ub - lb + 1).toNat (v - lb).toNat :=
  ⟨by omega, by omega, by omega, by omega⟩

theorem encodeConstrainedWith_in (large : Int → Int → M Unit) {lb ub v : Int} {R x : Nat}
    (h : InRange lb ub v R x) : encodeConstrainedWith large lb ub v =
      if R < 256 then appendBits (natToBits (decFieldBits R) x)
      else if R = 256 then (do align; appendBits (natToBits 8 x))
      else if R ≤ 65536 then (do align; appendBits (natToBits 16 x))
      else large R x := by
  obtain ⟨hR, hx, hlt, hmax⟩ := h
  unfold encodeConstrainedWith
  rw [if_neg (by omega), if_neg (by omega),
    chkI128_bind (by unfold IsI128; omega), chkI128_bind (by unfold IsI128; omega),
    chkI128_bind (by unfold IsI128; omega), ← hR, ← hx]
  by_cases h1 : R < 256
  · rw [if_pos (by omega), if_neg (by omega), encFieldBits_eq (by omega) (by omega)]
    have hle := decFieldBits_le R
    rw [if_pos h1, asU8_natCast (by omega)]
    dsimp only
    rw [natToBits_drop _ _ _ (by omega)]
    congr 2; omega
  · rw [if_neg h1]
    by_cases h2 : R = 256
    · rw [if_pos (by omega), if_pos (by omega), if_pos h2, asU8_natCast (by omega)]
    · rw [if_neg (by omega), if_neg h2]
      by_cases h3 : R ≤ 65536
      · rw [if_pos (by omega), if_pos h3, asU16_natCast (by omega)]
      · rw [if_neg (by omega), if_neg h3]

/-- For ranges up to 65536 the non-recursive part is all there is: the recursive call of the code
(bounds `1..=16` at most) is the model's `encodeConstrainedSmall`. -/
theorem encodeConstrained_small {lb ub v : Int} (h : ub - lb + 1 ≤ 65536) :
    encodeConstrained lb ub v = encodeConstrainedSmall lb ub v := by
  by_cases h1 : v < lb
  · simp [encodeConstrained, encodeConstrainedSmall, encodeConstrainedWith, h1]
  · by_cases h2 : ub < v
    · simp [encodeConstrained, encodeConstrainedSmall, encodeConstrainedWith, h2, h1]
    · have hi := InRange.of (lb := lb) (ub := ub) (v := v) (by omega) (by omega) (by omega)
      unfold encodeConstrained encodeConstrainedSmall
      rw [encodeConstrainedWith_in _ hi, encodeConstrainedWith_in _ hi]
      have : (ub - lb + 1).toNat ≤ 65536 := by omega
      simp only [if_pos this]

theorem encodeConstrainedSmall_writes {lb ub v : Int} {R x : Nat} (h : InRange lb ub v R x)
    (hs : R ≤ 65536) (p : Nat) : Writes (encodeConstrainedSmall lb ub v) p (smallWord p R x) := by
  unfold encodeConstrainedSmall smallWord
  rw [encodeConstrainedWith_in _ h, if_pos hs]
  split
  · exact .append p _
  · split
    · exact .bind (.align p) (.append _ _)
    · exact .bind (.align p) (.append _ _)

theorem octets_range_bounds {R : Nat} (h1 : 65536 < R) (h2 : R < 2 ^ 127) :
    3 ≤ octets R ∧ octets R ≤ 16 := by
  constructor
  · have := octets_lt R
    apply Decidable.byContradiction
    intro h
    have h3 : (256 : Nat) ^ octets R ≤ 256 ^ 2 := Nat.pow_le_pow_right (by omega) (by omega)
    omega
  · exact octets_le (by omega)

theorem encodeConstrained_large {lb ub v : Int} {R x : Nat} (h : InRange lb ub v R x)
    (hs : 65536 < R) : encodeConstrained lb ub v = (do
      encodeConstrainedSmall 1 (octets R) (octets x)
      align
      appendBits (natToBits (8 * octets x) x)) := by
  unfold encodeConstrained
  rw [encodeConstrainedWith_in _ h, if_neg (by omega), if_neg (by omega), if_neg (by omega)]
  obtain ⟨hR, hx, hlt, hmax⟩ := h
  dsimp only
  rw [bytesNeededForRange_eq (by omega) (by omega), Int.toNat_natCast, i128Bytes_eq,
    toU128_of_nonneg (by omega) (by omega), Int.toNat_natCast,
    beBytes_findIdx 16 x (by omega), beBytes_drop, beBytes_bits]
  have : octets x ≤ 16 := octets_le (by omega)
  have h1 : 16 - (16 - octets x) = octets x := by omega
  have h2 : (16 : Int) - ((16 - octets x : Nat) : Int) = (octets x : Nat) := by omega
  rw [h1, h2]

theorem octets_zero : octets 0 = 0 := by simp [octets]

theorem encodeConstrained_lower {lb ub v : Int} {R x : Nat} (h : InRange lb ub v R x)
    (hs : 65536 < R) (hx : x = 0) (p : Nat) : Fails (encodeConstrained lb ub v) p [] := by
  rw [encodeConstrained_large h hs, hx, octets_zero]
  exact .bind (encodeConstrainedWith_outside _ (by omega) p)

theorem lenField_inRange {R x : Nat} (hs : 65536 < R) (hm : R < 2 ^ 127) (hlt : x < R) (hx : 0 < x) :
    InRange 1 (octets R) (octets x) (octets R) (octets x - 1) := by
  have h1 := octets_range_bounds hs hm
  have h2 := octets_pos hx
  have h3 := octets_mono (Nat.le_of_lt hlt)
  exact ⟨by omega, by omega, by omega, by omega⟩

theorem lenField_eq {R x : Nat} (hs : 65536 < R) (hm : R < 2 ^ 127) (p : Nat) :
    smallWord p (octets R) (octets x - 1) = lenField R x := by
  have h1 := octets_range_bounds hs hm
  unfold smallWord lenField
  rw [if_pos (by omega)]

theorem encodeConstrained_writes {lb ub v : Int} {R x : Nat} (h : InRange lb ub v R x)
    (hs : R ≤ 65536 ∨ 0 < x) (p : Nat) : Writes (encodeConstrained lb ub v) p (cWord p R x) := by
  unfold cWord
  by_cases h1 : R ≤ 65536
  · rw [if_pos h1, encodeConstrained_small (by have := h.hR; omega)]
    exact encodeConstrainedSmall_writes h h1 p
  · rw [if_neg h1, encodeConstrained_large h (by omega)]
    have hl := lenField_inRange (by omega) h.max h.lt (by omega : 0 < x)
    have h2 := octets_range_bounds (by omega) h.max
    have h3 := encodeConstrainedSmall_writes hl (by omega) p
    rw [lenField_eq (by omega) h.max] at h3
    exact .bind h3 (.bind (.align _) (.append _ _))

/-- The three possible outcomes for a value within the bounds. -/
theorem encodeConstrained_ok {lb ub v : Int} {s s' : Codec}
    (h : encodeConstrained lb ub v s = .ok () s') :
    ∃ R x, InRange lb ub v R x ∧ (R ≤ 65536 ∨ 0 < x) := by
  by_cases h1 : v < lb ∨ ub < v
  · have := encodeConstrainedWith_outside (fun range v => do
      let n := bytesNeededForRange range
      let bytes := i128Bytes v
      let firstNonZero := bytes.findIdx (fun x => x ≠ 0)
      encodeConstrainedSmall 1 n (16 - (firstNonZero : Int))
      align
      appendBits ((bytes.drop firstNonZero).flatMap (natToBits 8))) h1 s.bits.length s rfl
    unfold encodeConstrained at h
    rw [this] at h; cases h
  · by_cases h2 : 2 ^ 127 ≤ ub - lb + 1
    · unfold encodeConstrained at h
      rw [encodeConstrainedWith_overflow _ (by omega) (by omega) h2] at h; cases h
    · have hi := InRange.of (lb := lb) (ub := ub) (v := v) (by omega) (by omega) (by omega)
      refine ⟨_, _, hi, ?_⟩
      apply Decidable.byContradiction
      intro hn
      rw [encodeConstrained_lower hi (by omega) (by omega) s.bits.length s rfl] at h
      cases h

/-! ## Decoder -/

theorem decodeConstrainedWith_eq (large : Int → M Int) {lb ub : Int} {R : Nat}
    (hR : (R : Int) = ub - lb + 1) (h0 : 0 < R) (hm : R < 2 ^ 127) :
    decodeConstrainedWith large lb ub =
      (decodeConstrainedField large R >>= fun v => chkI128 (v + lb)) := by
  unfold decodeConstrainedWith
  rw [chkI128_bind (by unfold IsI128; omega), chkI128_bind (by unfold IsI128; omega),
    if_neg (by omega), ← hR]

theorem decodeField_small (large : Int → M Int) {R x : Nat} (hx : x < R) (hs : R ≤ 65536) (p : Nat) :
    Decodes (decodeConstrainedField large R) p (smallWord p R x) (x : Int) := by
  unfold decodeConstrainedField smallWord
  by_cases h1 : R < 256
  · rw [if_pos h1, if_pos (by omega)]
    have h8 := decFieldBits_le R
    exact .nat p (by omega) (lt_pow_decFieldBits (by omega) (by omega)) (by omega)
  · rw [if_neg h1, if_neg (by omega)]
    by_cases h2 : R = 256
    · rw [if_pos h2, if_pos (by omega)]
      exact .bind (.align p) (.nat _ (by omega) (by omega) (by omega))
    · rw [if_neg h2, if_neg (by omega), if_pos (by omega)]
      exact .bind (.align p) (.nat _ (by omega) (by omega) (by omega))

theorem decodes_chk {m : M Int} {p : Nat} {w : List Bool} {a : Int} (h : Decodes m p w a)
    {lb : Int} (hv : IsI128 (a + lb)) :
    Decodes (m >>= fun v => chkI128 (v + lb)) p w (a + lb) := by
  have : Decodes (chkI128 (a + lb)) (p + w.length) [] (a + lb) := by
    unfold chkI128; rw [if_pos hv]; exact .pure _ _
  have h2 := Decodes.bind (g := fun v => chkI128 (v + lb)) h this
  simpa using h2

theorem decodeConstrainedSmall_decodes {lb ub v : Int} {R x : Nat} (h : InRange lb ub v R x)
    (hv : IsI128 v) (hs : R ≤ 65536) (p : Nat) :
    Decodes (decodeConstrainedSmall lb ub) p (smallWord p R x) v := by
  unfold decodeConstrainedSmall
  have hlt := h.lt
  rw [decodeConstrainedWith_eq _ h.hR (by omega) h.max]
  have hvx : (x : Int) + lb = v := by have := h.hx; omega
  have := decodes_chk (decodeField_small (fun _ => M.panic) h.lt hs p) (lb := lb) (by rwa [hvx])
  rwa [hvx] at this

theorem asUsize_natCast {x : Nat} (h : x < 2 ^ 64) : asUsize (x : Int) = x := by
  unfold asUsize; omega

theorem decodeConstrainedLengthSmall_decodes {R x : Nat} (hs : 65536 < R) (hm : R < 2 ^ 127)
    (hlt : x < R) (hx : 0 < x) (p : Nat) :
    Decodes (decodeConstrainedLengthSmall 1 (octets R)) p (lenField R x) (octets x) := by
  have hl := lenField_inRange hs hm hlt hx
  have h2 := octets_range_bounds hs hm
  have h3 := octets_mono (Nat.le_of_lt hlt)
  unfold decodeConstrainedLengthSmall
  rw [if_neg (by omega), if_pos (by omega)]
  have h := decodeConstrainedSmall_decodes hl (by unfold IsI128; omega) (by omega) p
  rw [lenField_eq hs hm] at h
  have := Decodes.map h asUsize
  rw [asUsize_natCast (by omega)] at this
  exact this

theorem decodeConstrained_decodes {lb ub v : Int} {R x : Nat} (h : InRange lb ub v R x)
    (hv : IsI128 v) (hs : R ≤ 65536 ∨ 0 < x) (p : Nat) :
    Decodes (decodeConstrained lb ub) p (cWord p R x) v := by
  unfold decodeConstrained cWord
  have hlt := h.lt
  have hm := h.max
  rw [decodeConstrainedWith_eq _ h.hR (by omega) h.max]
  have hvx : (x : Int) + lb = v := by have := h.hx; omega
  rw [← hvx]
  apply decodes_chk _ (by rwa [hvx])
  by_cases h1 : R ≤ 65536
  · rw [if_pos h1]; exact decodeField_small _ h.lt h1 p
  · rw [if_neg h1]
    unfold decodeConstrainedField
    rw [if_neg (by omega), if_neg (by omega), if_neg (by omega)]
    dsimp only
    rw [bytesNeededForRange_eq (by omega) (by omega), Int.toNat_natCast]
    refine .bind (decodeConstrainedLengthSmall_decodes (by omega) h.max h.lt (by omega) p)
      (.bind (.align _) ?_)
    have h4 : octets x ≤ 16 := octets_le (by omega)
    have h5 := octets_lt x
    rw [pow256] at h5
    rw [Nat.mul_comm]
    exact .nat _ (by omega) h5 (by omega)

end Hampi
