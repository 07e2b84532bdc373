import Verif.Bits
/-! # Lemmas about bit lists -/
namespace Hampi

@[simp] theorem natToBits_length (n v : Nat) : (natToBits n v).length = n := by
  induction n with
  | zero => rfl
  | succ n ih => simp [natToBits, ih]

theorem bitsToNat_lt (l : List Bool) : bitsToNat l < 2 ^ l.length := by
  induction l with
  | nil => simp [bitsToNat]
  | cons b bs ih =>
    simp only [bitsToNat, List.length_cons, Nat.pow_succ]
    cases b <;> simp <;> omega

theorem bitsToNat_append (a b : List Bool) :
    bitsToNat (a ++ b) = bitsToNat a * 2 ^ b.length + bitsToNat b := by
  induction a with
  | nil => simp [bitsToNat]
  | cons x xs ih =>
    simp only [List.cons_append, bitsToNat, ih, List.length_append, Nat.pow_add]
    rw [Nat.add_mul, Nat.mul_assoc, Nat.add_assoc]

theorem mod_two_pow_succ' (v n : Nat) :
    v % 2 ^ (n + 1) = (v.testBit n).toNat * 2 ^ n + v % 2 ^ n := by
  rw [Nat.testBit_eq_decide_div_mod_eq, Nat.pow_succ, Nat.mod_mul]
  have := Nat.mod_two_eq_zero_or_one (v / 2 ^ n)
  rcases this with h | h <;> simp [h] <;> omega

theorem bitsToNat_natToBits (n v : Nat) : bitsToNat (natToBits n v) = v % 2 ^ n := by
  induction n with
  | zero => simp [natToBits, bitsToNat, Nat.mod_one]
  | succ n ih =>
    simp only [natToBits, bitsToNat, natToBits_length, ih]
    rw [mod_two_pow_succ']

theorem bitsToNat_natToBits_of_lt {n v : Nat} (h : v < 2 ^ n) :
    bitsToNat (natToBits n v) = v := by
  rw [bitsToNat_natToBits, Nat.mod_eq_of_lt h]

theorem bitsToNat_inj {a b : List Bool} (hl : a.length = b.length)
    (h : bitsToNat a = bitsToNat b) : a = b := by
  induction a generalizing b with
  | nil => cases b <;> simp_all
  | cons x xs ih =>
    cases b with
    | nil => simp at hl
    | cons y ys =>
      simp only [List.length_cons, Nat.add_right_cancel_iff] at hl
      simp only [bitsToNat, hl] at h
      have h1 := bitsToNat_lt xs
      have h2 := bitsToNat_lt ys
      rw [hl] at h1
      cases x <;> cases y <;> simp at h
      · rw [ih hl h]
      · omega
      · omega
      · rw [ih hl h]

theorem natToBits_bitsToNat (l : List Bool) : natToBits l.length (bitsToNat l) = l := by
  apply bitsToNat_inj (by simp)
  rw [bitsToNat_natToBits_of_lt (bitsToNat_lt l)]

theorem natToBits_mod {n m : Nat} (v : Nat) (h : n ≤ m) : natToBits n (v % 2 ^ m) = natToBits n v := by
  apply bitsToNat_inj (by simp)
  rw [bitsToNat_natToBits, bitsToNat_natToBits, Nat.mod_mod_of_dvd _ (Nat.pow_dvd_pow 2 h)]

theorem natToBits_congr {n a b : Nat} (h : a % 2 ^ n = b % 2 ^ n) : natToBits n a = natToBits n b := by
  rw [← natToBits_mod a (Nat.le_refl n), h, natToBits_mod b (Nat.le_refl n)]

theorem natToBits_add (m n v : Nat) : natToBits (m + n) v = natToBits m (v / 2 ^ n) ++ natToBits n v := by
  induction m with
  | zero => simp [natToBits]
  | succ m ih =>
    rw [show m + 1 + n = (m + n) + 1 by omega]
    simp only [natToBits, ih, List.cons_append, Nat.testBit_div_two_pow]

theorem natToBits_drop (m n v : Nat) (h : m ≤ n) :
    (natToBits n v).drop m = natToBits (n - m) v := by
  obtain ⟨k, rfl⟩ := Nat.exists_eq_add_of_le h
  rw [natToBits_add, List.drop_left' (by simp)]
  congr 1; omega

theorem natToBits_take (m n v : Nat) (h : m ≤ n) :
    (natToBits n v).take m = natToBits m (v / 2 ^ (n - m)) := by
  obtain ⟨k, rfl⟩ := Nat.exists_eq_add_of_le h
  rw [natToBits_add, List.take_left' (by simp), show m + k - m = k by omega]

theorem natToBits_zero (n : Nat) : natToBits n 0 = List.replicate n false := by
  induction n with
  | zero => rfl
  | succ n ih => simp [natToBits, ih, List.replicate_succ]

theorem bitsToNat_replicate_false (n : Nat) : bitsToNat (List.replicate n false) = 0 := by
  rw [← natToBits_zero, bitsToNat_natToBits]; simp

/-! ## Octets -/

@[simp] theorem byteBits_length (b : UInt8) : (byteBits b).length = 8 := by simp [byteBits]

@[simp] theorem bytesBits_nil : bytesBits [] = [] := rfl
theorem bytesBits_cons (b : UInt8) (bs : List UInt8) :
    bytesBits (b :: bs) = byteBits b ++ bytesBits bs := by simp [bytesBits]
theorem bytesBits_append (a b : List UInt8) :
    bytesBits (a ++ b) = bytesBits a ++ bytesBits b := by simp [bytesBits]

@[simp] theorem bytesBits_length (bs : List UInt8) : (bytesBits bs).length = 8 * bs.length := by
  induction bs with
  | nil => rfl
  | cons b bs ih => simp [bytesBits_cons, ih]; omega

theorem ofNat_bitsToNat_byteBits (b : UInt8) : UInt8.ofNat (bitsToNat (byteBits b)) = b := by
  unfold byteBits
  rw [bitsToNat_natToBits_of_lt (by simpa using b.toNat_lt)]
  simp

theorem byteBits_ofNat {l : List Bool} (h : l.length = 8) :
    byteBits (UInt8.ofNat (bitsToNat l)) = l := by
  unfold byteBits
  have := bitsToNat_lt l
  rw [h] at this
  rw [UInt8.toNat_ofNat_of_lt' (by simpa using this)]
  rw [← h, natToBits_bitsToNat]

theorem exists_eight {l : List Bool} (h : l.length = 8) :
    ∃ a b c d e f g i, l = [a, b, c, d, e, f, g, i] := by
  match l, h with
  | [a, b, c, d, e, f, g, i], _ => exact ⟨a, b, c, d, e, f, g, i, rfl⟩

theorem bitsBytes_eight_append {l r : List Bool} (h : l.length = 8) :
    bitsBytes (l ++ r) = UInt8.ofNat (bitsToNat l) :: bitsBytes r := by
  obtain ⟨a, b, c, d, e, f, g, i, rfl⟩ := exists_eight h
  simp [bitsBytes]

theorem bitsBytes_bytesBits_append (bs : List UInt8) (r : List Bool) :
    bitsBytes (bytesBits bs ++ r) = bs ++ bitsBytes r := by
  induction bs with
  | nil => simp
  | cons b bs ih =>
    rw [bytesBits_cons, List.append_assoc, bitsBytes_eight_append (by simp), ih,
      ofNat_bitsToNat_byteBits]
    rfl

@[simp] theorem bitsBytes_nil : bitsBytes [] = [] := by simp [bitsBytes]

theorem bitsBytes_bytesBits (bs : List UInt8) : bitsBytes (bytesBits bs) = bs := by
  have := bitsBytes_bytesBits_append bs []
  simpa using this

theorem exists_bytes {n : Nat} {l : List Bool} (h : l.length = 8 * n) :
    ∃ bs : List UInt8, bs.length = n ∧ l = bytesBits bs := by
  induction n generalizing l with
  | zero => exact ⟨[], rfl, by simpa using h⟩
  | succ n ih =>
    have h1 : (l.take 8).length = 8 := by rw [List.length_take]; omega
    have h2 : (l.drop 8).length = 8 * n := by rw [List.length_drop]; omega
    obtain ⟨bs, hb, he⟩ := ih h2
    refine ⟨UInt8.ofNat (bitsToNat (l.take 8)) :: bs, by simp [hb], ?_⟩
    rw [bytesBits_cons, byteBits_ofNat h1, ← he, List.take_append_drop]

/-- Short remainder (fewer than eight bits, at least one). -/
theorem bitsBytes_short {l : List Bool} (h0 : 0 < l.length) (h8 : l.length < 8) :
    bitsBytes l = [UInt8.ofNat (bitsToNat (l ++ List.replicate (8 - l.length) false))] := by
  match l, h0, h8 with
  | [_], _, _ => rfl
  | [_, _], _, _ => rfl
  | [_, _, _], _, _ => rfl
  | [_, _, _, _], _, _ => rfl
  | [_, _, _, _, _], _, _ => rfl
  | [_, _, _, _, _, _], _, _ => rfl
  | [_, _, _, _, _, _, _], _, _ => rfl

/-- Padding to the next octet boundary. -/
def padLen (n : Nat) : Nat := (8 - n % 8) % 8

theorem padLen_add (n : Nat) : (n + padLen n) % 8 = 0 := by unfold padLen; omega
theorem padLen_lt (n : Nat) : padLen n < 8 := by unfold padLen; omega
theorem padLen_congr {m n : Nat} (h : m % 8 = n % 8) : padLen m = padLen n := by
  unfold padLen; rw [h]

theorem bytesBits_bitsBytes (l : List Bool) :
    bytesBits (bitsBytes l) = l ++ List.replicate (padLen l.length) false := by
  have hlen : l.length = 8 * (l.length / 8) + l.length % 8 := by omega
  have h1 : (l.take (8 * (l.length / 8))).length = 8 * (l.length / 8) := by
    rw [List.length_take]; omega
  obtain ⟨bs, hb, he⟩ := exists_bytes h1
  have h2 : (l.drop (8 * (l.length / 8))).length = l.length % 8 := by
    rw [List.length_drop]; omega
  have hl : l = bytesBits bs ++ l.drop (8 * (l.length / 8)) := by
    rw [← he, List.take_append_drop]
  generalize hr : l.drop (8 * (l.length / 8)) = r at *
  have hmod : l.length % 8 = r.length := h2.symm
  have hr8 : r.length < 8 := by omega
  have hpad : padLen l.length = padLen r.length := by
    apply padLen_congr; omega
  rw [hpad]
  rw [hl, bitsBytes_bytesBits_append, bytesBits_append, List.append_assoc]
  congr 1
  by_cases h0 : r.length = 0
  · have : r = [] := List.length_eq_zero_iff.mp h0
    subst this; simp [padLen]
  · rw [bitsBytes_short (by omega) hr8, bytesBits_cons]
    have hp : padLen r.length = 8 - r.length := by unfold padLen; omega
    rw [hp, byteBits_ofNat (by simp; omega)]
    simp

end Hampi
