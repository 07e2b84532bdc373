import Verif.Lemmas.Bits
import Verif.Codec.Encode
import Verif.Spec.X691
/-!
# Leading zeros/ones, octet counts, two's complement
-/
namespace Hampi
open Spec (FitsTwos)

theorem testBit_of_lt_pow {n v : Nat} (h : v < 2 ^ (n + 1)) : v.testBit n = decide (2 ^ n ≤ v) := by
  rw [Nat.testBit_eq_decide_div_mod_eq]
  have hp : 0 < 2 ^ n := Nat.pow_pos (by omega)
  rw [Nat.pow_succ] at h
  by_cases hle : 2 ^ n ≤ v
  · have h1 : v / 2 ^ n = 1 := by
      rw [Nat.div_eq_iff hp]; omega
    simp [h1, hle]
  · have h1 : v / 2 ^ n = 0 := Nat.div_eq_of_lt (by omega)
    simp [h1, hle]

/-- Leading zeros of an `n`-bit number. -/
theorem leadingZeros_spec (n v : Nat) (h : v < 2 ^ n) :
    let z := ((natToBits n v).takeWhile (fun b => !b)).length
    z ≤ n ∧ v < 2 ^ (n - z) ∧ (z < n → 2 ^ (n - z - 1) ≤ v) := by
  induction n with
  | zero => simpa [natToBits] using h
  | succ n ih =>
    simp only [natToBits, testBit_of_lt_pow h]
    by_cases hle : 2 ^ n ≤ v
    · simp [hle, h]
    · have h1 := ih (by omega)
      simp only [hle, decide_false, Bool.not_false, List.takeWhile_cons_of_pos, List.length_cons]
      obtain ⟨a, b, c⟩ := h1
      refine ⟨by omega, ?_, ?_⟩
      · rwa [Nat.add_sub_add_right]
      · intro hz; rw [Nat.add_sub_add_right]; exact c (by omega)

/-- Leading ones of an `n`-bit number. -/
theorem leadingOnes_spec (n v : Nat) (h : v < 2 ^ n) :
    let z := ((natToBits n v).takeWhile (fun b => b)).length
    z ≤ n ∧ 2 ^ n ≤ v + 2 ^ (n - z) ∧ (z < n → v + 2 ^ (n - z - 1) < 2 ^ n) := by
  induction n generalizing v with
  | zero => simp [natToBits]
  | succ n ih =>
    simp only [natToBits, testBit_of_lt_pow h]
    rw [Nat.pow_succ] at h ⊢
    by_cases hle : 2 ^ n ≤ v
    · have h1 := ih (v - 2 ^ n) (by omega)
      have h2 : natToBits n v = natToBits n (v - 2 ^ n) := by
        apply natToBits_congr
        conv => lhs; rw [show v = (v - 2 ^ n) + 2 ^ n by omega, Nat.add_mod_right]
      rw [← h2] at h1
      simp only [hle, decide_true, List.takeWhile_cons_of_pos, List.length_cons]
      obtain ⟨a, b, c⟩ := h1
      refine ⟨by omega, ?_, ?_⟩
      · rw [Nat.add_sub_add_right]; omega
      · intro hz; rw [Nat.add_sub_add_right]; have := c (by omega); omega
    · simp only [hle, decide_false]
      simp [Nat.pow_succ]
      omega

theorem toU128_of_nonneg {v : Int} (h0 : 0 ≤ v) (h : v < 2 ^ 128) : toU128 v = v.toNat := by
  unfold toU128; rw [Int.emod_eq_of_lt h0 h]

theorem toU128_of_neg {v : Int} (h0 : v < 0) (h : -(2 ^ 127) ≤ v) :
    (toU128 v : Int) = v + 2 ^ 128 := by
  unfold toU128; omega

theorem toU128_lt (v : Int) : toU128 v < 2 ^ 128 := by unfold toU128; omega

/-- The least number of octets holding `v` as an unsigned number (0 for 0). -/
def octets (v : Nat) : Nat := if v = 0 then 0 else octets (v / 256) + 1
termination_by v
decreasing_by omega

theorem octets_lt (v : Nat) : v < 256 ^ octets v := by
  induction v using Nat.strongRecOn with
  | ind v ih =>
    unfold octets
    split
    · simp_all
    · have := ih (v / 256) (by omega)
      rw [Nat.pow_succ]
      omega

theorem octets_ge {v : Nat} (h : 0 < v) : 256 ^ (octets v - 1) ≤ v := by
  induction v using Nat.strongRecOn with
  | ind v ih =>
    unfold octets
    rw [if_neg (by omega), Nat.add_sub_cancel]
    by_cases h2 : v / 256 = 0
    · rw [h2]; simp [octets]; omega
    · have := ih (v / 256) (by omega) (by omega)
      have h3 : 0 < octets (v / 256) := by unfold octets; rw [if_neg h2]; omega
      obtain ⟨k, hk⟩ := Nat.exists_eq_succ_of_ne_zero (Nat.pos_iff_ne_zero.mp h3)
      rw [hk] at this ⊢
      rw [Nat.succ_sub_one] at this
      rw [Nat.pow_succ]
      omega

theorem octets_pos {v : Nat} (h : 0 < v) : 0 < octets v := by
  unfold octets; rw [if_neg (by omega)]; omega

/-- `octets v` is the least such number. -/
theorem octets_le {v k : Nat} (h : v < 256 ^ k) : octets v ≤ k := by
  by_cases h0 : v = 0
  · subst h0; simp [octets]
  · have h1 := octets_ge (Nat.pos_of_ne_zero h0)
    have h2 : 256 ^ (octets v - 1) < 256 ^ k := by omega
    have := (Nat.pow_lt_pow_iff_right (by omega : 1 < 256)).mp h2
    omega

theorem octets_unique {v k : Nat} (h : v < 256 ^ k) (h2 : 0 < k → 256 ^ (k - 1) ≤ v) :
    octets v = k := by
  have h1 := octets_le h
  by_cases hk : k = 0
  · omega
  · have h3 := h2 (by omega)
    have h4 := octets_lt v
    have h5 : 256 ^ (k - 1) < 256 ^ octets v := by omega
    have := (Nat.pow_lt_pow_iff_right (by omega : 1 < 256)).mp h5
    omega

theorem octets_mono {a b : Nat} (h : a ≤ b) : octets a ≤ octets b :=
  octets_le (Nat.lt_of_le_of_lt h (octets_lt b))

theorem pow256 (k : Nat) : 256 ^ k = 2 ^ (8 * k) := by rw [Nat.pow_mul]

/-! ## Big-endian octets -/

/-- The last `n` octets of `u`, most significant first. -/
def beBytes : Nat → Nat → List Nat
  | 0, _ => []
  | n + 1, u => (u / 2 ^ (8 * n) % 256) :: beBytes n u

@[simp] theorem beBytes_length (n u : Nat) : (beBytes n u).length = n := by
  induction n with
  | zero => rfl
  | succ n ih => simp [beBytes, ih]

theorem beBytes_drop (n u k : Nat) : (beBytes n u).drop k = beBytes (n - k) u := by
  induction n generalizing k with
  | zero => simp [beBytes]
  | succ n ih =>
    cases k with
    | zero => rfl
    | succ k => simp only [beBytes, List.drop_succ_cons, ih, Nat.add_sub_add_right]

theorem beBytes_bits (n u : Nat) : (beBytes n u).flatMap (natToBits 8) = natToBits (8 * n) u := by
  induction n with
  | zero => rfl
  | succ n ih =>
    simp only [beBytes, List.flatMap_cons, ih]
    rw [show 8 * (n + 1) = 8 + 8 * n by omega, natToBits_add]
    congr 1
    exact natToBits_mod (m := 8) _ (Nat.le_refl _)

theorem i128Bytes_eq (v : Int) : i128Bytes v = beBytes 16 (toU128 v) := by
  simp [i128Bytes, beBytes, List.range, List.range.loop]

theorem beBytes_findIdx (n u : Nat) (h : u < 256 ^ n) :
    (beBytes n u).findIdx (fun x => x ≠ 0) = n - octets u := by
  induction n with
  | zero => simp [beBytes]
  | succ n ih =>
    simp only [beBytes, List.findIdx_cons]
    rw [← pow256]
    by_cases hlt : u < 256 ^ n
    · rw [Nat.div_eq_of_lt hlt]
      have := octets_le hlt
      simp only [ih hlt]
      simp; omega
    · have h1 : octets u = n + 1 := octets_unique h (by intro _; simpa using hlt)
      have h2 : u / 256 ^ n % 256 ≠ 0 := by
        have hp : 0 < 256 ^ n := Nat.pow_pos (by omega)
        have h3 : 0 < u / 256 ^ n := Nat.div_pos (by omega) hp
        have h4 : u / 256 ^ n < 256 := by
          rw [Nat.div_lt_iff_lt_mul hp]; rw [Nat.pow_succ] at h; omega
        rw [Nat.mod_eq_of_lt h4]; omega
      simp [h1, h2]

theorem pow_le_iff {a b : Nat} : 2 ^ a ≤ 2 ^ b ↔ a ≤ b :=
  Nat.pow_le_pow_iff_right (by omega)

theorem pow_lt_iff {a b : Nat} : 2 ^ a < 2 ^ b ↔ a < b :=
  Nat.pow_lt_pow_iff_right (by omega)

/-- `bytes_needed_for_range` is the octet count of its argument. -/
theorem bytesNeededForRange_eq {range : Int} (h0 : 0 ≤ range) (h : range < 2 ^ 128) :
    bytesNeededForRange range = octets range.toNat := by
  unfold bytesNeededForRange leadingZeros128 i128Bits
  rw [toU128_of_nonneg h0 h]
  obtain ⟨h1, h2, h3⟩ := leadingZeros_spec 128 range.toNat (by omega)
  revert h1 h2 h3
  generalize ((natToBits 128 range.toNat).takeWhile (fun b => !b)).length = z
  generalize range.toNat = r
  intro h1 h2 h3
  symm
  apply octets_unique
  · rw [pow256]
    refine Nat.lt_of_lt_of_le h2 (pow_le_iff.mpr ?_)
    dsimp only; split <;> omega
  · intro hk
    rw [pow256]
    have hz : z < 128 := by
      dsimp only at hk
      split at hk <;> omega
    refine Nat.le_trans (pow_le_iff.mpr ?_) (h3 hz)
    dsimp only; split <;> omega

theorem ipow_cast (n : Nat) : ((2 ^ n : Nat) : Int) = 2 ^ n := by simp

theorem fitsTwos_mono {j k : Nat} {v : Int} (h : FitsTwos j v) (hk : j ≤ k) : FitsTwos k v := by
  have h1 : (2 : Nat) ^ (8 * j - 1) ≤ 2 ^ (8 * k - 1) := pow_le_iff.mpr (by omega)
  have h2 := ipow_cast (8 * j - 1)
  have h3 := ipow_cast (8 * k - 1)
  unfold FitsTwos at *
  omega

/-- The octet count of `encode_unconstrained_whole_number` is the least sufficient one. -/
theorem unconstrainedBytes_spec {v : Int} (hv : IsI128 v) :
    let k := unconstrainedBytes v
    1 ≤ k ∧ k ≤ 16 ∧ FitsTwos k v ∧ (1 < k → ¬ FitsTwos (k - 1) v) := by
  unfold unconstrainedBytes leadingZeros128 leadingOnes128 i128Bits IsI128 at *
  by_cases h0 : v < 0
  · have hu := toU128_of_neg h0 hv.1
    obtain ⟨h1, h2, h3⟩ := leadingOnes_spec 128 (toU128 v) (toU128_lt v)
    simp only [if_pos h0]
    revert h1 h2 h3
    generalize ((natToBits 128 (toU128 v)).takeWhile (fun b => b)).length = z
    intro h1 h2 h3
    have c1 := ipow_cast (128 - z)
    have c2 := ipow_cast (128 - z - 1)
    have hz : 1 ≤ z := by
      apply Nat.pos_of_ne_zero
      intro hz; subst hz
      have := h3 (by omega)
      omega
    have hlow : -((2 ^ (128 - z) : Nat) : Int) ≤ v := by omega
    have hhigh : z < 128 → v < -((2 ^ (128 - z - 1) : Nat) : Int) := by
      intro hz; have := h3 hz; omega
    generalize hk : (if z % 8 = 0 then 16 - z / 8 + 1 else 16 - z / 8) = k
    have hk1 : 128 - z ≤ 8 * k - 1 ∧ 1 ≤ k ∧ k ≤ 16 ∧
        (1 < k → z < 128 ∧ 8 * (k - 1) - 1 ≤ 128 - z - 1) := by
      rw [← hk]; split <;> omega
    have d1 := pow_le_iff.mpr hk1.1
    have c3 := ipow_cast (8 * k - 1)
    refine ⟨hk1.2.1, hk1.2.2.1, ⟨by omega, by omega⟩, ?_⟩
    intro hk2
    have hk3 := hk1.2.2.2 hk2
    have d2 := pow_le_iff.mpr hk3.2
    have c4 := ipow_cast (8 * (k - 1) - 1)
    have := hhigh hk3.1
    unfold FitsTwos
    omega
  · have hu := toU128_of_nonneg (v := v) (by omega) (by omega)
    obtain ⟨h1, h2, h3⟩ := leadingZeros_spec 128 (toU128 v) (toU128_lt v)
    simp only [if_neg h0]
    revert h1 h2 h3
    generalize ((natToBits 128 (toU128 v)).takeWhile (fun b => !b)).length = z
    intro h1 h2 h3
    have c1 := ipow_cast (128 - z)
    have c2 := ipow_cast (128 - z - 1)
    have hz : 1 ≤ z := by
      apply Nat.pos_of_ne_zero
      intro hz; subst hz
      have := h3 (by omega)
      omega
    have hlow : v < ((2 ^ (128 - z) : Nat) : Int) := by omega
    have hhigh : z < 128 → ((2 ^ (128 - z - 1) : Nat) : Int) ≤ v := by
      intro hz; have := h3 hz; omega
    generalize hk : (if z % 8 = 0 then 16 - z / 8 + 1 else 16 - z / 8) = k
    have hk1 : 128 - z ≤ 8 * k - 1 ∧ 1 ≤ k ∧ k ≤ 16 ∧
        (1 < k → z < 128 ∧ 8 * (k - 1) - 1 ≤ 128 - z - 1) := by
      rw [← hk]; split <;> omega
    have d1 := pow_le_iff.mpr hk1.1
    have c3 := ipow_cast (8 * k - 1)
    refine ⟨hk1.2.1, hk1.2.2.1, ⟨by omega, by omega⟩, ?_⟩
    intro hk2
    have hk3 := hk1.2.2.2 hk2
    have d2 := pow_le_iff.mpr hk3.2
    have c4 := ipow_cast (8 * (k - 1) - 1)
    have := hhigh hk3.1
    unfold FitsTwos
    omega

theorem unconstrainedBytes_unique {v : Int} (hv : IsI128 v) {k : Nat} (hk : 1 ≤ k)
    (hf : FitsTwos k v) (hmin : 1 < k → ¬ FitsTwos (k - 1) v) : unconstrainedBytes v = k := by
  obtain ⟨h1, -, h3, h4⟩ := unconstrainedBytes_spec hv
  rcases Nat.lt_trichotomy (unconstrainedBytes v) k with h | h | h
  · exact absurd (fitsTwos_mono h3 (by omega)) (hmin (by omega))
  · exact h
  · exact absurd (fitsTwos_mono hf (by omega)) (h4 (by omega))

theorem signExtend_toU128 {n : Nat} {v : Int} (hn : 1 ≤ n) (hn2 : n ≤ 128)
    (h1 : -(2 ^ (n - 1)) ≤ v) (h2 : v < 2 ^ (n - 1)) : signExtend n (toU128 v % 2 ^ n) = v := by
  unfold signExtend
  dsimp only
  have hm : ((toU128 v % 2 ^ n % 2 ^ n : Nat) : Int) = v % 2 ^ n := by
    rw [Nat.mod_mod, Int.natCast_emod, ipow_cast]
    have : ((toU128 v : Nat) : Int) = v % 2 ^ 128 := by unfold toU128; omega
    rw [this]
    apply Int.emod_emod_of_dvd
    exact ⟨2 ^ (128 - n), by rw [← Int.pow_add]; congr 1; omega⟩
  have hp := ipow_cast (n - 1)
  have hp2 := ipow_cast n
  have hs : (2 : Nat) ^ n = 2 ^ (n - 1) * 2 := by rw [← Nat.pow_succ]; congr 1; omega
  by_cases h0 : 0 ≤ v
  · have h3 : v % 2 ^ n = v := Int.emod_eq_of_lt h0 (by omega)
    rw [h3] at hm
    rw [if_pos (by omega), hm]
  · have h3 : v % 2 ^ n = v + 2 ^ n := by
      rw [← Int.add_emod_right]
      exact Int.emod_eq_of_lt (by omega) (by omega)
    rw [h3] at hm
    rw [if_neg (by omega), hm]
    omega

theorem signExtend_128 {x : Nat} (h : x < 2 ^ 127) : signExtend 128 x = x := by
  unfold signExtend
  dsimp only
  rw [Nat.mod_eq_of_lt (by omega), if_pos (by omega)]

/-! ## The specification's bit fields -/

theorem natToBits_eq_map (n x : Nat) :
    natToBits n x = (List.range n).map fun i => decide (x / 2 ^ (n - 1 - i) % 2 = 1) := by
  induction n with
  | zero => rfl
  | succ n ih =>
    rw [natToBits, ih, List.range_succ_eq_map, List.map_cons, List.map_map]
    congr 1
    · rw [Nat.testBit_eq_decide_div_mod_eq]; simp
    · apply List.map_congr_left
      intro i _
      simp only [Function.comp]
      rw [show n + 1 - 1 - i.succ = n - 1 - i by omega]

theorem be_eq (n x : Nat) : Spec.be n x = natToBits n x := (natToBits_eq_map n x).symm

theorem octetBits_eq (bs : List UInt8) : Spec.octetBits bs = bytesBits bs := by
  unfold Spec.octetBits bytesBits byteBits
  simp only [be_eq]

theorem isOctets_iff {x k : Nat} (hx : 0 < x) : Spec.IsOctets x k ↔ k = octets x := by
  constructor
  · intro ⟨h1, h2, h3⟩
    have := h3 (octets x) (octets_pos hx) (octets_lt x)
    have := octets_le h2
    omega
  · rintro rfl
    exact ⟨octets_pos hx, octets_lt x, fun j _ hj => octets_le hj⟩

theorem isTwosOctets_iff {v : Int} (hv : IsI128 v) {k : Nat} :
    Spec.IsTwosOctets v k ↔ k = unconstrainedBytes v := by
  obtain ⟨h1, -, h3, h4⟩ := unconstrainedBytes_spec hv
  constructor
  · intro ⟨a, b, c⟩
    symm
    apply unconstrainedBytes_unique hv a b
    intro hk hf
    have := c (k - 1) (by omega) hf
    omega
  · rintro rfl
    refine ⟨h1, h3, fun j hj hf => ?_⟩
    apply Decidable.byContradiction
    intro hlt
    exact h4 (by omega) (fitsTwos_mono hf (by omega))

end Hampi
