import Verif.Props.Layout
import Verif.Lemmas.Text
/-!
# C09, C10, C34, C35: lengths and size constraints
-/
namespace Hampi

open Spec (ReadsBack Succeeds Refuses SizeBounds Within)

/-! ## C09 -/

/-- **C09.** A length accepted by `encode_length_determinent` is returned unchanged by
`decode_length_determinent`, for all size bounds, normally small or not. -/
theorem C09_length_round_trip (lb ub : Option Int) (hb : SizeBounds lb ub) (normallySmall : Bool)
    (n : Nat) : ReadsBack (encodeLength lb ub normallySmall n) (decodeLength lb ub normallySmall) n :=
  (RT.length hb normallySmall n).readsBack

example : SizeBounds (some 2) (some 70000) := by
  constructor <;> intro l h <;> cases h <;> omega
example : encodeLength (some 2) (some 70000) false 200 ⟨[true], 0, none⟩ =
  .ok () ⟨[true, false, false, false, false, false, false, false,
    true, false, false, false, false, false, false, false,
    true, true, false, false, true, false, false, false], 0, none⟩ := by decide
example : Succeeds (encodeLength none none true 33 Codec.new) :=
  ⟨(), ⟨[true, false, false, false, false, false, false, false,
    false, false, true, false, false, false, false, true], 0, none⟩, by decide⟩

/-! ## C10 -/

/-- The lengths the encoder can express: anything within a bound below 64K, else below 16K. -/
def Expressible (ub : Option Int) (n : Nat) : Prop :=
  (∃ u, ub = some u ∧ u < 65536) ∨ n < 16384

theorem asUsize_of {u : Int} (h : 0 ≤ u ∧ u < 2 ^ 64) : asUsize u = u.toNat := by
  unfold asUsize; omega

/-- What `encode_length_determinent` does outside the constrained case. -/
theorem encodeLength_general {lb ub : Option Int} (hb : SizeBounds lb ub) (n : Nat)
    (hu : ∀ u, ub = some u → 65536 ≤ u) (p : Nat) :
    (Within lb ub n ∧ n < 16384 → Writes (encodeLength lb ub false n) p (indefWord p n)) ∧
    (¬ Within lb ub n → Fails (encodeLength lb ub false n) p []) ∧
    (Within lb ub n ∧ 16384 ≤ n → Fails (encodeLength lb ub false n) p (pad p)) := by
  have heq : encodeLength lb ub false n = (if ub.any (fun u => decide (n > asUsize u)) then M.fail
      else if lb.any (fun l => decide (n < asUsize l)) then M.fail
      else encodeIndefiniteLength n) := by
    unfold encodeLength
    cases ub with
    | none => rfl
    | some u =>
      have := hu u rfl
      simp only [Bool.false_eq_true, if_false, if_neg (show ¬ u < 65536 by omega)]
  have hA : ub.any (fun u => decide (n > asUsize u)) = true ↔ ¬ ∀ u, ub = some u → (n : Int) ≤ u := by
    cases ub with
    | none => simp
    | some u =>
      have hu := hb.2 u rfl
      rw [Option.any_some, asUsize_of hu, decide_eq_true_iff]
      constructor
      · intro h hall; have := hall u rfl; omega
      · intro h
        apply Decidable.byContradiction
        intro hn
        exact h fun u' e => by cases e; omega
  have hB : lb.any (fun l => decide (n < asUsize l)) = true ↔ ¬ ∀ l, lb = some l → l ≤ (n : Int) := by
    cases lb with
    | none => simp
    | some u =>
      have hu := hb.1 u rfl
      rw [Option.any_some, asUsize_of hu, decide_eq_true_iff]
      constructor
      · intro h hall; have := hall u rfl; omega
      · intro h
        apply Decidable.byContradiction
        intro hn
        exact h fun u' e => by cases e; omega
  rw [heq]
  refine ⟨fun ⟨hw, hn⟩ => ?_, fun hw => ?_, fun ⟨hw, hn⟩ => ?_⟩
  · rw [if_neg (by rw [hA]; exact fun h => h hw.2), if_neg (by rw [hB]; exact fun h => h hw.1)]
    exact encodeIndefinite_writes hn p
  · by_cases h2 : ∀ u, ub = some u → (n : Int) ≤ u
    · have h1 : ¬ ∀ l, lb = some l → l ≤ (n : Int) := fun h => hw ⟨h, h2⟩
      rw [if_neg (by rw [hA]; exact fun h => h h2), if_pos (by rw [hB]; exact h1)]
      exact .fail p
    · rw [if_pos (by rw [hA]; exact h2)]
      exact .fail p
  · rw [if_neg (by rw [hA]; exact fun h => h hw.2), if_neg (by rw [hB]; exact fun h => h hw.1)]
    exact encodeIndefinite_fails hn p

/-- The lower bound used for a length. -/
theorem lower_getD {lb ub : Option Int} (hb : SizeBounds lb ub) (n : Nat) :
    (∀ l, lb = some l → l ≤ (n : Int)) ↔ lb.getD 0 ≤ n := by
  cases lb with
  | none => simp
  | some l => simp

/-- What `encode_length_determinent` does when the upper bound is below 64K. -/
theorem encodeLength_constrained {lb : Option Int} {u : Int} (hb : SizeBounds lb (some u)) (n : Nat)
    (hu : u < 65536) (p : Nat) :
    (Within lb (some u) n → Writes (encodeLength lb (some u) false n) p
      (cWord p (u - lb.getD 0 + 1).toNat (n - lb.getD 0).toNat)) ∧
    (¬ Within lb (some u) n → Fails (encodeLength lb (some u) false n) p []) := by
  have heq : encodeLength lb (some u) false n = encodeConstrained (lb.getD 0) u n := by
    unfold encodeLength
    simp only [Bool.false_eq_true, if_false, if_pos hu]
  have hl : 0 ≤ lb.getD 0 := by
    cases lb with
    | none => exact Int.le_refl 0
    | some l => exact (hb.1 l rfl).1
  rw [heq]
  constructor
  · intro hw
    have h1 := (lower_getD hb n).mp hw.1
    have h2 := hw.2 u rfl
    exact encodeConstrained_writes (InRange.of h1 h2 (by omega)) (by omega) p
  · intro hw
    apply encodeConstrainedWith_outside
    by_cases h2 : u < n
    · exact .inr h2
    · left
      apply Decidable.byContradiction
      intro h1
      exact hw ⟨(lower_getD hb n).mpr (by omega), fun u' e => by cases e; omega⟩

/-- **C10.** Exactly the lengths within the bounds (and below 16K when the upper bound is absent or
at least 64K) are accepted. -/
theorem C10_accepted_lengths (lb ub : Option Int) (hb : SizeBounds lb ub) (n : Nat) (s : Codec) :
    (Within lb ub n ∧ Expressible ub n → Succeeds (encodeLength lb ub false n s)) ∧
    (¬ (Within lb ub n ∧ Expressible ub n) → Refuses (encodeLength lb ub false n s)) := by
  by_cases hc : ∃ u, ub = some u ∧ u < 65536
  · obtain ⟨u, rfl, hu⟩ := hc
    obtain ⟨h1, h2⟩ := encodeLength_constrained hb n hu s.bits.length
    constructor
    · intro h; exact ⟨(), _, h1 h.1 s rfl⟩
    · intro h; exact ⟨_, h2 (fun hw => h ⟨hw, .inl ⟨u, rfl, hu⟩⟩) s rfl⟩
  · have hu : ∀ u, ub = some u → 65536 ≤ u := by
      intro u e
      apply Decidable.byContradiction
      intro h
      exact hc ⟨u, e, by omega⟩
    obtain ⟨h1, h2, h3⟩ := encodeLength_general hb n hu s.bits.length
    constructor
    · intro ⟨hw, he⟩
      rcases he with he | he
      · exact absurd he hc
      · exact ⟨(), _, h1 ⟨hw, he⟩ s rfl⟩
    · intro h
      by_cases hw : Within lb ub n
      · have hn : 16384 ≤ n := by
          apply Decidable.byContradiction
          intro hn
          exact h ⟨hw, .inr (by omega)⟩
        exact ⟨_, h3 ⟨hw, hn⟩ s rfl⟩
      · exact ⟨_, h2 hw s rfl⟩

example : Within (some 1) (some 65535) (40000 : Nat) ∧ Expressible (some 65535) 40000 :=
  ⟨⟨fun l h => by cases h; decide, fun u h => by cases h; decide⟩, .inl ⟨_, rfl, by decide⟩⟩
example : ¬ (Within none none (16384 : Nat) ∧ Expressible none 16384) := by
  rintro ⟨-, ⟨u, h, -⟩ | h⟩
  · cases h
  · omega

/-! ## C34 -/

theorem within_of_ok {lb ub : Option Int} (hb : SizeBounds lb ub) {n : Nat} {s s' : Codec}
    (h : encodeLength lb ub false n s = .ok () s') : Within lb ub n := by
  apply Classical.byContradiction
  intro hw
  obtain ⟨t, ht⟩ := (C10_accepted_lengths lb ub hb n s).2 (fun hh => hw hh.1)
  rw [h] at ht
  cases ht

theorem bind_ok {α β : Type} {m : M α} {g : α → M β} {s s' : Codec} {b : β}
    (h : (m >>= g) s = .ok b s') : ∃ a t, m s = .ok a t ∧ g a t = .ok b s' := by
  rw [M.bind_apply] at h
  cases hr : m s with
  | ok a t => rw [hr] at h; exact ⟨a, t, rfl, h⟩
  | err _ => rw [hr] at h; cases h
  | panic => rw [hr] at h; cases h

/-- **C34.** A bit string accepted by `encode_bitstring` satisfies the size constraint. -/
theorem C34_bitstring_size (lb ub : Option Int) (hb : SizeBounds lb ub) (ext : Bool) (v : List Bool)
    (extended : Bool) (s s' : Codec) (h : encodeBitstring lb ub ext v extended s = .ok () s') :
    Within lb ub v.length := by
  unfold encodeBitstring at h
  cases extended with
  | true => cases h
  | false =>
    simp only [Bool.false_eq_true, if_false] at h
    obtain ⟨_, t, -, h⟩ := bind_ok h
    split at h
    · cases h
    · obtain ⟨_, t2, h2, -⟩ := bind_ok h
      exact within_of_ok hb h2

example : SizeBounds (some 1) (some 4) ∧ encodeBitstring (some 1) (some 4) true [true, false, true] false Codec.new =
    .ok () ⟨[false, true, false, true, false, true], 0, none⟩ :=
  ⟨⟨by rintro _ ⟨⟩; decide, by rintro _ ⟨⟩; decide⟩, by decide⟩

/-- **C34.** OCTET STRING. -/
theorem C34_octetstring_size (lb ub : Option Int) (hb : SizeBounds lb ub) (ext : Bool)
    (v : List UInt8) (extended : Bool) (s s' : Codec)
    (h : encodeOctetstring lb ub ext v extended s = .ok () s') : Within lb ub v.length := by
  unfold encodeOctetstring at h
  cases extended with
  | true => cases h
  | false =>
    simp only [Bool.false_eq_true, if_false] at h
    obtain ⟨_, t, -, h⟩ := bind_ok h
    split at h
    · cases h
    · obtain ⟨_, t2, h2, -⟩ := bind_ok h
      exact within_of_ok hb h2

example : SizeBounds (some 1) (some 1) ∧ encodeOctetstring (some 1) (some 1) false [5] false Codec.new =
    .ok () ⟨bytesBits [5], 0, none⟩ :=
  ⟨⟨by rintro _ ⟨⟩; decide, by rintro _ ⟨⟩; decide⟩, by decide⟩

/-- **C34.** Character strings: the size constraint is on the UTF-8 octets. -/
theorem C34_string_size (lb ub : Option Int) (hb : SizeBounds lb ub) (ext : Bool) (v : String)
    (extended : Bool) (s s' : Codec) (h : encodeString lb ub ext v extended s = .ok () s') :
    Within lb ub (utf8 v).length := by
  unfold encodeString at h
  cases extended with
  | true => cases h
  | false =>
    simp only [Bool.false_eq_true, if_false] at h
    obtain ⟨_, t, -, h⟩ := bind_ok h
    obtain ⟨_, t2, h2, -⟩ := bind_ok h
    exact within_of_ok hb h2

example : Succeeds (encodeBitstring (some 1) (some 4) false [true, false, true] false Codec.new) :=
  ⟨(), ⟨[true, false, true, false, true], 0, none⟩, by decide⟩
example : encodeOctetstring (some 1) (some 4) false [1, 2, 3, 4, 5] false Codec.new =
  .err Codec.new := by decide

/-! ## C35 -/

theorem indefWord_eq (p n : Nat) : indefWord p n = Spec.generalLength p n := by
  unfold indefWord Spec.generalLength
  simp only [be_eq, alignment_eq]
  rfl

/-- **C35.** The bits written for an accepted length are those X.691 prescribes. -/
theorem C35_length_layout (lb ub : Option Int) (hb : SizeBounds lb ub) (n : Nat) (s : Codec)
    (hw : Within lb ub n) (he : Expressible ub n) :
    ∃ w, Spec.LengthWord (lb.getD 0).toNat (ub.map Int.toNat) s.bits.length n w ∧
      encodeLength lb ub false n s = .ok () { s with bits := s.bits ++ w } := by
  by_cases hc : ∃ u, ub = some u ∧ u < 65536
  · obtain ⟨u, rfl, hu⟩ := hc
    refine ⟨_, ?_, (encodeLength_constrained hb n hu s.bits.length).1 hw s rfl⟩
    have h0 := (hb.2 u rfl).1
    have hl : 0 ≤ lb.getD 0 := by
      cases lb with
      | none => exact Int.le_refl 0
      | some l => exact (hb.1 l rfl).1
    have h1 := (lower_getD hb n).mp hw.1
    have h2 := hw.2 u rfl
    unfold Spec.LengthWord
    simp only [Option.map_some]
    rw [if_pos (by omega)]
    have e1 : (u - lb.getD 0 + 1).toNat = u.toNat - (lb.getD 0).toNat + 1 := by omega
    have e2 : (n - lb.getD 0).toNat = n - (lb.getD 0).toNat := by omega
    rw [e1, e2]
    exact constrainedWord_cWord (by omega) (by omega) (by omega) (by omega)
  · have hu : ∀ u, ub = some u → 65536 ≤ u := by
      intro u e
      apply Decidable.byContradiction
      intro h
      exact hc ⟨u, e, by omega⟩
    have hn : n < 16384 := by
      rcases he with he | he
      · exact absurd he hc
      · exact he
    refine ⟨_, ?_, (encodeLength_general hb n hu s.bits.length).1 ⟨hw, hn⟩ s rfl⟩
    rw [indefWord_eq]
    unfold Spec.LengthWord
    cases ub with
    | none => rfl
    | some u =>
      have := hu u rfl
      simp only [Option.map_some]
      rw [if_neg (by omega)]
      trivial

example : encodeLength (some 3) (some 10) false 7 Codec.new =
  .ok () ⟨[true, false, false], 0, none⟩ := by decide

/-- **C35 (partial).** Full statement: normally small lengths are written as X.691 prescribes.
Proved: for 1..32 and 65..16383. Missing: 33..64, see `C35_normally_small_violated`. -/
theorem C35_normally_small_layout_partial (lb ub : Option Int) (n : Nat) (s : Codec)
    (h : (1 ≤ n ∧ n ≤ 32) ∨ (65 ≤ n ∧ n < 16384)) :
    encodeLength lb ub true n s =
      .ok () { s with bits := s.bits ++ Spec.normallySmallLength s.bits.length n } := by
  unfold encodeLength encodeNormallySmallLength Spec.normallySmallLength
  simp only [if_true, be_eq, ← indefWord_eq]
  rcases h with h | h
  · rw [if_pos h.2, if_neg (by omega), if_pos (by omega)]
    have := Writes.bind (g := fun _ => appendBits ((natToBits 8 ((n - 1) % 256)).drop 2))
      (.push s.bits.length false) (.append _ _) s rfl
    rw [this, natToBits_drop _ _ _ (by omega), natToBits_mod (m := 8) _ (by omega)]
  · rw [if_neg (by omega), if_neg (by omega)]
    exact Writes.bind (g := fun _ => encodeIndefiniteLength n) (.push s.bits.length true)
      (encodeIndefinite_writes h.2 _) s rfl

example : encodeLength none none true 5 Codec.new =
  .ok () ⟨[false, false, false, false, true, false, false], 0, none⟩ := by decide

/-- **C35 is violated** by every normally small length from 33 to 64: X.691 prescribes 7 bits, the
encoder writes at least 9. -/
theorem C35_normally_small_violated (lb ub : Option Int) (n : Nat) (s : Codec)
    (h : 33 ≤ n ∧ n ≤ 64) :
    (Spec.normallySmallLength s.bits.length n).length = 7 ∧
    ∃ w, 9 ≤ w.length ∧ encodeLength lb ub true n s = .ok () { s with bits := s.bits ++ w } := by
  constructor
  · unfold Spec.normallySmallLength
    rw [if_pos h.2, be_eq]
    simp
  · refine ⟨[true] ++ indefWord (s.bits.length + 1) n, ?_, ?_⟩
    · unfold indefWord; rw [if_pos (by omega)]; simp
    · unfold encodeLength encodeNormallySmallLength
      simp only [if_true]
      rw [if_neg (by omega)]
      exact Writes.bind (g := fun _ => encodeIndefiniteLength n) (.push s.bits.length true)
        (encodeIndefinite_writes (by omega) _) s rfl

example : (33 : Nat) ≤ 40 ∧ (40 : Nat) ≤ 64 := by decide

end Hampi
