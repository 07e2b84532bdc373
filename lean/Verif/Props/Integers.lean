import Verif.Lemmas.Items
/-!
# C01-C08: whole numbers
-/
namespace Hampi

open Spec (ReadsBack Succeeds Refuses)

/-! ## C01 -/

/-- **C01.** A constrained INTEGER accepted by `encode_integer` is returned by `decode_integer`,
exactly, wherever it was written, whatever follows, and the decoder stops at the end of the
encoding. `v` ranges over `i128`. -/
theorem C01_constrained_round_trip (lb ub v : Int) (ext extended : Bool) (hv : IsI128 v) :
    ReadsBack (encodeInteger (some lb) (some ub) ext v extended)
      (decodeInteger (some lb) (some ub) ext) (v, false) :=
  (RT.integer hv (by intro h; cases h) ext extended).readsBack

-- Accepted cases of all four layouts, at an unaligned position.
example : Succeeds (encodeInteger (some (-3)) (some 9) true 4 false ⟨[true], 0, none⟩) :=
  ⟨(), ⟨[true, false, false, true, true, true], 0, none⟩, by decide⟩
example : (encodeInteger (some 0) (some 255) false 200 false ⟨[true], 0, none⟩) =
  .ok () ⟨[true, false, false, false, false, false, false, false,
    true, true, false, false, true, false, false, false], 0, none⟩ := by decide
example : Succeeds (encodeInteger (some 0) (some (2 ^ 40)) false 70000 false ⟨[true], 0, none⟩) :=
  ⟨(), ⟨[true, false, true, false, false, false, false, false,
    false, false, false, false, false, false, false, true,
    false, false, false, true, false, false, false, true,
    false, true, true, true, false, false, false, false], 0, none⟩, by decide⟩

/-! ## C02 -/

/-- **C02 (partial).** Full statement: `encode_integer` accepts every value within the bounds.
Proved: it does when there are at most 65536 values or the value is not the lower bound (and the
number of values fits `i128`). Missing: the lower bound of larger types, see
`C02_lower_bound_refused_violated`. -/
theorem C02_in_bounds_accepted_partial (lb ub v : Int) (ext : Bool) (s : Codec)
    (h1 : lb ≤ v) (h2 : v ≤ ub) (hspan : ub - lb + 1 < 2 ^ 127)
    (hlow : ub - lb + 1 ≤ 65536 ∨ v ≠ lb) :
    Succeeds (encodeInteger (some lb) (some ub) ext v false s) := by
  have hi := InRange.of h1 h2 hspan
  have hw := fun p => encodeConstrained_writes hi (by omega) p
  have he : ∀ p, Writes (encodeExtBit ext false) p (if ext then [false] else []) := by
    intro p; unfold encodeExtBit
    cases ext
    · exact .pure p
    · exact .push p false
  have := Writes.bind (g := fun _ => encodeConstrained lb ub v) (he s.bits.length) (hw _) s rfl
  exact ⟨(), _, this⟩

example : Succeeds (encodeInteger (some (-5)) (some 100000) true 100000 false Codec.new) :=
  C02_in_bounds_accepted_partial (-5) 100000 100000 true Codec.new (by decide) (by decide)
    (by decide) (by decide)

/-- **C02 is violated.** With more than 65536 values the lower bound itself is always refused. -/
theorem C02_lower_bound_refused_violated (lb ub : Int) (ext : Bool) (s : Codec)
    (hlarge : 65536 < ub - lb + 1) (hspan : ub - lb + 1 < 2 ^ 127) :
    Refuses (encodeInteger (some lb) (some ub) ext lb false s) := by
  have hi := InRange.of (v := lb) (by omega) (by omega) hspan
  have hf := fun p => encodeConstrained_lower hi (by omega) (by omega) p
  have he : ∀ p, Writes (encodeExtBit ext false) p (if ext then [false] else []) := by
    intro p; unfold encodeExtBit
    cases ext
    · exact .pure p
    · exact .push p false
  have := Writes.bind_fails (g := fun _ => encodeConstrained lb ub lb) (he s.bits.length) (hf _) s rfl
  exact ⟨_, this⟩

example : encodeInteger (some 0) (some 4294967295) false 0 false Codec.new = .err Codec.new := by
  decide

/-! ## C03 -/

/-- The bit an extensible type may already have written. -/
private def extBits (ext : Bool) : List Bool := if ext then [false] else []

private theorem extBit_writes (ext : Bool) (p : Nat) :
    Writes (encodeExtBit ext false) p (extBits ext) := by
  unfold encodeExtBit extBits
  cases ext
  · exact .pure p
  · exact .push p false

/-- **C03.** A value outside the bounds is refused with `Err`, having written at most the one
extension bit: INTEGER with both bounds. -/
theorem C03_out_of_bounds_refused (lb ub v : Int) (ext : Bool) (s : Codec) (h : v < lb ∨ ub < v) :
    ∃ w : List Bool, w.length ≤ 1 ∧
      encodeInteger (some lb) (some ub) ext v false s = .err { s with bits := s.bits ++ w } := by
  have hf : ∀ p, Fails (encodeConstrained lb ub v) p [] := fun p =>
    encodeConstrainedWith_outside _ h p
  refine ⟨extBits ext ++ [], by unfold extBits; cases ext <;> simp, ?_⟩
  exact Writes.bind_fails (g := fun _ => encodeConstrained lb ub v)
    (extBit_writes ext s.bits.length) (hf _) s rfl

example : encodeInteger (some 3) (some 9) true 10 false Codec.new = .err ⟨[false], 0, none⟩ := by decide

/-- **C03.** INTEGER with only a lower bound. -/
theorem C03_below_lower_bound_refused (lb v : Int) (ext : Bool) (s : Codec) (h : v < lb) :
    ∃ w : List Bool, w.length ≤ 1 ∧
      encodeInteger (some lb) none ext v false s = .err { s with bits := s.bits ++ w } := by
  have hf : ∀ p, Fails (encodeSemiConstrained lb v) p [] := fun p => by
    unfold encodeSemiConstrained; rw [if_pos h]; exact .fail p
  refine ⟨extBits ext ++ [], by unfold extBits; cases ext <;> simp, ?_⟩
  exact Writes.bind_fails (g := fun _ => encodeSemiConstrained lb v)
    (extBit_writes ext s.bits.length) (hf _) s rfl

example : encodeInteger (some 3) none false 2 false Codec.new = .err Codec.new := by decide

/-- **C03.** ENUMERATED. -/
theorem C03_enumerated_out_of_bounds_refused (lb ub v : Int) (ext : Bool) (s : Codec)
    (h : v < lb ∨ ub < v) :
    ∃ w : List Bool, w.length ≤ 1 ∧
      encodeEnumerated (some lb) (some ub) ext v false s = .err { s with bits := s.bits ++ w } := by
  have hf : ∀ p, Fails (encodeInteger (some lb) (some ub) false v false) p [] := fun p t _ => by
    have := Writes.bind_fails (g := fun _ => encodeConstrained lb ub v)
      (extBit_writes false t.bits.length) (encodeConstrainedWith_outside _ h _) t rfl
    show (encodeExtBit false false >>= fun _ => encodeConstrained lb ub v) t = _
    simpa [extBits] using this
  refine ⟨extBits ext ++ [], by unfold extBits; cases ext <;> simp, ?_⟩
  exact Writes.bind_fails (g := fun _ => encodeInteger (some lb) (some ub) false v false)
    (extBit_writes ext s.bits.length) (hf _) s rfl

example : ∃ w : List Bool, w.length ≤ 1 ∧ encodeEnumerated (some 0) (some 3) true 4 false ⟨[true], 0, none⟩ =
    .err ⟨[true] ++ w, 0, none⟩ := C03_enumerated_out_of_bounds_refused 0 3 4 true ⟨[true], 0, none⟩ (by decide)

/-- **C03.** CHOICE index. -/
theorem C03_choice_out_of_bounds_refused (lb ub v : Int) (ext : Bool) (s : Codec)
    (h : v < lb ∨ ub < v) :
    ∃ w : List Bool, w.length ≤ 1 ∧
      encodeChoiceIdx lb ub ext v false s = .err { s with bits := s.bits ++ w } :=
  C03_enumerated_out_of_bounds_refused lb ub v ext s h

example : encodeEnumerated (some 0) (some 3) false 4 false Codec.new = .err Codec.new := by decide
example : encodeChoiceIdx 0 3 true (-1) false Codec.new = .err ⟨[false], 0, none⟩ := by decide

/-! ## C04 -/

theorem signedOctets_of_i64 {v : Int} (h : -(2 ^ 63) ≤ v ∧ v < 2 ^ 63) :
    SignedOctets (unconstrainedBytes v) := by
  have hv : IsI128 v := by unfold IsI128; omega
  obtain ⟨h1, -, -, h4⟩ := unconstrainedBytes_spec hv
  left
  refine ⟨h1, ?_⟩
  apply Decidable.byContradiction
  intro hk
  exact h4 (by omega) (fitsTwos_mono (j := 8) (by unfold Spec.FitsTwos; omega) (by omega))

theorem unconstrainedBytes_large {v : Int} (hv : IsI128 v) (h : v < -(2 ^ 119) ∨ 2 ^ 119 ≤ v) :
    unconstrainedBytes v = 16 := by
  apply unconstrainedBytes_unique hv (by omega)
  · unfold IsI128 at hv; unfold Spec.FitsTwos; omega
  · unfold Spec.FitsTwos; omega

theorem unconstrainedBytes_middle {v : Int} (h : -(2 ^ 119) ≤ v ∧ v < 2 ^ 119)
    (h2 : v < -(2 ^ 63) ∨ 2 ^ 63 ≤ v) : 9 ≤ unconstrainedBytes v ∧ unconstrainedBytes v ≤ 15 := by
  have hv : IsI128 v := by unfold IsI128; omega
  obtain ⟨h1, -, h3, h4⟩ := unconstrainedBytes_spec hv
  constructor
  · apply Decidable.byContradiction
    intro hk
    have := fitsTwos_mono (k := 8) h3 (by omega)
    unfold Spec.FitsTwos at this
    omega
  · apply Decidable.byContradiction
    intro hk
    exact h4 (by omega) (fitsTwos_mono (j := 15) (by unfold Spec.FitsTwos; omega) (by omega))

/-- **C04 (partial).** Full statement: every `i128` encoded by `encode_integer` without lower bound
is returned by `decode_integer`. Proved: for 64-bit values, and for values needing 16 octets.
Missing: values of 9 to 15 octets, see `C04_middle_values_violated`. -/
theorem C04_unconstrained_round_trip_partial (ub : Option Int) (v : Int) (ext extended : Bool)
    (hv : IsI128 v)
    (h : (-(2 ^ 63) ≤ v ∧ v < 2 ^ 63) ∨ v < -(2 ^ 119) ∨ 2 ^ 119 ≤ v) :
    ReadsBack (encodeInteger none ub ext v extended) (decodeInteger none ub ext) (v, false) := by
  refine (RT.integer hv (fun _ => ?_) ext extended).readsBack
  rcases h with h | h
  · exact signedOctets_of_i64 h
  · right; exact unconstrainedBytes_large hv h

example : ReadsBack (encodeInteger none none true (-70000) false) (decodeInteger none none true) (-70000, false) :=
  C04_unconstrained_round_trip_partial none (-70000) true false (by decide) (by decide)

/-- Without lower bound every value is accepted. -/
theorem C04_unconstrained_accepted (ub : Option Int) (v : Int) (ext : Bool) (hv : IsI128 v)
    (s : Codec) : Succeeds (encodeInteger none ub ext v false s) := by
  obtain ⟨h1, h2, -, -⟩ := unconstrainedBytes_spec hv
  have hw : ∀ p, Writes (encodeUnconstrained v) p _ := fun p => by
    rw [encodeUnconstrained_eq hv]
    exact .bind (encodeIndefinite_writes (by omega) p) (.append _ _)
  have := Writes.bind (g := fun _ => encodeUnconstrained v)
    (extBit_writes ext s.bits.length) (hw _) s rfl
  exact ⟨(), _, this⟩

example : Succeeds (encodeInteger none none false (-70000) false Codec.new) :=
  C04_unconstrained_accepted none _ false (by decide) _

theorem decodeUnconstrained_err {k : Nat} (hk : k < 128) (hs : ¬ SignedOctets k) (pre rest : List Bool)
    (key : Option Int) :
    ∃ t, decodeUnconstrained ⟨pre ++ indefWord pre.length k ++ rest, pre.length, key⟩ = .err t := by
  rw [decodeUnconstrained_eq, M.bind_apply,
    decodeIndefinite_decodes (by omega) pre.length pre rest key rfl]
  dsimp only
  rw [decodeBitsAsInteger_signed]
  have hs' : ¬ k * 8 ∈ signedWidths := by rw [mem_signedWidths]; exact hs
  simp only [if_neg hs', List.length_append]
  rw [if_neg (by omega)]
  exact ⟨_, rfl⟩

/-- **C04 is violated.** Every value needing 9 to 15 octets is accepted by the encoder but its
encoding is refused by the decoder. -/
theorem C04_middle_values_violated (ub : Option Int) (v : Int)
    (h : -(2 ^ 119) ≤ v ∧ v < 2 ^ 119) (h2 : v < -(2 ^ 63) ∨ 2 ^ 63 ≤ v) (s : Codec)
    (suffix : List Bool) (key : Option Int) :
    ∃ s', encodeInteger none ub false v false s = .ok () s' ∧
      Refuses (decodeInteger none ub false ⟨s'.bits ++ suffix, s.bits.length, key⟩) := by
  have hv : IsI128 v := by unfold IsI128; omega
  have hk := unconstrainedBytes_middle h h2
  have hw : ∀ p, Writes (encodeUnconstrained v) p _ := fun p => by
    rw [encodeUnconstrained_eq hv]
    exact .bind (encodeIndefinite_writes (by omega) p) (.append _ _)
  refine ⟨_, hw s.bits.length s rfl, ?_⟩
  obtain ⟨t, ht⟩ := decodeUnconstrained_err (k := unconstrainedBytes v) (by omega)
    (by unfold SignedOctets; omega) s.bits
    (natToBits (8 * unconstrainedBytes v) (toU128 v) ++ suffix) key
  refine ⟨t, ?_⟩
  show (decodeUnconstrained >>= fun value => pure (value, false)) _ = _
  rw [M.bind_apply]
  simp only [List.append_assoc] at ht ⊢
  rw [ht]

example : (2 : Int) ^ 63 < 2 ^ 119 := by decide

/-! ## C05 -/

/-- **C05.** INTEGER with only a lower bound: what the encoder accepts is returned. -/
theorem C05_semi_constrained_round_trip (lb v : Int) (ext extended : Bool) (hv : IsI128 v) :
    ReadsBack (encodeInteger (some lb) none ext v extended) (decodeInteger (some lb) none ext)
      (v, false) :=
  (RT.integer hv (by intro h; cases h) ext extended).readsBack

example : ReadsBack (encodeInteger (some (-7)) none true 70000 false) (decodeInteger (some (-7)) none true)
    (70000, false) := C05_semi_constrained_round_trip (-7) 70000 true false (by decide)

/-- **C05.** And it accepts every value not below the bound at a representable distance. -/
theorem C05_semi_constrained_accepted (lb v : Int) (ext : Bool) (h1 : lb ≤ v)
    (h2 : v - lb < 2 ^ 127) (s : Codec) :
    Succeeds (encodeInteger (some lb) none ext v false s) := by
  have hd : IsI128 (v - lb) := by unfold IsI128; omega
  obtain ⟨h3, h4, -, -⟩ := unconstrainedBytes_spec hd
  have hw : ∀ p, Writes (encodeSemiConstrained lb v) p _ := fun p => by
    unfold encodeSemiConstrained
    rw [if_neg (by omega), chkI128_bind hd, encodeUnconstrained_eq hd]
    exact .bind (encodeIndefinite_writes (by omega) p) (.append _ _)
  have := Writes.bind (g := fun _ => encodeSemiConstrained lb v)
    (extBit_writes ext s.bits.length) (hw _) s rfl
  exact ⟨(), _, this⟩

example : Succeeds (encodeInteger (some (-7)) none true (2 ^ 100) false Codec.new) :=
  C05_semi_constrained_accepted _ _ _ (by decide) (by decide) _

/-! ## C08 -/

/-- **C08.** The encoding of an unconstrained INTEGER is the aligned length `k` followed by the
`k`-octet two's complement form of the value, `k` being the least sufficient number of octets. -/
theorem C08_unconstrained_layout (ub : Option Int) (v : Int) (hv : IsI128 v) (k : Nat)
    (hk : Spec.IsTwosOctets v k) (s : Codec) :
    encodeInteger none ub false v false s =
      .ok () { s with bits := s.bits ++ Spec.unconstrained s.bits.length k v } := by
  have hk' := (isTwosOctets_iff hv).mp hk
  subst hk'
  obtain ⟨h1, h2, -, -⟩ := unconstrainedBytes_spec hv
  show encodeUnconstrained v s = _
  rw [encodeUnconstrained_eq hv]
  have := Writes.bind (g := fun _ => appendBits (natToBits (8 * unconstrainedBytes v) (toU128 v)))
    (encodeIndefinite_writes (n := unconstrainedBytes v) (by omega) s.bits.length) (.append _ _) s rfl
  rw [this]
  congr 3
  unfold Spec.unconstrained Spec.generalLength indefWord
  simp only [be_eq]
  have h3 : natToBits (8 * unconstrainedBytes v) (toU128 v) =
      natToBits (8 * unconstrainedBytes v) (Spec.twos (8 * unconstrainedBytes v) v) := by
    apply natToBits_congr
    unfold Spec.twos toU128
    have e1 : ∀ n : Nat, ((v % 2 ^ n).toNat : Int) = v % 2 ^ n := fun n =>
      Int.toNat_of_nonneg (Int.emod_nonneg _ (by have := Int.pow_pos (n := 2) (m := n) (by omega); omega))
    apply Int.ofNat_inj.mp
    rw [Int.natCast_emod, Int.natCast_emod, e1, e1, ipow_cast, Int.emod_emod]
    apply Int.emod_emod_of_dvd
    exact ⟨2 ^ (128 - 8 * unconstrainedBytes v), by rw [← Int.pow_add]; congr 1; omega⟩
  rw [h3]
  rfl

example : Spec.IsTwosOctets (-129) 2 := by
  refine ⟨by decide, by decide, fun j hj hf => ?_⟩
  apply Decidable.byContradiction
  intro h
  have : j = 1 := by omega
  subst this
  revert hf; decide

end Hampi
