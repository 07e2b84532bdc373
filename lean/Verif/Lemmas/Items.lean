import Verif.Lemmas.Constrained
import Verif.Spec.Roundtrip
/-!
# Round trips of lengths, integers, strings and headers
-/
namespace Hampi
open Spec (SizeBounds)

variable {α β : Type}

/-- If the encoder succeeds, the decoder reads what it wrote as `v`. -/
def RT (enc : M Unit) (dec : M α) (v : α) : Prop :=
  ∀ s s', enc s = .ok () s' → ∃ w, s' = { s with bits := s.bits ++ w } ∧
    Writes enc s.bits.length w ∧ Decodes dec s.bits.length w v

theorem RT.of {enc : M Unit} {dec : M α} {v : α}
    (h : ∀ p, ∃ w, Writes enc p w ∧ Decodes dec p w v) : RT enc dec v := by
  intro s s' hs
  obtain ⟨w, hw, hd⟩ := h s.bits.length
  have := hw s rfl
  rw [hs] at this
  cases this
  exact ⟨w, rfl, hw, hd⟩

theorem RT.readsBack {enc : M Unit} {dec : M α} {v : α} (h : RT enc dec v) :
    Spec.ReadsBack enc dec v := by
  intro s s' hs
  obtain ⟨w, rfl, -, hd⟩ := h s s' hs
  refine ⟨⟨w, rfl⟩, fun suf key => ?_⟩
  have := hd s.bits suf key rfl
  simpa using this

theorem RT.fail {dec : M α} {v : α} : RT M.fail dec v := by intro s s' h; cases h
theorem RT.panic {dec : M α} {v : α} : RT M.panic dec v := by intro s s' h; cases h

theorem RT.pure (v : α) : RT (pure ()) (Pure.pure v) v := .of fun p => ⟨[], .pure p, .pure p v⟩

theorem RT.bind {m1 : M Unit} {m2 : Unit → M Unit} {d1 : M α} {d2 : α → M β} {a : α} {b : β}
    (h1 : RT m1 d1 a) (h2 : RT (m2 ()) (d2 a) b) : RT (m1 >>= m2) (d1 >>= d2) b := by
  intro s s' h
  rw [M.bind_apply] at h
  cases hr : m1 s with
  | ok u s1 =>
    rw [hr] at h
    obtain ⟨w1, e1, hw1, hd1⟩ := h1 s s1 hr
    obtain ⟨w2, e2, hw2, hd2⟩ := h2 s1 s' h
    subst e1
    simp only [List.length_append] at hw2 hd2
    exact ⟨w1 ++ w2, by simp [e2], .bind hw1 hw2, .bind hd1 hd2⟩
  | err _ => rw [hr] at h; cases h
  | panic => rw [hr] at h; cases h

theorem RT.map {m : M Unit} {d : M α} {a : α} (h : RT m d a) (f : α → β) :
    RT m (d >>= fun x => Pure.pure (f x)) (f a) := by
  intro s s' hs
  obtain ⟨w, e, hw, hd⟩ := h s s' hs
  exact ⟨w, e, hw, hd.map f⟩

theorem RT.align : RT align decodeAlign () := .of fun p => ⟨_, .align p, .align p⟩
theorem RT.alignIf (c : Bool) : RT (alignIf c) (decodeAlignIf c) () :=
  .of fun p => ⟨_, .alignIf p c, .alignIf p c⟩
theorem RT.boolM (b : Bool) : RT (pushBit b) decodeBoolM b :=
  .of fun p => ⟨_, .push p b, .boolM p b⟩
theorem RT.bitvec (l : List Bool) : RT (appendBits l) (getBitvec l.length) l :=
  .of fun p => ⟨_, .append p l, .bitvec p l⟩
theorem RT.bytes (l : List UInt8) : RT (appendBits (bytesBits l)) (getBytes l.length) l :=
  .of fun p => ⟨_, .append p _, .bytes p l⟩

/-! ## Lengths -/

/-- The bits of a general length below 16384. -/
def indefWord (p n : Nat) : List Bool :=
  pad p ++ if n < 128 then false :: natToBits 7 n else true :: false :: natToBits 14 n

theorem encodeIndefinite_writes {n : Nat} (h : n < 16384) (p : Nat) :
    Writes (encodeIndefiniteLength n) p (indefWord p n) := by
  unfold encodeIndefiniteLength indefWord
  refine .bind (.align p) ?_
  by_cases h1 : n < 128
  · rw [if_pos h1, if_pos h1, Nat.mod_eq_of_lt (by omega)]
    have : natToBits 8 n = false :: natToBits 7 n := by
      simp only [natToBits]
      rw [Nat.testBit_lt_two_pow (i := 7) (by omega)]
    rw [this]
    exact .append _ _
  · rw [if_neg h1, if_neg h1, if_pos h, Nat.mod_eq_of_lt (by omega)]
    have : natToBits 16 (n ||| 0x8000) = true :: false :: natToBits 14 n := by
      rw [show (16 : Nat) = 1 + (1 + 14) by rfl, natToBits, natToBits.eq_def]
      simp only [Nat.add_comm 1 14]
      rw [natToBits_congr (n := 14) (a := n ||| 0x8000) (b := n)]
      · rw [Nat.testBit_or, Nat.testBit_or, Nat.testBit_lt_two_pow (x := n) (i := 15) (by omega),
          Nat.testBit_lt_two_pow (x := n) (i := 14) (by omega)]
        rfl
      · rw [Nat.or_mod_two_pow]; simp
    rw [this]
    exact .append _ _

theorem encodeIndefinite_fails {n : Nat} (h : 16384 ≤ n) (p : Nat) :
    Fails (encodeIndefiniteLength n) p (pad p) := by
  unfold encodeIndefiniteLength
  rw [if_neg (by omega), if_neg (by omega)]
  have := Writes.bind_fails (g := fun _ => M.fail) (.align p) (Fails.fail (p + (pad p).length))
  simpa using this

theorem decodeIndefinite_decodes {n : Nat} (h : n < 16384) (p : Nat) :
    Decodes decodeIndefiniteLength p (indefWord p n) n := by
  unfold decodeIndefiniteLength indefWord
  refine .bind (.align p) ?_
  by_cases h1 : n < 128
  · rw [if_pos h1]
    refine .bind (w := [false]) (.boolM _ false) ?_
    have := Decodes.map (Decodes.nat (p + (pad p).length + [false].length) (n := 7) (x := n)
      (by omega) (by omega) (by omega)) Int.toNat
    exact this
  · rw [if_neg h1]
    refine .bind (w := [true]) (.boolM _ true) (.bind (w := [false]) (.boolM _ false) ?_)
    have := Decodes.map (Decodes.nat (p + (pad p).length + [true].length + [false].length)
      (n := 14) (x := n) (by omega) (by omega) (by omega)) Int.toNat
    exact this

theorem RT.indefinite (n : Nat) : RT (encodeIndefiniteLength n) decodeIndefiniteLength n := by
  by_cases h : n < 16384
  · exact .of fun p => ⟨_, encodeIndefinite_writes h p, decodeIndefinite_decodes h p⟩
  · intro s s' hs
    rw [encodeIndefinite_fails (by omega) s.bits.length s rfl] at hs
    cases hs

theorem RT.constrained {lb ub v : Int} (hv : IsI128 v) :
    RT (encodeConstrained lb ub v) (decodeConstrained lb ub) v := by
  intro s s' h
  obtain ⟨R, x, hi, hs⟩ := encodeConstrained_ok h
  exact RT.of (fun p => ⟨_, encodeConstrained_writes hi hs p, decodeConstrained_decodes hi hv hs p⟩)
    s s' h

/-- The decoder's lower bound. -/
theorem lengthLowerBound_eq {lb ub : Option Int} (h : SizeBounds lb ub) :
    lengthLowerBound lb = Pure.pure (lb.getD 0).toNat := by
  cases lb with
  | none => rfl
  | some l =>
    have := h.1 l rfl
    simp only [lengthLowerBound, toUsizeOrPanic, if_pos this, Option.getD_some]

theorem RT.normallySmallLength (n : Nat) :
    RT (encodeNormallySmallLength n) decodeNormallySmallLength n := by
  unfold encodeNormallySmallLength decodeNormallySmallLength
  by_cases h : n ≤ 32
  · rw [if_pos h]
    by_cases h0 : n = 0
    · rw [if_pos h0]; exact .panic
    · rw [if_neg h0]
      refine .bind (.boolM false) (.of fun p => ⟨_, .append p _, ?_⟩)
      rw [natToBits_drop _ _ _ (by omega), natToBits_mod (m := 8) _ (by omega)]
      simp only [Bool.not_false, if_true]
      have := Decodes.map (Decodes.nat p (n := 6) (x := n - 1) (by omega) (by omega) (by omega))
        fun l => asUsize l + 1
      rw [asUsize_natCast (by omega), Nat.sub_add_cancel (by omega)] at this
      exact this
  · rw [if_neg h]
    exact .bind (.boolM true) (.indefinite n)

theorem decodeConstrainedLength_rt {l u n : Nat} (hu : u < 65536) (hl : l ≤ n) (hn : n ≤ u) :
    RT (encodeConstrained l u n) (decodeConstrainedLength l u) n := by
  unfold decodeConstrainedLength
  rw [if_neg (by omega), if_pos (by omega)]
  have := RT.map (RT.constrained (lb := l) (ub := u) (v := n) (by unfold IsI128; omega)) asUsize
  rwa [asUsize_natCast (by omega)] at this

theorem encodeConstrained_in_of_ok {lb ub v : Int} {s s' : Codec}
    (h : encodeConstrained lb ub v s = .ok () s') : lb ≤ v ∧ v ≤ ub := by
  obtain ⟨R, x, hi, -⟩ := encodeConstrained_ok h
  have h1 := hi.hR
  have h2 := hi.hx
  have h3 := hi.lt
  omega

theorem RT.length {lb ub : Option Int} (h : SizeBounds lb ub) (ns : Bool) (n : Nat) :
    RT (encodeLength lb ub ns n) (decodeLength lb ub ns) n := by
  unfold encodeLength decodeLength
  cases ns with
  | true => exact .normallySmallLength n
  | false =>
    simp only [Bool.false_eq_true, if_false]
    rw [lengthLowerBound_eq h, M.pure_bind']
    have hind : RT (if ub.any (fun u => decide (n > asUsize u)) then M.fail
        else if lb.any (fun l => decide (n < asUsize l)) then M.fail
        else encodeIndefiniteLength n) decodeIndefiniteLength n := by
      split
      · exact .fail
      · split
        · exact .fail
        · exact .indefinite n
    cases ub with
    | none => exact hind
    | some u =>
      have hu := h.2 u rfl
      dsimp only
      unfold toUsizeOrPanic
      rw [if_pos hu, M.pure_bind']
      by_cases h1 : u < 65536
      · rw [if_pos h1, if_pos (by omega)]
        have hl : 0 ≤ lb.getD 0 := by
          cases lb with
          | none => exact Int.le_refl 0
          | some l => exact (h.1 l rfl).1
        revert hl
        generalize lb.getD 0 = l
        intro hl
        intro s s' hs
        have hin := encodeConstrained_in_of_ok hs
        have hl' : (l.toNat : Int) = l := by omega
        have hu' : (u.toNat : Int) = u := by omega
        by_cases h2 : l.toNat = u.toNat
        · rw [if_pos h2]
          have hi := InRange.of hin.1 hin.2 (by omega)
          have hw := encodeConstrained_writes hi (by omega) s.bits.length
          have e1 : (u - l + 1).toNat = 1 := by omega
          have e2 : (n - l).toNat = 0 := by omega
          rw [e1, e2] at hw
          have := hw s rfl
          rw [hs] at this
          cases this
          refine ⟨_, rfl, hw, ?_⟩
          have e3 : cWord s.bits.length 1 0 = [] := by simp [cWord, smallWord, decFieldBits, natToBits]
          have e4 : n = u.toNat := by omega
          rw [e3, e4]
          exact .pure _ _
        · rw [if_neg h2]
          have := decodeConstrainedLength_rt (l := l.toNat) (u := u.toNat) (n := n) (by omega)
            (by omega) (by omega)
          rw [hl', hu'] at this
          exact this s s' hs
      · have h2 : ¬ u.toNat < 65536 := by omega
        rw [if_neg h1, if_neg h2]
        exact hind

/-! ## Integers -/

/-- Octet counts the signed decoder supports. -/
def SignedOctets (k : Nat) : Prop := (1 ≤ k ∧ k ≤ 8) ∨ k = 16

theorem encodeUnconstrained_eq {v : Int} (hv : IsI128 v) :
    encodeUnconstrained v = (do
      encodeIndefiniteLength (unconstrainedBytes v)
      appendBits (natToBits (8 * unconstrainedBytes v) (toU128 v))) := by
  obtain ⟨h1, h2, -, -⟩ := unconstrainedBytes_spec hv
  unfold encodeUnconstrained i128Bits
  simp only [encodeLength, Bool.false_eq_true, if_false, Option.any_none]
  rw [if_neg (by omega), natToBits_drop _ _ _ (by omega)]
  congr 1
  funext _
  congr 2
  omega

theorem decodeUnconstrained_eq : decodeUnconstrained =
    (do let n ← decodeIndefiniteLength; decodeBitsAsInteger (n * 8) true) := rfl

theorem decodeSemiConstrained_eq (lb : Int) : decodeSemiConstrained lb =
    (do let n ← decodeIndefiniteLength
        let val ← decodeBitsAsInteger (n * 8) false
        chkI128 (val + lb)) := rfl

theorem mem_signedWidths {k : Nat} : k * 8 ∈ signedWidths ↔ SignedOctets k := by
  unfold signedWidths SignedOctets
  simp
  omega

theorem RT.unconstrained {v : Int} (hv : IsI128 v) (hk : SignedOctets (unconstrainedBytes v)) :
    RT (encodeUnconstrained v) decodeUnconstrained v := by
  rw [encodeUnconstrained_eq hv, decodeUnconstrained_eq]
  obtain ⟨h1, h2, h3, -⟩ := unconstrainedBytes_spec hv
  refine .bind (.indefinite _) (.of fun p => ⟨_, .append p _, ?_⟩)
  rw [Nat.mul_comm 8]
  exact .signed p (mem_signedWidths.mpr hk) (by rw [Nat.mul_comm]; exact h3.1)
    (by rw [Nat.mul_comm]; exact h3.2)

theorem RT.semiConstrained {lb v : Int} (hv : IsI128 v) :
    RT (encodeSemiConstrained lb v) (decodeSemiConstrained lb) v := by
  unfold encodeSemiConstrained
  split
  · exact .fail
  · next hge =>
    by_cases hd : IsI128 (v - lb)
    · rw [chkI128_bind hd, encodeUnconstrained_eq hd, decodeSemiConstrained_eq]
      obtain ⟨h1, h2, h3, -⟩ := unconstrainedBytes_spec hd
      refine .bind (.indefinite _) (.of fun p => ⟨_, .append p _, ?_⟩)
      have hd2 := hd
      unfold IsI128 at hd2
      have e1 : toU128 (v - lb) = (v - lb).toNat := toU128_of_nonneg (by omega) (by omega)
      have h4 := ipow_cast (8 * unconstrainedBytes (v - lb) - 1)
      have h5 : (2 : Nat) ^ (8 * unconstrainedBytes (v - lb) - 1) ≤
        2 ^ (8 * unconstrainedBytes (v - lb)) := pow_le_iff.mpr (by omega)
      have h6 := h3.2
      rw [e1, Nat.mul_comm _ 8]
      have hv' : ((v - lb).toNat : Int) + lb = v := by omega
      have := decodes_chk (Decodes.nat p (n := 8 * unconstrainedBytes (v - lb))
        (x := (v - lb).toNat) (by omega) (by omega) (by omega)) (lb := lb) (by rwa [hv'])
      rwa [hv'] at this
    · rw [chkI128_bind_panic hd]; exact .panic

theorem RT.extBit (e : Bool) : RT (encodeExtBit e false) (decodeExtBit e) false := by
  unfold encodeExtBit decodeExtBit
  cases e
  · exact .pure false
  · exact .boolM false

/-- An integer the unconstrained branch can carry. -/
def IntOk (lb : Option Int) (v : Int) : Prop := lb = none → SignedOctets (unconstrainedBytes v)

theorem RT.integer {lb ub : Option Int} {v : Int} (hv : IsI128 v) (hk : IntOk lb v) (e x : Bool) :
    RT (encodeInteger lb ub e v x) (decodeInteger lb ub e) (v, false) := by
  unfold encodeInteger decodeInteger
  cases x with
  | true => exact .fail
  | false =>
    refine .bind (.extBit e) (.map ?_ fun a => (a, false))
    unfold decodeIntegerValue
    cases lb with
    | none => exact .unconstrained hv (hk rfl)
    | some l =>
      cases ub with
      | none => exact .semiConstrained hv
      | some u => exact .constrained hv

theorem RT.choiceIdx {lb ub v : Int} (hv : IsI128 v) (e x : Bool) :
    RT (encodeChoiceIdx lb ub e v x) (decodeChoiceIdx lb ub e) (v, false) := by
  unfold encodeChoiceIdx decodeChoiceIdx
  cases x with
  | true => exact .fail
  | false =>
    have hi := RT.integer (lb := some lb) (ub := some ub) hv (by intro h; cases h) false false
    cases e with
    | true => exact .bind (.boolM false) (.map hi fun r => (r.1, false))
    | false =>
      have := RT.bind (m2 := fun _ => encodeInteger (some lb) (some ub) false v false)
        (d2 := fun _ => decodeInteger (some lb) (some ub) false >>= fun r => Pure.pure (r.1, false))
        (RT.pure ()) (.map hi fun r => (r.1, false))
      exact this

theorem RT.sequenceHeader (e : Bool) (o : List Bool) (x : Bool) :
    RT (encodeSequenceHeader e o x) (decodeSequenceHeader e o.length) (o, false) := by
  unfold encodeSequenceHeader decodeSequenceHeader
  cases x with
  | true => exact .fail
  | false =>
    refine .bind (.extBit e) ?_
    unfold decodeBitmap
    by_cases h : 0 < o.length
    · rw [if_pos h]; exact .map (.bitvec o) fun b => (b, false)
    · have : o = [] := List.length_eq_zero_iff.mp (by omega)
      subst this
      rw [if_neg h]
      exact .of fun p => ⟨_, .append p [], .pure p _⟩

theorem RT.enumerated {lb ub : Option Int} {v : Int} (hv : IsI128 v) (hk : IntOk lb v)
    (e x : Bool) : RT (encodeEnumerated lb ub e v x) (decodeEnumerated lb ub e) (v, false) := by
  unfold encodeEnumerated decodeEnumerated decodeEnumeratedValue
  cases x with
  | true => exact .fail
  | false =>
    exact .bind (.extBit e) (.map (.map (.integer hv hk false false) Prod.fst) fun a => (a, false))

/-! ## Strings -/

theorem Decodes.fragments {len : M Nat} {n : Nat} {f : Nat → M (List α)} {p : Nat} {w1 w2 : List Bool} {k : Nat} {l : List α}
    (hk : k < 16384) (h1 : Decodes len p w1 k)
    (h2 : Decodes (decodeChunk n f k) (p + w1.length) w2 l) :
    Decodes (decodeFragments len n f) p (w1 ++ w2) l := by
  have h : Decodes (fragLoop len n f 1 []) p (w1 ++ w2) l := by
    simp only [fragLoop]
    refine .bind h1 ?_
    have h3 : ¬ 16384 ≤ k := by omega
    simp only [if_neg h3]
    exact Decodes.map h2 fun c => [] ++ c
  intro pre suf k hp
  rw [← h pre suf k hp]
  unfold decodeFragments
  exact fragLoop_mono n 1 _ _ _ (by omega) (by rw [h pre suf k hp]; simp)

theorem RT.fragments {lenE : M Unit} {lenD : M Nat} {n : Nat} {f : Nat → M (List α)}
    {chunkE : M Unit} {k : Nat} {l : List α} (hk : k < 16384)
    (h1 : RT lenE lenD k) (h2 : RT chunkE (decodeChunk n f k) l) :
    RT (lenE >>= fun _ => chunkE) (decodeFragments lenD n f) l := by
  intro s s' h
  have hw := RT.bind (m2 := fun _ => chunkE) (d2 := decodeChunk n f) h1 h2 s s' h
  rw [M.bind_apply] at h
  cases hr : lenE s with
  | ok u s1 =>
    rw [hr] at h
    obtain ⟨w1, e1, hw1, hd1⟩ := h1 s s1 hr
    obtain ⟨w2, e2, hw2, hd2⟩ := h2 s1 s' h
    subst e1
    simp only [List.length_append] at hw2 hd2
    exact ⟨w1 ++ w2, by simp [e2], .bind hw1 hw2, .fragments hk hd1 hd2⟩
  | err _ => rw [hr] at h; cases h
  | panic => rw [hr] at h; cases h

theorem RT.stringLength {lb ub : Option Int} (h : SizeBounds lb ub) (n : Nat) :
    RT (encodeLength lb ub false n) (decodeStringLength false lb ub) n := RT.length h false n

theorem RT.bitstring {lb ub : Option Int} (h : SizeBounds lb ub) (l : List Bool) (e x : Bool) :
    RT (encodeBitstring lb ub e l x) (decodeBitstring lb ub e) l := by
  unfold encodeBitstring decodeBitstring
  cases x with
  | true => exact .fail
  | false =>
    refine .bind (.extBit e) ?_
    by_cases h1 : 16384 ≤ l.length
    · rw [if_pos h1]; exact .fail
    · rw [if_neg h1]
      refine .fragments (by omega)
        (.stringLength h l.length) ?_
      unfold decodeChunk
      by_cases h0 : 0 < l.length
      · rw [if_pos h0, if_pos h0]
        exact .bind (.alignIf _) (.bitvec l)
      · rw [if_neg h0, if_neg h0]
        have : l = [] := List.length_eq_zero_iff.mp (by omega)
        subst this
        exact .pure []

theorem RT.octetstring {lb ub : Option Int} (h : SizeBounds lb ub) (l : List UInt8) (e x : Bool) :
    RT (encodeOctetstring lb ub e l x) (decodeOctetstring lb ub e) l := by
  unfold encodeOctetstring decodeOctetstring
  cases x with
  | true => exact .fail
  | false =>
    refine .bind (.extBit e) ?_
    by_cases h1 : 16384 ≤ l.length
    · rw [if_pos h1]; exact .fail
    · rw [if_neg h1]
      refine .fragments (by omega)
        (.stringLength h l.length) ?_
      unfold decodeChunk
      by_cases h0 : 0 < l.length
      · rw [if_pos h0, if_pos h0]
        exact .bind (.alignIf _) (.bytes l)
      · rw [if_neg h0, if_neg h0]
        have : l = [] := List.length_eq_zero_iff.mp (by omega)
        subst this
        exact .pure []

end Hampi
