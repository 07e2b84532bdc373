import Verif.Props.Panics
import Verif.Lemmas.DeriveOk
/-!
# How many bits decoders consume
-/
namespace Hampi

open Spec (SizeBounds)

variable {α β : Type}

/-- A successful call that returns `a` consumes at least `f a` bits. -/
def Costs (m : M α) (f : α → Nat) : Prop := ∀ s a s', m s = .ok a s' → s.off + f a ≤ s'.off

/-- A successful call consumes at least `n` bits. -/
abbrev Takes (m : M α) (n : Nat) : Prop := Costs m fun _ => n

namespace Costs

theorem zero {m : M α} (h : IsReader m) : Takes m 0 := by
  intro s a s' hs
  have := h.frame s
  rw [hs] at this
  exact this.2.1

theorem mono {m : M α} {f g : α → Nat} (h : Costs m f) (hle : ∀ a, g a ≤ f a) : Costs m g := by
  intro s a s' hs
  have := h s a s' hs
  have := hle a
  omega

theorem bind {m : M α} {g : α → M β} {f : α → Nat} {k : α → β → Nat} {c : β → Nat} (h : Costs m f)
    (hg : ∀ a, Costs (g a) (k a)) (hc : ∀ a b, c b ≤ f a + k a b) : Costs (m >>= g) c := by
  intro s b s' hs
  obtain ⟨a, t, h1, h2⟩ := bind_ok hs
  have := h _ _ _ h1
  have := hg a _ _ _ h2
  have := hc a b
  omega

theorem left {m : M α} {g : α → M β} {n : Nat} (h : Takes m n) (hg : ∀ a, IsReader (g a)) :
    Takes (m >>= g) n :=
  bind h (fun a => zero (hg a)) fun _ _ => Nat.le_refl _

theorem right {m : M α} {g : α → M β} {c : β → Nat} (h : IsReader m) (hg : ∀ a, Costs (g a) c) :
    Costs (m >>= g) c :=
  bind (zero h) hg fun _ _ => by omega

theorem ite {p : Prop} [Decidable p] {a b : M α} {f : α → Nat} (ha : p → Costs a f)
    (hb : ¬ p → Costs b f) : Costs (if p then a else b) f := by
  split
  · next h => exact ha h
  · next h => exact hb h

theorem fail {f : α → Nat} : Costs (M.fail : M α) f := by intro s a s' h; cases h
theorem panic {f : α → Nat} : Costs (M.panic : M α) f := by intro s a s' h; cases h

theorem takeBits (n : Nat) : Takes (takeBits n) n := by
  intro s a s' h
  have := takeBits_length h
  show s.off + n ≤ s'.off
  omega

theorem boolM : Takes decodeBoolM 1 := by
  rw [decodeBoolM_eq]
  exact left (takeBits 1) fun _ => .pure _

theorem unsigned (n : Nat) : Takes (decodeBitsAsInteger n false) n := by
  rw [decodeBitsAsInteger_unsigned]
  exact ite (fun _ => left (takeBits n) fun _ => .pure _) fun _ => left (takeBits n) fun _ => .panic

theorem indefinite : Takes decodeIndefiniteLength 8 := by
  unfold decodeIndefiniteLength
  refine bind (f := fun _ => 0) (k := fun _ _ => 8) (zero IsDec.align.reader) (fun _ => ?_) (by omega)
  refine bind (f := fun _ => 1) (k := fun _ _ => 7) boolM (fun _ => ?_) (by omega)
  refine ite (fun _ => left (unsigned 7) fun _ => .pure _) fun _ => ?_
  refine bind (f := fun _ => 1) (k := fun _ _ => 6) boolM (fun _ => ?_) (by omega)
  refine ite (fun _ => mono (left (unsigned 14) fun _ => .pure _) (by omega)) fun _ => ?_
  exact left (unsigned 6) fun _ => .ite .fail (.pure _)

theorem constrainedField {large : Int → M Int} (hl : ∀ R, Takes (large R) 1) {R : Int} (h : 2 ≤ R) :
    Takes (decodeConstrainedField large R) 1 := by
  unfold decodeConstrainedField
  refine ite (fun h1 => mono (unsigned _) fun _ => ?_) fun _ =>
    ite (fun _ => right IsDec.align.reader fun _ => mono (unsigned 8) (by omega)) fun _ =>
    ite (fun _ => right IsDec.align.reader fun _ => mono (unsigned 16) (by omega)) fun _ => hl R
  unfold decFieldBits
  repeat' split
  all_goals omega

theorem constrainedWith {large : Int → M Int} (hd : ∀ R, IsDec (large R)) (hl : ∀ R, Takes (large R) 1)
    {lb ub : Int} (h : lb ≠ ub) : Takes (decodeConstrainedWith large lb ub) 1 := by
  intro s a s' hs
  unfold decodeConstrainedWith at hs
  obtain ⟨d, t, h1, hs⟩ := bind_ok hs
  obtain ⟨R, t2, h2, hs⟩ := bind_ok hs
  have e1 : d = ub - lb ∧ t = s := by
    unfold chkI128 at h1; split at h1 <;> cases h1; exact ⟨rfl, rfl⟩
  have e2 : R = d + 1 ∧ t2 = t := by
    unfold chkI128 at h2; split at h2 <;> cases h2; exact ⟨rfl, rfl⟩
  rw [M.ite_apply] at hs
  split at hs
  · cases hs
  · next hR =>
    obtain ⟨v, t3, h3, hs⟩ := bind_ok hs
    have : t2.off + 1 ≤ t3.off := constrainedField hl (by omega) _ _ _ h3
    show s.off + 1 ≤ s'.off
    have h4 : s'.off = t3.off := by
      unfold chkI128 at hs; split at hs <;> cases hs; rfl
    rw [e2.2, e1.2] at this
    omega

theorem constrained {lb ub : Int} (h : lb ≠ ub) : Takes (decodeConstrained lb ub) 1 := by
  unfold decodeConstrained
  refine constrainedWith (fun R => .bind (.constrainedLengthSmall _ _) fun _ => .bind .align fun _ =>
    .bitsAsInteger _ _) (fun R => ?_) h
  intro s a s' hs
  obtain ⟨l, t, h1, hs⟩ := bind_ok hs
  by_cases hl : l = 0
  · exfalso
    subst hl
    unfold decodeConstrainedLengthSmall at h1
    rw [M.ite_apply] at h1
    split at h1
    · cases h1
    · rw [M.ite_apply] at h1
      split at h1
      · next h2 h3 =>
        obtain ⟨v, t2, h4, h5⟩ := bind_ok h1
        unfold decodeConstrainedSmall at h4
        have hn : bytesNeededForRange R ≤ 17 := by
          unfold bytesNeededForRange
          dsimp only
          split <;> omega
        rw [decodeConstrainedWith_eq _ (R := bytesNeededForRange R) (by omega) (by omega) (by omega)] at h4
        obtain ⟨a, t3, h6, rfl⟩ := chk_ok h4
        obtain ⟨h7, -, h8⟩ := decodeField_small_range (by omega) h6
        have h9 : asUsize (a + ((1 : Nat) : Int)) = 0 := by injection h5
        unfold asUsize at h9
        omega
      · cases h1
  · have h2 := (IsDec.constrainedLengthSmall 1 (bytesNeededForRange R)).reader.frame s
    rw [h1] at h2
    obtain ⟨_, t2, h3, hs⟩ := bind_ok hs
    have h4 := IsDec.align.reader.frame t
    rw [h3] at h4
    have : t2.off + l * 8 ≤ s'.off := unsigned _ _ _ _ hs
    have := h2.2.1
    have := h4.2.1
    show s.off + 1 ≤ s'.off
    omega

theorem semiConstrained (lb : Int) : Takes (decodeSemiConstrained lb) 8 :=
  left indefinite fun _ => (IsDec.bind (.bitsAsInteger _ _) fun _ => .chkI128 _).reader

theorem unconstrained : Takes decodeUnconstrained 8 :=
  left indefinite fun _ => (IsDec.bitsAsInteger _ _).reader

theorem extBit {e : Bool} (h : e = true) : Takes (decodeExtBit e) 1 := by
  subst h; exact boolM

theorem integer {lb ub : Option Int} {e : Bool} (h : (e || intSolid lb ub) = true) :
    Takes (decodeInteger lb ub e) 1 := by
  unfold decodeInteger
  rcases Bool.or_eq_true_iff.mp h with h | h
  · exact left (extBit h) fun x => (IsDec.bind (.integerValue lb ub x) fun _ => .pure _).reader
  · refine right (IsDec.extBit e).reader fun x => left ?_ fun _ => .pure _
    unfold decodeIntegerValue
    refine ite (fun _ => mono unconstrained (by omega)) fun _ => ?_
    cases lb with
    | none => exact mono unconstrained (by omega)
    | some l =>
      cases ub with
      | none => exact mono (semiConstrained l) (by omega)
      | some u => exact constrained (by simpa [intSolid] using h)

theorem normallySmall : Takes decodeNormallySmallNonNegative 1 :=
  left boolM fun _ => (IsDec.ite (.bitsAsInteger _ _) (.semiConstrained _)).reader

theorem enumerated {lb ub : Option Int} {e : Bool} (h : (e || intSolid lb ub) = true) :
    Takes (decodeEnumerated lb ub e) 1 := by
  unfold decodeEnumerated
  rcases Bool.or_eq_true_iff.mp h with he | hi
  · exact left (extBit he) fun x => (IsDec.bind (by
      unfold decodeEnumeratedValue
      exact .ite (.bind (.integer _ _ _) fun _ => .pure _) .normallySmallNonNegative) fun _ =>
        .pure _).reader
  · refine right (IsDec.extBit e).reader fun x => left ?_ fun _ => .pure _
    unfold decodeEnumeratedValue
    refine ite (fun _ => left (integer (by simp [hi])) fun _ => .pure _) fun _ => normallySmall

theorem choiceIdx {lb ub : Int} {e : Bool} (h : (e || decide (lb ≠ ub)) = true) :
    Takes (decodeChoiceIdx lb ub e) 1 := by
  unfold decodeChoiceIdx
  refine ite (fun _ => left boolM fun x => (IsDec.ite (.bind (.integer _ _ _) fun _ => .pure _)
    (.bind .normallySmallNonNegative fun _ => .pure _)).reader) fun he => ?_
  refine left (integer ?_) fun _ => .pure _
  simp only [Bool.or_eq_true] at h
  simpa [intSolid] using h.resolve_left he

theorem length {lb ub : Option Int} {ns : Bool} (h : (ns || lengthSolid lb ub) = true) :
    Takes (decodeLength lb ub ns) 1 := by
  unfold decodeLength
  refine ite (fun _ => left boolM fun _ => (IsDec.ite (.bind (.bitsAsInteger _ _) fun _ => .pure _)
    .indefinite).reader) fun hns => ?_
  simp only [Bool.or_eq_true] at h
  have h := h.resolve_left hns
  intro s a s' hs
  obtain ⟨l, t, h1, hs⟩ := bind_ok hs
  have hf := (IsDec.lengthLowerBound lb).reader.frame s
  rw [h1] at hf
  have hf := hf.2.1
  have hl : (l : Int) = lb.getD 0 := by
    cases lb with
    | none => cases h1; rfl
    | some x =>
      change toUsizeOrPanic x s = _ at h1
      unfold toUsizeOrPanic at h1
      by_cases hx : 0 ≤ x ∧ x < 2 ^ 64
      · rw [if_pos hx] at h1; cases h1; simp; omega
      · rw [if_neg hx] at h1; cases h1
  cases ub with
  | none =>
    have : t.off + 8 ≤ s'.off := indefinite _ _ _ hs
    show s.off + 1 ≤ s'.off
    omega
  | some u =>
    obtain ⟨u', t2, h2, hs⟩ := bind_ok hs
    unfold toUsizeOrPanic at h2
    by_cases hx : 0 ≤ u ∧ u < 2 ^ 64
    · rw [if_pos hx] at h2
      cases h2
      rw [M.ite_apply] at hs
      split at hs
      · next hu =>
        have hne : lb.getD 0 ≠ u := by
          unfold lengthSolid at h
          simp only [Bool.or_eq_true, decide_eq_true_eq] at h
          exact h.resolve_left (by omega)
        rw [M.ite_apply, if_neg (by omega)] at hs
        unfold decodeConstrainedLength at hs
        rw [M.ite_apply] at hs
        split at hs
        · cases hs
        · rw [M.ite_apply] at hs
          split at hs
          · obtain ⟨x, t3, h3, hs⟩ := bind_ok hs
            cases hs
            have : t.off + 1 ≤ s'.off := constrained (by omega) _ _ _ h3
            show s.off + 1 ≤ s'.off
            omega
          · cases hs
      · have : t.off + 8 ≤ s'.off := indefinite _ _ _ hs
        show s.off + 1 ≤ s'.off
        omega
    · rw [if_neg hx] at h2; cases h2

/-! ## Strings -/

theorem bitsBytes_length : (l : List Bool) → (bitsBytes l).length ≤ l.length
  | b0 :: b1 :: b2 :: b3 :: b4 :: b5 :: b6 :: b7 :: rest => by
    have := bitsBytes_length rest
    simp only [bitsBytes, List.length_cons]
    omega
  | [] => Nat.le_refl _
  | [_] | [_, _] | [_, _, _] | [_, _, _, _] | [_, _, _, _, _] | [_, _, _, _, _, _]
  | [_, _, _, _, _, _, _] => by simp [bitsBytes]

theorem loadChunks_length (h : Nat) : (l : List Bool) → (loadChunks h l).length ≤ l.length
  | b0 :: b1 :: b2 :: b3 :: b4 :: b5 :: b6 :: b7 :: rest => by
    have := loadChunks_length h rest
    simp only [loadChunks, List.length_cons]
    omega
  | [] => Nat.le_refl _
  | [_] | [_, _] | [_, _, _] | [_, _, _, _] | [_, _, _, _, _] | [_, _, _, _, _, _]
  | [_, _, _, _, _, _, _] => by simp [loadChunks]

theorem bitvec (n : Nat) : Costs (getBitvec n) List.length := by
  intro s a s' h
  rw [getBitvec_eq] at h
  have := takeBits_length h
  omega

theorem bytes (n : Nat) : Costs (getBytes n) List.length := by
  intro s a s' h
  rw [getBytes_eq] at h
  obtain ⟨l, t, h1, h2⟩ := bind_ok h
  have := takeBits_length h1
  cases h2
  show s.off + (bitsBytes l).length ≤ s'.off
  have := bitsBytes_length l
  omega

theorem chunk {f : Nat → M (List α)} (hf : ∀ n, Costs (f n) List.length)
    (k l : Nat) : Costs (decodeChunk k f l) List.length := by
  unfold decodeChunk
  refine ite (fun _ => right (IsDec.alignIf _).reader fun _ => hf _) fun _ => ?_
  intro s a s' h
  cases h
  simp

theorem fragLoop {len : M Nat} (hl : IsDec len) {f : Nat → M (List α)}
    (hf : ∀ n, Costs (f n) List.length) (k : Nat) : (fuel : Nat) → (acc : List α) → (s : Codec) →
    (v : List α) → (s' : Codec) → fragLoop len k f fuel acc s = .ok v s' →
    s.off + v.length ≤ s'.off + acc.length
  | 0, acc, s, v, s', h => by cases h
  | fuel + 1, acc, s, v, s', h => by
    simp only [Hampi.fragLoop] at h
    obtain ⟨n, t, h1, h⟩ := bind_ok h
    obtain ⟨c, t2, h2, h⟩ := bind_ok h
    have h1 : s.off + 0 ≤ t.off := zero hl.reader _ _ _ h1
    have h2 := chunk hf _ _ _ _ _ h2
    rw [M.ite_apply] at h
    split at h
    · have := fragLoop hl hf k fuel _ _ _ _ h
      simp only [List.length_append] at this
      omega
    · cases h
      simp only [List.length_append]
      omega

theorem fragments {len : M Nat} (hl : IsDec len) {f : Nat → M (List α)}
    (hf : ∀ n, Costs (f n) List.length) (k : Nat) : Costs (decodeFragments len k f) List.length := by
  intro s v s' h
  have := fragLoop hl hf k _ _ _ _ _ h
  simpa using this

theorem bitstring (lb ub : Option Int) (e : Bool) : Costs (decodeBitstring lb ub e) List.length :=
  right (IsDec.extBit e).reader fun x => fragments (.stringLength x lb ub) bitvec 16

theorem octetstring (lb ub : Option Int) (e : Bool) : Costs (decodeOctetstring lb ub e) List.length :=
  right (IsDec.extBit e).reader fun x => fragments (.stringLength x lb ub) bytes 2

theorem string (lb ub : Option Int) (e : Bool) : Costs (decodeString lb ub e) String.utf8ByteSize := by
  refine right (IsDec.extBit e).reader fun x => right (IsDec.stringLength x lb ub).reader fun n =>
    right (IsDec.alignIf _).reader fun _ => ?_
  intro s v s' h
  obtain ⟨b, t, h1, h⟩ := bind_ok h
  rw [getBitvecStored_apply] at h1
  cases hr : Hampi.takeBits (n * 8) s with
  | err _ => rw [hr] at h1; cases h1
  | panic => rw [hr] at h1; cases h1
  | ok l t =>
    rw [hr] at h1
    cases h1
    have h3 := takeBits_length hr
    unfold decodeText at h
    dsimp only at h
    cases hv : fromUtf8 (loadChunks (s.off % 8) l) with
    | none => rw [hv] at h; cases h
    | some str =>
      rw [hv] at h
      cases h
      have h4 := fromUtf8_eq_some_iff.mp hv
      have h5 := loadChunks_length (s.off % 8) l
      have h6 : v.utf8ByteSize = (utf8 v).length := by
        unfold utf8
        simp
      rw [h6, h4]
      omega

/-- A string length is written or is not zero. -/
theorem stringLength {lb ub : Option Int} (h : stringSolid lb ub = true) {x : Bool} {s t : Codec} {n : Nat}
    (hs : decodeStringLength x lb ub s = .ok n t) : s.off + 1 ≤ t.off ∨ (0 < n ∧ s.off ≤ t.off) := by
  unfold decodeStringLength at hs
  by_cases hx : x = true
  · rw [if_pos hx] at hs
    exact .inl (length (by rfl) _ _ _ hs)
  · rw [if_neg hx] at hs
    unfold stringSolid at h
    by_cases hl : lengthSolid lb ub = true
    · exact .inl (length (by simp [hl]) _ _ _ hs)
    · refine .inr ⟨?_, zero (IsDec.length lb ub false).reader _ _ _ hs⟩
      have h0 : ub ≠ some 0 := by simpa [hl] using h
      cases ub with
      | none => exact absurd rfl hl
      | some u =>
        unfold lengthSolid at hl
        simp only [Bool.or_eq_true, decide_eq_true_eq, not_or] at hl
        have he : lb.getD 0 = u := by
          rcases Classical.em (lb.getD 0 = u) with h | h
          · exact h
          · exact absurd h hl.2
        unfold decodeLength at hs
        rw [if_neg (by decide)] at hs
        obtain ⟨l, t1, h1, hs⟩ := bind_ok hs
        obtain ⟨u', t2, h2, hs⟩ := bind_ok hs
        unfold toUsizeOrPanic at h2
        by_cases hx : 0 ≤ u ∧ u < 2 ^ 64
        · rw [if_pos hx] at h2
          cases h2
          have hl : l = u.toNat := by
            cases lb with
            | none => cases h1; simp at he; omega
            | some y =>
              change toUsizeOrPanic y s = _ at h1
              unfold toUsizeOrPanic at h1
              simp only [Option.getD_some] at he
              subst he
              rw [if_pos hx] at h1
              cases h1
              rfl
          rw [M.ite_apply, if_pos (by omega), M.ite_apply, if_pos hl] at hs
          cases hs
          have : u ≠ 0 := fun h => h0 (by rw [h])
          omega
        · rw [if_neg hx] at h2; cases h2

theorem chunkTakes {f : Nat → M (List α)} (hf : Consumes f) (k l : Nat) : Takes (decodeChunk k f l) l := by
  intro s a s' h
  show s.off + l ≤ s'.off
  by_cases hl : 0 < l
  · exact (decodeChunk_consumes hf hl h).1
  · have : l = 0 := by omega
    subst this
    cases h
    exact Nat.le_refl _

theorem fragmentsTakes {f : Nat → M (List α)} (hc : Consumes f) (hd : ∀ n, IsDec (f n))
    (k : Nat) {lb ub : Option Int} (h : stringSolid lb ub = true) (x : Bool) :
    Takes (decodeFragments (decodeStringLength x lb ub) k f) 1 := by
  intro s v s' hs
  unfold decodeFragments at hs
  simp only [Hampi.fragLoop] at hs
  obtain ⟨n, t, h1, hs⟩ := bind_ok hs
  obtain ⟨c, t2, h2, hs⟩ := bind_ok hs
  have h3 := stringLength h h1
  have h4 : t.off + n ≤ t2.off := chunkTakes hc k n _ _ _ h2
  have h5 : t2.off + 0 ≤ s'.off := by
    refine zero (m := if 16384 ≤ n then Hampi.fragLoop (decodeStringLength x lb ub) k f s.bits.length
      ([] ++ c) else Pure.pure ([] ++ c)) ?_ _ _ _ hs
    exact .ite (IsDec.fragLoop (.stringLength x lb ub) k hd _ _).reader (.pure _)
  show s.off + 1 ≤ s'.off
  omega

theorem bitstringTakes {lb ub : Option Int} {e : Bool} (h : (e || stringSolid lb ub) = true) :
    Takes (decodeBitstring lb ub e) 1 := by
  unfold decodeBitstring
  rcases Bool.or_eq_true_iff.mp h with he | hi
  · exact left (extBit he) fun x => (IsDec.fragments (.stringLength x lb ub) 16 getBitvec_consumes .bitvec).reader
  · exact right (IsDec.extBit e).reader fun x => fragmentsTakes getBitvec_consumes .bitvec 16 hi x

theorem octetstringTakes {lb ub : Option Int} {e : Bool} (h : (e || stringSolid lb ub) = true) :
    Takes (decodeOctetstring lb ub e) 1 := by
  unfold decodeOctetstring
  rcases Bool.or_eq_true_iff.mp h with he | hi
  · exact left (extBit he) fun x => (IsDec.fragments (.stringLength x lb ub) 2 getBytes_consumes .bytes).reader
  · exact right (IsDec.extBit e).reader fun x => fragmentsTakes getBytes_consumes .bytes 2 hi x

theorem stringTakes {lb ub : Option Int} {e : Bool} (h : (e || stringSolid lb ub) = true) :
    Takes (decodeString lb ub e) 1 := by
  unfold decodeString
  have ht : ∀ b, IsDec (decodeText b) := by
    intro b
    unfold decodeText
    split
    · exact .pure _
    · exact .fail
  rcases Bool.or_eq_true_iff.mp h with he | hi
  · exact left (extBit he) fun x => (IsDec.bind (.stringLength x lb ub) fun n =>
      .bind (.alignIf _) fun _ => .bind (.bitvecStored _) ht).reader
  · refine right (IsDec.extBit e).reader fun x => ?_
    intro s v s' hs
    obtain ⟨n, t, h1, hs⟩ := bind_ok hs
    obtain ⟨_, t1, h2, hs⟩ := bind_ok hs
    obtain ⟨b, t2, h3, hs⟩ := bind_ok hs
    have a1 := stringLength hi h1
    have a2 : t.off + 0 ≤ t1.off := zero (IsDec.alignIf _).reader _ _ _ h2
    have a4 : t2.off + 0 ≤ s'.off := zero (ht b).reader _ _ _ hs
    have a3 : t1.off + n * 8 ≤ t2.off := by
      rw [getBitvecStored_apply] at h3
      cases hr : Hampi.takeBits (n * 8) t1 with
      | err _ => rw [hr] at h3; cases h3
      | panic => rw [hr] at h3; cases h3
      | ok l t => rw [hr] at h3; cases h3; have := takeBits_length hr; omega
    show s.off + 1 ≤ s'.off
    omega

theorem charstring (k : CharKind) (lb ub : Option Int) (e : Bool) :
    Costs (decodeCharstring k lb ub e) String.utf8ByteSize := by
  cases k <;> exact string lb ub e

theorem charstringTakes (k : CharKind) {lb ub : Option Int} {e : Bool}
    (h : (e || stringSolid lb ub) = true) : Takes (decodeCharstring k lb ub e) 1 := by
  cases k <;> exact stringTakes h

theorem header {e : Bool} {n : Nat} (h : (e || decide (0 < n)) = true) :
    Takes (decodeSequenceHeader e n) 1 := by
  unfold decodeSequenceHeader
  have hb : IsDec (decodeBitmap n) := by unfold decodeBitmap; exact .ite (.bitvec _) (.pure _)
  rcases Bool.or_eq_true_iff.mp h with he | hi
  · exact left (extBit he) fun x => (IsDec.bind hb fun _ => .pure _).reader
  · refine right (IsDec.extBit e).reader fun x => left ?_ fun _ => .pure _
    simp only [decide_eq_true_eq] at hi
    unfold decodeBitmap
    rw [if_pos hi, getBitvec_eq]
    exact mono (takeBits n) fun _ => by omega

end Costs

end Hampi
