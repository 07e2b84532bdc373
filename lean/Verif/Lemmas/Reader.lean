import Verif.Codec.Decode
import Verif.Lemmas.Writer
/-!
# Decoders as readers

A decoder leaves the buffer alone and moves its position forward inside it. Its result is unchanged
by appending bits (when it succeeds) and by replacing the bits before its position by others of the
same length modulo 8.
-/
namespace Hampi

/-- `P` holds of the state left by a call that returned (`Ok` or `Err`). -/
def Res.After {α} (P : Codec → Prop) : Res α → Prop
  | .ok _ s => P s
  | .err s => P s
  | .panic => True

/-- The state change allowed to a decoder. -/
def Steps (s s' : Codec) : Prop :=
  s'.bits = s.bits ∧ s.off ≤ s'.off ∧ (s.off ≤ s.bits.length → s'.off ≤ s.bits.length)

theorem Steps.refl (s : Codec) : Steps s s := ⟨rfl, Nat.le_refl _, id⟩

theorem Steps.trans {a b c : Codec} (h1 : Steps a b) (h2 : Steps b c) : Steps a c := by
  obtain ⟨h11, h12, h13⟩ := h1
  obtain ⟨h21, h22, h23⟩ := h2
  rw [h11] at h21 h23
  exact ⟨h21, Nat.le_trans h12 h22, fun h => h23 (h13 h)⟩

/-- Move an outcome from a buffer starting with `p` to the buffer `p' ++ r`. -/
def Res.shift {α} (p p' r : List Bool) : Res α → Res α
  | .ok a s => .ok a ⟨p' ++ r, s.off - p.length + p'.length, s.key⟩
  | .err s => .err ⟨p' ++ r, s.off - p.length + p'.length, s.key⟩
  | .panic => .panic

/-- `m` is a reader. -/
structure IsReader {α} (m : M α) : Prop where
  frame : ∀ s, (m s).After (Steps s)
  local_ : ∀ bits off key a s', m ⟨bits, off, key⟩ = .ok a s' →
    ∀ suf, m ⟨bits ++ suf, off, key⟩ = .ok a ⟨bits ++ suf, s'.off, s'.key⟩
  shift : ∀ p p' r o k, p.length % 8 = p'.length % 8 →
    m ⟨p' ++ r, p'.length + o, k⟩ = (m ⟨p ++ r, p.length + o, k⟩).shift p p' r

/-- `m` leaves the key alone. -/
def KeepsKey {α} (m : M α) : Prop := ∀ s, (m s).After (fun s' => s'.key = s.key)

namespace IsReader
variable {α β : Type}

theorem pure (a : α) : IsReader (pure a : M α) where
  frame s := Steps.refl s
  local_ := by intro bits off key b s' h suf; cases h; rfl
  shift := by
    intro p p' r o k _
    simp only [M.pure_apply, Res.shift]
    rw [Nat.add_sub_cancel_left, Nat.add_comm]

theorem fail : IsReader (M.fail : M α) where
  frame s := Steps.refl s
  local_ := by intro bits off key b s' h; cases h
  shift := by
    intro p p' r o k _
    simp only [M.fail_apply, Res.shift]
    rw [Nat.add_sub_cancel_left, Nat.add_comm]

theorem panic : IsReader (M.panic : M α) where
  frame _ := trivial
  local_ := by intro bits off key b s' h; cases h
  shift := by intro p p' r o k _; rfl

theorem bind {m : M α} {g : α → M β} (hm : IsReader m) (hg : ∀ a, IsReader (g a)) :
    IsReader (m >>= g) where
  frame s := by
    rw [M.bind_apply]
    have h1 := hm.frame s
    cases hr : m s with
    | ok a s1 =>
      rw [hr] at h1
      have h2 := (hg a).frame s1
      dsimp only
      cases hr2 : g a s1 with
      | ok b s2 => rw [hr2] at h2; exact Steps.trans h1 h2
      | err s2 => rw [hr2] at h2; exact Steps.trans h1 h2
      | panic => trivial
    | err s1 => rw [hr] at h1; exact h1
    | panic => trivial
  local_ := by
    intro bits off key b s' h suf
    rw [M.bind_apply] at h ⊢
    have h1 := hm.frame ⟨bits, off, key⟩
    cases hr : m ⟨bits, off, key⟩ with
    | ok a s1 =>
      rw [hr] at h h1
      dsimp only at h
      have hb : s1.bits = bits := h1.1
      rw [hm.local_ _ _ _ _ _ hr suf]
      dsimp only
      have h2 : g a ⟨bits, s1.off, s1.key⟩ = .ok b s' := by
        rw [← h, ← hb]
      exact (hg a).local_ _ _ _ _ _ h2 suf
    | err s1 => rw [hr] at h; cases h
    | panic => rw [hr] at h; cases h
  shift := by
    intro p p' r o k hp
    rw [M.bind_apply, M.bind_apply, hm.shift p p' r o k hp]
    have h1 := hm.frame ⟨p ++ r, p.length + o, k⟩
    cases hr : m ⟨p ++ r, p.length + o, k⟩ with
    | ok a s1 =>
      rw [hr] at h1
      obtain ⟨hb, ho, -⟩ := h1
      simp only [Res.shift]
      simp only at hb ho
      have hs1 : s1 = ⟨p ++ r, p.length + (s1.off - p.length), s1.key⟩ := by
        cases s1; simp_all; omega
      have h2 := (hg a).shift p p' r (s1.off - p.length) s1.key hp
      rw [← hs1] at h2
      rw [Nat.add_comm, h2]
      cases g a s1 <;> rfl
    | err s1 => rfl
    | panic => rfl

theorem ite {c : Prop} [Decidable c] {a b : M α} (ha : IsReader a) (hb : IsReader b) :
    IsReader (if c then a else b) := by split <;> assumption

theorem chkI128 (v : Int) : IsReader (chkI128 v) := by
  unfold Hampi.chkI128; exact ite (pure _) panic

end IsReader

namespace KeepsKey
variable {α β : Type}

theorem pure (a : α) : KeepsKey (pure a : M α) := fun _ => rfl
theorem fail : KeepsKey (M.fail : M α) := fun _ => rfl
theorem panic : KeepsKey (M.panic : M α) := fun _ => trivial

theorem bind {m : M α} {g : α → M β} (hm : KeepsKey m) (hg : ∀ a, KeepsKey (g a)) :
    KeepsKey (m >>= g) := by
  intro s
  rw [M.bind_apply]
  have h1 := hm s
  cases hr : m s with
  | ok a s1 =>
    rw [hr] at h1
    have h2 := hg a s1
    dsimp only
    cases hr2 : g a s1 with
    | ok b s2 => rw [hr2] at h2; exact Eq.trans h2 h1
    | err s2 => rw [hr2] at h2; exact Eq.trans h2 h1
    | panic => trivial
  | err s1 => rw [hr] at h1; exact h1
  | panic => trivial

theorem ite {c : Prop} [Decidable c] {a b : M α} (ha : KeepsKey a) (hb : KeepsKey b) :
    KeepsKey (if c then a else b) := by split <;> assumption

theorem chkI128 (v : Int) : KeepsKey (chkI128 v) := by
  unfold Hampi.chkI128; exact ite (pure _) panic

end KeepsKey

/-! ## The primitives -/

theorem advance_eq {n : Nat} {ign : Bool} {s : Codec} (h : s.off + n ≤ s.bits.length) :
    advanceMaybeErr n ign s = .ok () { s with off := s.off + n } := by
  unfold advanceMaybeErr; rw [if_neg (by omega)]

/-- A primitive that looks at the next `n` bits: succeeds iff they are there. -/
def takeBits (n : Nat) : M (List Bool) := fun s =>
  if s.bits.length < s.off then .panic
  else if s.bits.length < s.off + n then .err s
  else .ok ((s.bits.drop s.off).take n) { s with off := s.off + n }

theorem takeBits_reader (n : Nat) : IsReader (takeBits n) where
  frame s := by
    unfold takeBits
    split
    · trivial
    · split
      · exact Steps.refl s
      · exact ⟨rfl, Nat.le_add_right _ _, fun _ => by dsimp only; omega⟩
  local_ := by
    intro bits off key a s' h suf
    unfold takeBits at h ⊢
    dsimp only at h ⊢
    split at h
    · cases h
    · split at h
      · cases h
      · rw [List.length_append, if_neg (by omega), if_neg (by omega)]
        cases h
        rw [List.drop_append_of_le_length (by omega),
          List.take_append_of_le_length (by rw [List.length_drop]; omega)]
  shift := by
    intro p p' r o k hp
    have c1 : ∀ q : List Bool, q.length + r.length < q.length + o ↔ r.length < o := by
      intro q; omega
    have c2 : ∀ q : List Bool, q.length + r.length < q.length + o + n ↔ r.length < o + n := by
      intro q; omega
    unfold takeBits
    simp only [List.length_append, c1, c2, List.drop_length_add_append]
    split
    · rfl
    · split <;> simp only [Res.shift] <;> congr 2 <;> omega

theorem takeBits_key (n : Nat) : KeepsKey (takeBits n) := by
  intro s; unfold takeBits
  split
  · trivial
  · split <;> rfl

theorem takeBits_length {n : Nat} {s : Codec} {l s'} (h : takeBits n s = .ok l s') :
    l.length = n ∧ s'.off = s.off + n ∧ s.off + n ≤ s.bits.length := by
  unfold takeBits at h
  split at h
  · cases h
  · split at h
    · cases h
    · cases h
      refine ⟨?_, rfl, by omega⟩
      rw [List.length_take, List.length_drop]; omega

theorem decodeBoolM_eq : decodeBoolM = (do let l ← takeBits 1; Pure.pure (l.headD false)) := by
  funext s
  rw [M.bind_apply]
  unfold decodeBoolM takeBits
  by_cases h1 : s.bits.length < s.off
  · rw [if_neg (by omega), if_pos h1, List.getElem?_eq_none (by omega)]
  · rw [if_neg h1]
    by_cases h2 : s.bits.length = s.off
    · rw [if_pos h2, if_pos (by omega)]
    · rw [if_neg h2, if_neg (by omega)]
      have h3 : s.off < s.bits.length := by omega
      rw [List.getElem?_eq_getElem h3]
      dsimp only
      rw [M.bind_apply, advance_eq (by omega)]
      dsimp only
      rw [List.drop_eq_getElem_cons h3]
      rfl

theorem getBitvec_eq (n : Nat) : getBitvec n = takeBits n := by
  funext s
  unfold getBitvec takeBits
  by_cases h1 : s.bits.length < s.off
  · rw [if_pos (by omega), if_pos h1, if_pos h1]
  · rw [if_neg h1, if_neg h1]
    by_cases h2 : s.bits.length < s.off + n
    · rw [if_pos (by omega), if_pos h2]
    · rw [if_neg (by omega), if_neg h2, M.bind_apply, advance_eq (by omega)]
      rfl

theorem getBytes_eq (n : Nat) :
    getBytes n = (do let l ← takeBits (n * 8); Pure.pure (bitsBytes l)) := by
  funext s
  rw [M.bind_apply]
  unfold getBytes takeBits
  dsimp only
  by_cases h1 : s.bits.length < s.off
  · rw [if_pos (by omega), if_pos h1, if_pos h1]
  · rw [if_neg h1, if_neg h1]
    by_cases h2 : s.bits.length < s.off + n * 8
    · rw [if_pos (by omega), if_pos h2]
    · rw [if_neg (by omega), if_neg h2, M.bind_apply, advance_eq (by omega)]

/-- The number `decode_bits_as_integer` makes of the bits it read. -/
theorem decodeBitsAsInteger_unsigned (n : Nat) : decodeBitsAsInteger n false =
    if n ≤ 128 then (do let l ← takeBits n; Pure.pure (signExtend 128 (bitsToNat l)))
    else (do let _ ← takeBits n; M.panic) := by
  funext s
  rw [M.ite_apply, M.bind_apply, M.bind_apply]
  unfold decodeBitsAsInteger takeBits
  by_cases h1 : s.bits.length < s.off
  · simp [if_pos h1]
  · simp only [if_neg h1]
    by_cases h2 : s.bits.length < s.off + n
    · rw [if_pos (by omega)]
      simp [if_pos h2]
    · rw [if_neg (by omega)]
      simp only [if_neg h2, Bool.not_false, if_true]
      by_cases h3 : n = 0
      · subst h3
        simp [M.bind_apply, advanceMaybeErr, if_neg h1, M.pure_apply, bitsToNat, signExtend]
      · rw [if_neg h3]
        by_cases h4 : n ≤ 128
        · rw [if_neg (by omega), if_pos h4, M.bind_apply, advance_eq (by omega)]
        · rw [if_pos (by omega), if_neg h4]; rfl

theorem decodeBitsAsInteger_signed (n : Nat) : decodeBitsAsInteger n true = (fun s =>
    if n ∈ signedWidths then (do let l ← takeBits n; Pure.pure (signExtend n (bitsToNat l)) : M Int) s
    else if s.bits.length < s.off then .panic else .err s) := by
  funext s
  rw [M.bind_apply]
  unfold decodeBitsAsInteger takeBits
  by_cases h1 : s.bits.length < s.off
  · simp [if_pos h1]
  · simp only [if_neg h1]
    by_cases h2 : s.bits.length < s.off + n
    · rw [if_pos (by omega)]
      simp [if_pos h2]
    · rw [if_neg (by omega)]
      simp only [if_neg h2, Bool.not_true, Bool.false_eq_true, if_false]
      by_cases h3 : n ∈ signedWidths
      · rw [if_pos h3, if_pos h3, M.bind_apply, advance_eq (by omega)]
      · rw [if_neg h3, if_neg h3]

theorem decodeAlign_reader : IsReader decodeAlign where
  frame s := by
    unfold decodeAlign
    split
    · exact Steps.refl s
    · dsimp only
      split
      · trivial
      · split
        · exact ⟨rfl, Nat.le_add_right _ _, fun _ => by dsimp only; omega⟩
        · exact Steps.refl s
  local_ := by
    intro bits off key a s' h suf
    unfold decodeAlign at h ⊢
    dsimp only at h ⊢
    split at h
    · next h1 => rw [if_pos h1]; cases h; rfl
    · next h1 =>
      rw [if_neg h1]
      split at h
      · cases h
      · split at h
        · next h2 h3 =>
          rw [List.length_append, if_neg (by omega),
            List.drop_append_of_le_length (by omega),
            List.take_append_of_le_length (by rw [List.length_drop]; omega), if_pos h3]
          cases h; rfl
        · cases h
  shift := by
    intro p p' r o k hp
    unfold decodeAlign
    have hm : (p'.length + o) % 8 = (p.length + o) % 8 := by omega
    have c1 : ∀ (q : List Bool) x, q.length + r.length < q.length + o + x ↔ r.length < o + x := by
      intro q x; omega
    simp only [List.length_append, hm, c1, List.drop_length_add_append]
    split
    · simp only [Res.shift]
      rw [Nat.add_sub_cancel_left, Nat.add_comm]
    · split
      · rfl
      · split <;> simp only [Res.shift] <;> congr 2 <;> omega

theorem decodeAlign_key : KeepsKey decodeAlign := by
  intro s; unfold decodeAlign
  split
  · rfl
  · dsimp only
    split
    · trivial
    · split <;> rfl

theorem signedErr_reader : IsReader (fun s => if s.bits.length < s.off then .panic else .err s : M Int) where
  frame s := by split; trivial; exact Steps.refl s
  local_ := by intro bits off key a s' h; dsimp only at h; split at h <;> cases h
  shift := by
    intro p p' r o k _
    simp only [List.length_append]
    by_cases h : r.length < o
    · rw [if_pos (by omega), if_pos (by omega)]; rfl
    · rw [if_neg (by omega), if_neg (by omega)]
      simp only [Res.shift]
      rw [Nat.add_sub_cancel_left, Nat.add_comm]

/-- Readers that leave the key alone: all of the run-time library's decoders. -/
structure IsDec {α} (m : M α) : Prop where
  reader : IsReader m
  key : KeepsKey m

namespace IsDec
variable {α β : Type}

theorem pure (a : α) : IsDec (pure a : M α) := ⟨.pure a, .pure a⟩
theorem fail : IsDec (M.fail : M α) := ⟨.fail, .fail⟩
theorem panic : IsDec (M.panic : M α) := ⟨.panic, .panic⟩
theorem bind {m : M α} {g : α → M β} (hm : IsDec m) (hg : ∀ a, IsDec (g a)) : IsDec (m >>= g) :=
  ⟨.bind hm.1 fun a => (hg a).1, .bind hm.2 fun a => (hg a).2⟩
theorem ite {c : Prop} [Decidable c] {a b : M α} (ha : IsDec a) (hb : IsDec b) :
    IsDec (if c then a else b) := by split <;> assumption
theorem chkI128 (v : Int) : IsDec (chkI128 v) := ⟨.chkI128 v, .chkI128 v⟩

theorem takeBits (n : Nat) : IsDec (takeBits n) := ⟨takeBits_reader n, takeBits_key n⟩
theorem align : IsDec decodeAlign := ⟨decodeAlign_reader, decodeAlign_key⟩
theorem alignIf (c : Bool) : IsDec (decodeAlignIf c) := by
  unfold decodeAlignIf; exact ite align (pure _)
theorem boolM : IsDec decodeBoolM := by
  rw [decodeBoolM_eq]; exact bind (takeBits 1) fun _ => pure _
theorem bitvec (n : Nat) : IsDec (getBitvec n) := by rw [getBitvec_eq]; exact takeBits n
theorem bytes (n : Nat) : IsDec (getBytes n) := by
  rw [getBytes_eq]; exact bind (takeBits _) fun _ => pure _
theorem bitsAsInteger (n : Nat) (signed : Bool) : IsDec (decodeBitsAsInteger n signed) := by
  cases signed with
  | false =>
    rw [decodeBitsAsInteger_unsigned]
    exact ite (bind (takeBits _) fun _ => pure _) (bind (takeBits _) fun _ => panic)
  | true =>
    rw [decodeBitsAsInteger_signed]
    by_cases h : n ∈ signedWidths
    · simp only [if_pos h]; exact bind (takeBits _) fun _ => pure _
    · simp only [if_neg h]
      exact ⟨signedErr_reader, fun s => by split <;> simp [Res.After]⟩

theorem indefinite : IsDec decodeIndefiniteLength := by
  unfold decodeIndefiniteLength
  exact bind align fun _ => bind boolM fun _ => ite (bind (bitsAsInteger _ _) fun _ => pure _)
    (bind boolM fun _ => ite (bind (bitsAsInteger _ _) fun _ => pure _)
      (bind (bitsAsInteger _ _) fun _ => ite fail (pure _)))

theorem constrainedWith {large : Int → M Int} (h : ∀ a, IsDec (large a)) (lb ub : Int) :
    IsDec (decodeConstrainedWith large lb ub) := by
  unfold decodeConstrainedWith
  refine bind (chkI128 _) fun _ => bind (chkI128 _) fun _ => ite fail (bind ?_ fun _ => chkI128 _)
  unfold decodeConstrainedField
  exact ite (bitsAsInteger _ _) (ite (bind align fun _ => bitsAsInteger _ _)
    (ite (bind align fun _ => bitsAsInteger _ _) (h _)))

theorem constrainedSmall (lb ub : Int) : IsDec (decodeConstrainedSmall lb ub) :=
  constrainedWith (fun _ => panic) lb ub

theorem constrainedLengthSmall (lb ub : Nat) : IsDec (decodeConstrainedLengthSmall lb ub) := by
  unfold decodeConstrainedLengthSmall
  exact ite panic (ite (bind (constrainedSmall _ _) fun _ => pure _) panic)

theorem constrained (lb ub : Int) : IsDec (decodeConstrained lb ub) :=
  constrainedWith (fun _ => bind (constrainedLengthSmall _ _) fun _ => bind align fun _ =>
    bitsAsInteger _ _) lb ub

theorem constrainedLength (lb ub : Nat) : IsDec (decodeConstrainedLength lb ub) := by
  unfold decodeConstrainedLength
  exact ite panic (ite (bind (constrained _ _) fun _ => pure _) panic)

theorem normallySmallLength : IsDec decodeNormallySmallLength := by
  unfold decodeNormallySmallLength
  exact bind boolM fun _ => ite (bind (bitsAsInteger _ _) fun _ => pure _) indefinite

theorem toUsizeOrPanic (v : Int) : IsDec (toUsizeOrPanic v) := by
  unfold Hampi.toUsizeOrPanic; exact ite (pure _) panic

theorem lengthLowerBound (v : Option Int) : IsDec (lengthLowerBound v) := by
  cases v
  · exact pure _
  · exact toUsizeOrPanic _

theorem length (lb ub : Option Int) (ns : Bool) : IsDec (decodeLength lb ub ns) := by
  unfold decodeLength
  refine ite normallySmallLength (bind (lengthLowerBound _) fun l => ?_)
  cases ub with
  | none => exact indefinite
  | some u =>
    exact bind (toUsizeOrPanic _) fun _ => ite (ite (pure _) (constrainedLength _ _)) indefinite

theorem unconstrained : IsDec decodeUnconstrained :=
  bind (length _ _ _) fun _ => bitsAsInteger _ _

theorem semiConstrained (lb : Int) : IsDec (decodeSemiConstrained lb) :=
  bind (length _ _ _) fun _ => bind (bitsAsInteger _ _) fun _ => chkI128 _

theorem normallySmallNonNegative : IsDec decodeNormallySmallNonNegative :=
  bind boolM fun _ => ite (bitsAsInteger _ _) (semiConstrained _)

theorem extBit (e : Bool) : IsDec (decodeExtBit e) := by
  unfold decodeExtBit; exact ite boolM (pure _)

theorem integerValue (lb ub : Option Int) (e : Bool) : IsDec (decodeIntegerValue lb ub e) := by
  unfold decodeIntegerValue
  refine ite unconstrained ?_
  split
  · exact unconstrained
  · exact semiConstrained _
  · exact constrained _ _

theorem integer (lb ub : Option Int) (e : Bool) : IsDec (decodeInteger lb ub e) :=
  bind (extBit _) fun _ => bind (integerValue _ _ _) fun _ => pure _

theorem choiceIdx (lb ub : Int) (e : Bool) : IsDec (decodeChoiceIdx lb ub e) := by
  unfold decodeChoiceIdx
  exact ite (bind boolM fun _ => ite (bind (integer _ _ _) fun _ => pure _)
    (bind normallySmallNonNegative fun _ => pure _)) (bind (integer _ _ _) fun _ => pure _)

theorem sequenceHeader (e : Bool) (n : Nat) : IsDec (decodeSequenceHeader e n) := by
  refine bind (extBit _) fun _ => bind ?_ fun _ => pure _
  unfold decodeBitmap; exact ite (bitvec _) (pure _)

theorem bool : IsDec decodeBool := boolM

theorem enumerated (lb ub : Option Int) (e : Bool) : IsDec (decodeEnumerated lb ub e) := by
  refine bind (extBit _) fun _ => bind ?_ fun _ => pure _
  unfold decodeEnumeratedValue
  exact ite (bind (integer _ _ _) fun _ => pure _) normallySmallNonNegative

theorem stringLength (x : Bool) (lb ub : Option Int) : IsDec (decodeStringLength x lb ub) := by
  unfold decodeStringLength; exact ite (length _ _ _) (length _ _ _)

theorem chunk (n : Nat) {f : Nat → M (List α)} (h : ∀ n, IsDec (f n)) (l : Nat) :
    IsDec (decodeChunk n f l) := by
  unfold decodeChunk; exact ite (bind (alignIf _) fun _ => h _) (pure _)

theorem fragLoop {len : M Nat} (hl : IsDec len) (n : Nat) {f : Nat → M (List α)}
    (h : ∀ n, IsDec (f n)) (fuel : Nat) : ∀ acc, IsDec (fragLoop len n f fuel acc) := by
  induction fuel with
  | zero => intro acc; exact panic
  | succ fuel ih =>
    intro acc
    exact bind hl fun _ => bind (chunk n h _) fun _ => ite (ih _) (pure _)

end IsDec

end Hampi
