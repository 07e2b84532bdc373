import Verif.Spec.Longest
import Verif.Lemmas.Bits
namespace Hampi
/-- `m` appends at most `k` bits, also when it fails. -/
def Adds {α : Type} (m : M α) (k : Nat) : Prop := ∀ s, match m s with
  | .ok _ t => t.bits.length ≤ s.bits.length + k
  | .err t => t.bits.length ≤ s.bits.length + k
  | .panic => True

theorem Adds.mono {α : Type} {m : M α} {k k' : Nat} (h : Adds m k) (hk : k ≤ k') : Adds m k' := by
  intro s
  have := h s
  split <;> simp_all <;> omega

theorem Adds.pure {α : Type} (a : α) : Adds (pure a : M α) 0 := fun _ => Nat.le_refl _
theorem Adds.fail {α : Type} : Adds (M.fail : M α) 0 := fun _ => Nat.le_refl _
theorem Adds.panic {α : Type} : Adds (M.panic : M α) 0 := fun _ => trivial

theorem Adds.bind {α β : Type} {m : M α} {f : α → M β} {k k' : Nat} (h : Adds m k) (h' : ∀ a, Adds (f a) k') :
    Adds (m >>= f) (k + k') := by
  intro s
  have h1 := h s
  show match M.bind m f s with | .ok _ t => _ | .err t => _ | .panic => True
  unfold M.bind
  cases hm : m s with
  | ok a t =>
    simp only [hm] at h1 ⊢
    have h2 := h' a t
    split at h2 <;> simp_all <;> omega
  | err t =>
    simp only [hm] at h1 ⊢
    omega
  | panic => trivial

theorem Adds.ok {α : Type} {m : M α} {k : Nat} (h : Adds m k) {s t : Codec} {a : α} (hm : m s = .ok a t) :
    t.bits.length ≤ s.bits.length + k := by
  have := h s
  rw [hm] at this
  exact this

theorem Adds.appendBits (w : List Bool) : Adds (appendBits w) w.length := by
  intro s
  simp [Hampi.appendBits]

theorem Adds.pushBit (b : Bool) : Adds (pushBit b) 1 := by
  intro s
  simp [Hampi.pushBit]

theorem Adds.align : Adds align 7 := by
  intro s
  unfold Hampi.align
  simp only
  split
  · next h =>
    split at h
    · cases h; simp; omega
    · cases h; simp
  · next h => split at h <;> cases h
  · trivial

theorem Adds.alignIf (c : Bool) : Adds (alignIf c) 7 := by
  cases c
  · exact (Adds.pure ()).mono (by omega)
  · exact Adds.align

theorem Adds.chk (v : Int) : Adds (chkI128 v) 0 := by
  unfold chkI128
  split
  · exact Adds.pure _
  · exact Adds.panic

theorem Adds.ite {α : Type} {c : Prop} [Decidable c] {a b : M α} {k : Nat} (ha : c → Adds a k) (hb : ¬ c → Adds b k) :
    Adds (if c then a else b) k := by
  split
  · next h => exact ha h
  · next h => exact hb h

theorem Adds.ignoreErr {m : M Unit} {k : Nat} (h : Adds m k) : Adds (M.ignoreErr m) k := by
  intro s
  have := h s
  unfold M.ignoreErr
  cases hm : m s <;> simp_all

theorem Adds.extBit (e x : Bool) : Adds (encodeExtBit e x) (extBits e) := by
  cases e
  · exact Adds.pure ()
  · exact Adds.pushBit x

theorem Adds.indefinite (n : Nat) : Adds (encodeIndefiniteLength n) (7 + 16) := by
  refine Adds.bind Adds.align fun _ => Adds.ite (fun _ => ?_) fun _ => Adds.ite (fun _ => ?_) fun _ => ?_
  · exact (Adds.appendBits _).mono (by simp)
  · exact (Adds.appendBits _).mono (by simp)
  · exact Adds.fail.mono (by omega)

theorem encFieldBits_longest (r : Int) (n : Nat) (h : encFieldBits r = some n) (hr : r ≤ 255) :
    n = bitsFor r.toNat := by
  obtain ⟨k, rfl⟩ : ∃ k : Nat, r = k := ⟨r.toNat, by
    have : 0 ≤ r := by
      rcases Int.lt_or_le r 0 with h' | h'
      · exfalso
        unfold encFieldBits at h
        repeat' split at h
        all_goals first | omega | cases h
      · exact h'
    omega⟩
  have : ∀ k : Fin 256, ∀ n, encFieldBits ((k : Nat) : Int) = some n → n = bitsFor (k : Nat) := by decide +kernel
  exact this ⟨k, by omega⟩ n h

theorem Adds.chkBind {β : Type} {v : Int} {f : Int → M β} {k : Nat} (h : Adds (f v) k) : Adds (chkI128 v >>= f) k := by
  unfold chkI128
  split
  · exact h
  · exact fun _ => trivial

theorem flatMap_octets (l : List Nat) : (l.flatMap (natToBits 8)).length = 8 * l.length := by
  induction l with
  | nil => rfl
  | cons x xs ih => simp [ih]; omega

theorem wholeLongest_pos {l u : Int} (h : 65536 ≤ u - l) : wholeLongest l u = 4 + 7 + 128 := by
  unfold wholeLongest
  rw [if_neg (by omega), if_neg (by omega), if_neg (by omega)]

theorem bitsFor_le (r : Nat) (hr : r ≤ 255) : bitsFor r ≤ 8 := by
  have : ∀ k : Fin 256, bitsFor (k : Nat) ≤ 8 := by decide +kernel
  exact this ⟨r, by omega⟩

theorem Adds.constrainedWith {large : Int → Int → M Unit} (l u v : Int)
    (hl : 65536 ≤ u - l → Adds (large (u - l + 1) (v - l)) (4 + 7 + 128)) :
    Adds (encodeConstrainedWith large l u v) (wholeLongest l u) := by
  refine Adds.ite (fun _ => Adds.fail.mono (by omega)) fun _ => Adds.ite (fun _ => Adds.fail.mono (by omega)) fun _ => ?_
  refine Adds.chkBind (Adds.chkBind (Adds.chkBind ?_))
  refine Adds.ite (fun h1 => Adds.ite (fun h2 => ?_) fun h2 => ?_) fun h1 => Adds.ite (fun h2 => ?_) fun h2 => ?_
  · have : wholeLongest l u = 7 + 8 := by
      unfold wholeLongest
      rw [if_neg (by omega), if_pos (by omega)]
    rw [this]
    exact Adds.bind Adds.align fun _ => (Adds.appendBits _).mono (by simp)
  · split
    · next n hn =>
      have h3 := encFieldBits_longest _ _ hn (by omega)
      have h4 := bitsFor_le (u - l + 1).toNat (by omega)
      have : wholeLongest l u = n := by
        unfold wholeLongest
        rw [if_pos (by omega), h3]
      rw [this]
      refine (Adds.appendBits _).mono ?_
      simp
      omega
    · exact fun _ => trivial
  · have : wholeLongest l u = 7 + 16 := by
      unfold wholeLongest
      rw [if_neg (by omega), if_neg (by omega), if_pos (by omega)]
    rw [this]
    exact Adds.bind Adds.align fun _ => (Adds.appendBits _).mono (by simp)
  · rw [wholeLongest_pos (by omega)]
    exact hl (by omega)

theorem bytesNeededForRange_le (r : Int) : bytesNeededForRange r ≤ 16 := by
  unfold bytesNeededForRange
  simp only
  split <;> omega

theorem Adds.constrainedSmall (n : Nat) (hn : n ≤ 16) (v : Int) : Adds (encodeConstrainedSmall 1 n v) 4 := by
  refine (Adds.constrainedWith 1 n v fun h => by omega).mono ?_
  unfold wholeLongest
  rw [if_pos (by omega)]
  have : ∀ k : Fin 17, bitsFor (k : Nat) ≤ 4 := by decide +kernel
  have := this ⟨n, by omega⟩
  simpa using this

theorem Adds.constrained (l u v : Int) : Adds (encodeConstrained l u v) (wholeLongest l u) := by
  refine Adds.constrainedWith l u v fun _ => ?_
  refine (Adds.bind (Adds.constrainedSmall _ (bytesNeededForRange_le _) _) fun _ =>
    Adds.bind Adds.align fun _ => (Adds.appendBits _).mono (k' := 128) ?_).mono (by omega)
  rw [flatMap_octets]
  simp only [List.length_drop, i128Bytes, List.length_map, List.length_range]
  omega

theorem Adds.bindOk {α β : Type} {m : M α} {f : α → M β} {k k' : Nat} (h : Adds m k)
    (h' : ∀ s a t, m s = .ok a t → Adds (f a) k') : Adds (m >>= f) (k + k') := by
  intro s
  have h1 := h s
  show match M.bind m f s with | .ok _ t => _ | .err t => _ | .panic => True
  unfold M.bind
  cases hm : m s with
  | ok a t =>
    simp only [hm] at h1 ⊢
    have h2 := h' s a t hm t
    split at h2 <;> simp_all <;> omega
  | err t =>
    simp only [hm] at h1 ⊢
    omega
  | panic => trivial

theorem Adds.normallySmall (n : Nat) : Adds (encodeNormallySmallLength n) (1 + 7 + 16) := by
  refine Adds.ite (fun _ => Adds.ite (fun _ => Adds.panic.mono (by omega)) fun _ => ?_) fun _ => ?_
  · exact (Adds.bind (Adds.pushBit _) fun _ => (Adds.appendBits _).mono (k' := 8) (by simp)).mono (by omega)
  · exact (Adds.bind (Adds.pushBit _) fun _ => Adds.indefinite n).mono (by omega)

theorem Adds.length (lb ub : Option Int) (n : Nat) : Adds (encodeLength lb ub false n) (lengthLongest lb ub) := by
  have hi : Adds (if ub.any (fun u => decide (n > asUsize u)) then M.fail
      else if lb.any (fun l => decide (n < asUsize l)) then M.fail
      else encodeIndefiniteLength n) (7 + 16) :=
    Adds.ite (fun _ => Adds.fail.mono (by omega)) fun _ => Adds.ite (fun _ => Adds.fail.mono (by omega)) fun _ =>
      Adds.indefinite n
  unfold encodeLength lengthLongest
  simp only [Bool.false_eq_true, if_false]
  cases ub with
  | none => exact hi
  | some u =>
    show Adds (if u < 65536 then _ else _) (if u < 65536 then _ else _)
    split
    · exact Adds.constrained _ _ _
    · exact hi

theorem encodeConstrained_le {l u v : Int} {s t : Codec} {a : Unit} (h : encodeConstrained l u v s = .ok a t) :
    v ≤ u := by
  unfold encodeConstrained encodeConstrainedWith at h
  split at h
  · cases h
  · split at h
    · cases h
    · omega

theorem encodeIndefinite_lt {n : Nat} {s t : Codec} {a : Unit} (h : encodeIndefiniteLength n s = .ok a t) :
    n ≤ 16383 := by
  rcases Nat.lt_or_ge n 16384 with h' | h'
  · omega
  · exfalso
    unfold encodeIndefiniteLength at h
    rw [if_neg (by omega), if_neg (by omega)] at h
    revert h
    show M.bind Hampi.align _ s = _ → _
    unfold M.bind Hampi.align
    simp only
    intro h
    split at h
    · next h1 => cases h
    · cases h
    · cases h

theorem encodeLength_le {lb ub : Option Int} {n : Nat} {s t : Codec} {a : Unit}
    (h : encodeLength lb ub false n s = .ok a t) : n ≤ countLongest ub := by
  have hi : ∀ ub : Option Int, (if ub.any (fun u => decide (n > asUsize u)) then M.fail
      else if lb.any (fun l => decide (n < asUsize l)) then M.fail
      else encodeIndefiniteLength n : M Unit) s = .ok a t → n ≤ 16383 := by
    intro ub h
    split at h
    · cases h
    · split at h
      · cases h
      · exact encodeIndefinite_lt h
  unfold encodeLength at h
  unfold countLongest
  simp only [Bool.false_eq_true, if_false] at h
  cases ub with
  | none => exact hi _ h
  | some u =>
    simp only at h ⊢
    split
    · rw [if_pos (by assumption)] at h
      have := encodeConstrained_le h
      omega
    · rw [if_neg (by assumption)] at h
      exact hi _ h

theorem Adds.indefiniteSmall (n : Nat) (hn : n < 128) : Adds (encodeIndefiniteLength n) (7 + 8) := by
  refine Adds.bind Adds.align fun _ => ?_
  rw [if_pos hn]
  exact (Adds.appendBits _).mono (by simp)

theorem Adds.unconstrained (v : Int) : Adds (encodeUnconstrained v) (7 + 8 + 128) := by
  have hn : unconstrainedBytes v ≤ 17 := by
    unfold unconstrainedBytes
    simp only
    split <;> split <;> omega
  refine Adds.bind (Adds.indefiniteSmall _ (by omega)) fun _ =>
    Adds.ite (fun _ => Adds.panic.mono (by omega)) fun _ => (Adds.appendBits _).mono ?_
  simp only [List.length_drop, i128Bits, natToBits_length]
  omega

theorem Adds.integer (lb ub : Option Int) (ext : Bool) (v : Int) (x : Bool) :
    Adds (encodeInteger lb ub ext v x) (extBits ext + intLongest lb ub) := by
  refine Adds.ite (fun _ => Adds.fail.mono (by omega)) fun _ => Adds.bind (Adds.extBit _ _) fun _ => ?_
  cases lb with
  | none => exact Adds.unconstrained v
  | some l =>
    cases ub with
    | none =>
      exact Adds.ite (fun _ => Adds.fail.mono (by omega)) fun _ => Adds.chkBind (Adds.unconstrained _)
    | some u => exact Adds.constrained _ _ _

theorem Adds.enumerated (lb ub : Option Int) (ext : Bool) (v : Int) (x : Bool) :
    Adds (encodeEnumerated lb ub ext v x) (extBits ext + intLongest lb ub) := by
  refine Adds.ite (fun _ => Adds.fail.mono (by omega)) fun _ => Adds.bind (Adds.extBit _ _) fun _ => ?_
  exact (Adds.integer lb ub false v false).mono (by simp [extBits])

theorem Adds.choiceIdx (lb ub : Int) (ext : Bool) (v : Int) (x : Bool) :
    Adds (encodeChoiceIdx lb ub ext v x) (extBits ext + wholeLongest lb ub) := by
  refine Adds.ite (fun _ => Adds.fail.mono (by omega)) fun _ => Adds.bind (Adds.extBit _ _) fun _ => ?_
  exact (Adds.integer (some lb) (some ub) false v false).mono (by simp [extBits, intLongest])

theorem Adds.bitstring (lb ub : Option Int) (ext : Bool) (v : List Bool) (x : Bool) :
    Adds (encodeBitstring lb ub ext v x) (extBits ext + lengthLongest lb ub + 7 + min 16383 (countLongest ub)) := by
  refine Adds.ite (fun _ => Adds.fail.mono (by omega)) fun _ => ?_
  refine (Adds.bind (Adds.extBit _ _) fun _ => Adds.ite (k := lengthLongest lb ub + (7 + min 16383 (countLongest ub)))
    (fun _ => Adds.fail.mono (by omega)) fun _ => ?_).mono (by omega)
  refine Adds.bindOk (Adds.length _ _ _) fun s a t h => ?_
  have := encodeLength_le h
  refine Adds.ite (fun _ => ?_) fun _ => (Adds.pure ()).mono (by omega)
  exact Adds.bind (Adds.alignIf _) fun _ => (Adds.appendBits _).mono (by omega)

theorem Adds.octetstring (lb ub : Option Int) (ext : Bool) (v : List UInt8) (x : Bool) :
    Adds (encodeOctetstring lb ub ext v x) (extBits ext + lengthLongest lb ub + 7 + 8 * min 16383 (countLongest ub)) := by
  refine Adds.ite (fun _ => Adds.fail.mono (by omega)) fun _ => ?_
  refine (Adds.bind (Adds.extBit _ _) fun _ => Adds.ite (k := lengthLongest lb ub + (7 + 8 * min 16383 (countLongest ub)))
    (fun _ => Adds.fail.mono (by omega)) fun _ => ?_).mono (by omega)
  refine Adds.bindOk (Adds.length _ _ _) fun s a t h => ?_
  have := encodeLength_le h
  refine Adds.ite (fun _ => ?_) fun _ => (Adds.pure ()).mono (by omega)
  exact Adds.bind (Adds.alignIf _) fun _ => (Adds.appendBits _).mono (by rw [bytesBits_length]; omega)

theorem Adds.string (lb ub : Option Int) (ext : Bool) (v : String) (x : Bool) :
    Adds (encodeString lb ub ext v x) (extBits ext + lengthLongest lb ub + 7 + 8 * countLongest ub) := by
  refine Adds.ite (fun _ => Adds.fail.mono (by omega)) fun _ => ?_
  refine (Adds.bind (Adds.extBit _ _) fun _ => Adds.bindOk (k' := 7 + 8 * countLongest ub) (Adds.length _ _ _)
    fun s a t h => ?_).mono (by omega)
  have := encodeLength_le h
  exact Adds.bind (Adds.alignIf _) fun _ => (Adds.appendBits _).mono (by rw [bytesBits_length]; omega)

theorem mark_length : (fs : Fields) → (v : fs.Val) → (bm bm' : List Bool) → fs.mark v bm = some bm' →
    bm'.length = bm.length
  | .nil, _, _, _, h => by cases h; rfl
  | .required _ _ rest, v, _, _, h => mark_length rest v.2 _ _ h
  | .optional i _ rest, (some _, v), bm, bm', h => by
    rw [Fields.mark] at h
    split at h
    · have := mark_length rest v _ _ h
      simpa using this
    · cases h
  | .optional _ _ rest, (none, v), _, _, h => mark_length rest v _ _ h

theorem Adds.header (fs : Fields) (v : fs.Val) (ext : Bool) (n : Nat) :
    Adds (encodeHeader fs v ext n) (extBits ext + n) := by
  unfold encodeHeader
  split
  · next bm h =>
    have := mark_length _ _ _ _ h
    refine Adds.ite (fun _ => Adds.fail.mono (by omega)) fun _ => Adds.bind (Adds.extBit _ _) fun _ => ?_
    exact (Adds.appendBits _).mono (by simp at this; omega)
  · exact Adds.panic.mono (by omega)

theorem Adds.all {α : Type} {enc : α → M Unit} {k : Nat} : (l : List α) → (∀ x ∈ l, Adds (enc x) k) →
    Adds (encodeAll enc l) (l.length * k)
  | [], _ => (Adds.pure ()).mono (by omega)
  | x :: xs, h => by
    refine (Adds.bind (h x List.mem_cons_self) fun _ =>
      Adds.all xs fun y hy => h y (List.mem_cons_of_mem _ hy)).mono ?_
    simp [Nat.succ_mul, Nat.add_comm]

theorem encodeIndefinite_aligned {n : Nat} {s t : Codec} {a : Unit} (h : encodeIndefiniteLength n s = .ok a t) :
    t.bits.length % 8 = 0 := by
  have hn := encodeIndefinite_lt h
  unfold encodeIndefiniteLength at h
  revert h
  show M.bind Hampi.align _ s = _ → _
  unfold M.bind Hampi.align
  simp only
  intro h
  split at h
  · next b s1 h1 =>
    have h2 : s1.bits.length % 8 = 0 := by
      split at h1
      · cases h1
        simp
        omega
      · cases h1
        omega
    split at h
    · cases h
      simp
      omega
    · rw [if_pos (by omega)] at h
      cases h
      simp
      omega
  · cases h
  · cases h

theorem align_of_aligned {s : Codec} (h : s.bits.length % 8 = 0) : Hampi.align s = .ok () s := by
  unfold Hampi.align
  simp only
  rw [if_neg (by omega)]

theorem align_length (s : Codec) : ∃ t, Hampi.align s = .ok () t ∧ t.bits.length = (s.bits.length + 7) / 8 * 8 := by
  unfold Hampi.align
  simp only
  split
  · refine ⟨_, rfl, ?_⟩
    simp
    omega
  · refine ⟨_, rfl, ?_⟩
    omega

theorem Adds.open (m : M Unit) : Adds (encodeOpen m) (7 + 16 + 8 * 16383) := by
  intro s
  unfold encodeOpen
  cases hm : m Codec.new with
  | err t => simp
  | panic => trivial
  | ok a inner =>
    simp only
    unfold lengthInBytes
    by_cases h0 : inner.bits.length = 0
    · simp [h0]
    · simp only [h0, if_false]
      have hl : encodeLength none none false ((inner.bits.length - 1) / 8 + 1) =
          encodeIndefiniteLength ((inner.bits.length - 1) / 8 + 1) := by
        simp [encodeLength]
      rw [hl]
      simp only [Bind.bind, M.bind]
      have h1 := Adds.indefinite ((inner.bits.length - 1) / 8 + 1) s
      cases he : encodeIndefiniteLength ((inner.bits.length - 1) / 8 + 1) s with
      | err t => simp only [he] at h1 ⊢; omega
      | panic => trivial
      | ok b t =>
        simp only [he] at h1 ⊢
        have h2 := encodeIndefinite_lt he
        have h3 := encodeIndefinite_aligned he
        simp only [appendAligned, Bind.bind, M.bind, align_of_aligned h3]
        obtain ⟨o, ho, hlen⟩ := align_length inner
        simp only [ho]
        simp only [Hampi.appendBits, List.length_append]
        omega

mutual

theorem Ty.encode_adds : (t : Ty) → (v : t.Val) → t.ListsFit v → Adds (t.encode v) t.longest
  | .boolean, v, _ => Adds.pushBit v
  | .null, _, _ => Adds.pure ()
  | .integer _ lb ub ext, v, _ => Adds.integer lb ub ext v false
  | .enumerated _ lb ub ext, v, _ => Adds.enumerated lb ub ext v false
  | .bitstring lb ub ext, v, _ => Adds.bitstring lb ub ext v false
  | .octetstring lb ub ext, v, _ => Adds.octetstring lb ub ext v false
  | .charstring k lb ub ext, v, _ => by cases k <;> exact Adds.string lb ub ext v false
  | .objectIdentifier, _, _ => Adds.fail
  | .sequence ext n fs, v, h => Adds.bind (Adds.header fs v ext n) fun _ => fs.encode_adds v h
  | .sequenceOf lb ub ext e, v, h => by
    have ha := Adds.all (enc := e.encode) (k := e.longest) v fun x hx => e.encode_adds x (h.2 x hx)
    have hl : List.length v ≤ (if ext then 16383 else countLongest ub) := h.1
    unfold Ty.encode Ty.longest
    cases ext with
    | true =>
      refine (Adds.bind (Adds.ignoreErr (Adds.normallySmall _)) fun _ => ha).mono ?_
      have := Nat.mul_le_mul_right e.longest hl
      simp at this ⊢
      omega
    | false =>
      refine (Adds.bind (Adds.ignoreErr (Adds.length lb ub _)) fun _ => ha).mono ?_
      have := Nat.mul_le_mul_right e.longest hl
      simp at this ⊢
      omega
  | .choice lb ub ext as, v, h => Adds.bind (Adds.choiceIdx _ _ _ _ _) fun _ => as.encode_adds v h
  | .openType as, v, _ => Adds.open _

theorem Fields.encode_adds : (fs : Fields) → (v : fs.Val) → fs.ListsFit v → Adds (fs.encode v) fs.longest
  | .nil, _, _ => Adds.pure ()
  | .required _ t rest, v, h => Adds.bind (t.encode_adds v.1 h.1) fun _ => rest.encode_adds v.2 h.2
  | .optional _ t rest, (some x, v), h => Adds.bind (t.encode_adds x h.1) fun _ => rest.encode_adds v h.2
  | .optional _ t rest, (none, v), h =>
    (Adds.bind (Adds.pure ()) fun _ => rest.encode_adds v h.2).mono (by simp [Fields.longest])

theorem Alts.encode_adds : (as : Alts) → (v : as.Val) → as.ListsFit v → Adds (as.encode v) as.longest
  | .cons _ _ t rest, .inl v, h => (t.encode_adds v h).mono (by simp only [Alts.longest]; omega)
  | .cons _ _ t rest, .inr v, h => (rest.encode_adds v h).mono (by simp only [Alts.longest]; omega)

end

end Hampi
