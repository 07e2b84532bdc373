import Verif.Lemmas.Derive
import Verif.Spec.Padding
/-!
# Round trip of derived codecs
-/
namespace Hampi

open Spec (SizeBounds Within)

variable {α β : Type}

/-! ## Decoders that start by aligning -/

/-- Aligning first changes nothing. -/
def AlignFirst (dec : M α) : Prop := (decodeAlign >>= fun _ => dec) = dec

theorem AlignFirst.align : AlignFirst decodeAlign := by
  funext s
  rw [M.bind_apply]
  unfold decodeAlign
  by_cases h0 : s.off % 8 = 0
  · simp only [if_pos h0]
  · simp only [if_neg h0]
    by_cases h1 : s.bits.length < s.off + (8 - s.off % 8)
    · simp only [if_pos h1]
    · simp only [if_neg h1]
      by_cases h2 : ((s.bits.drop s.off).take (8 - s.off % 8)).all (fun b => !b) = true
      · simp only [if_pos h2]
        rw [if_pos (by omega)]
      · simp only [if_neg h2]

theorem AlignFirst.bind {m : M α} {g : α → M β} (h : AlignFirst m) : AlignFirst (m >>= g) := by
  unfold AlignFirst at *
  rw [← bind_assoc, h]

theorem AlignFirst.indefinite : AlignFirst decodeIndefiniteLength := AlignFirst.bind .align

theorem AlignFirst.unconstrained : AlignFirst decodeUnconstrained :=
  AlignFirst.bind (m := decodeLength none none false) AlignFirst.indefinite

theorem AlignFirst.semiConstrained (lb : Int) : AlignFirst (decodeSemiConstrained lb) :=
  AlignFirst.bind (m := decodeLength none none false) AlignFirst.indefinite

/-- A decoder that panics outright does not align first, so the arithmetic checks must pass. -/
theorem AlignFirst.constrained {lb ub : Int} (h1 : 256 ≤ ub - lb + 1) (h2 : ub - lb + 1 ≤ 65536) :
    AlignFirst (decodeConstrained lb ub) := by
  unfold decodeConstrained decodeConstrainedWith
  have hd : IsI128 (ub - lb) := by unfold IsI128; omega
  have hr : IsI128 (ub - lb + 1) := by unfold IsI128; omega
  rw [chkI128_bind hd, chkI128_bind hr, if_neg (by omega)]
  refine AlignFirst.bind ?_
  unfold decodeConstrainedField
  rw [if_neg (by omega)]
  by_cases h : ub - lb + 1 = 256
  · rw [if_pos h]; exact AlignFirst.bind .align
  · rw [if_neg h, if_pos h2]; exact AlignFirst.bind .align

theorem AlignFirst.integer {lb ub : Option Int} (h : intAligns lb ub = true) :
    AlignFirst (decodeInteger lb ub false) := by
  show AlignFirst (decodeIntegerValue lb ub false >>= fun v => pure (v, false))
  refine AlignFirst.bind ?_
  cases lb with
  | none => exact AlignFirst.unconstrained
  | some l =>
    cases ub with
    | none => exact AlignFirst.semiConstrained l
    | some u =>
      simp only [intAligns, decide_eq_true_eq] at h
      exact AlignFirst.constrained h.1 h.2

theorem AlignFirst.enumerated {lb ub : Option Int} (h : intAligns lb ub = true) :
    AlignFirst (decodeEnumerated lb ub false) := by
  show AlignFirst ((decodeInteger lb ub false >>= fun d => pure d.1) >>= fun v => pure (v, false))
  exact AlignFirst.bind (AlignFirst.bind (AlignFirst.integer h))

theorem AlignFirst.choiceIdx {lb ub : Int} (h : intAligns (some lb) (some ub) = true) :
    AlignFirst (decodeChoiceIdx lb ub false) := by
  show AlignFirst (decodeInteger (some lb) (some ub) false >>= fun d => pure (d.1, false))
  exact AlignFirst.bind (AlignFirst.integer h)

theorem AlignFirst.length {lb ub : Option Int} (hb : SizeBounds lb ub)
    (h : lengthAligns lb ub = true) : AlignFirst (decodeLength lb ub false) := by
  unfold decodeLength
  simp only [Bool.false_eq_true, if_false]
  rw [lengthLowerBound_eq hb, M.pure_bind']
  cases ub with
  | none => exact .indefinite
  | some u =>
    have hu := hb.2 u rfl
    have hl : 0 ≤ lb.getD 0 := by
      cases lb with
      | none => exact Int.le_refl _
      | some l => exact (hb.1 l rfl).1
    simp only [lengthAligns, Bool.or_eq_true, decide_eq_true_eq] at h
    show AlignFirst (toUsizeOrPanic u >>= _)
    unfold toUsizeOrPanic
    rw [if_pos hu, M.pure_bind']
    by_cases h1 : u < 65536
    · rw [if_pos (by omega), if_neg (by omega)]
      unfold decodeConstrainedLength
      rw [if_neg (by omega), if_pos (by omega)]
      refine AlignFirst.bind (AlignFirst.constrained ?_ ?_) <;> omega
    · rw [if_neg (by omega)]; exact .indefinite

/-- Reading a fixed length reads nothing. -/
theorem decodeLength_fixed {lb ub : Option Int} {n : Int} (hb : SizeBounds lb ub)
    (h : fixedAbove n lb ub = true) : ∃ u : Nat, n < u ∧ decodeLength lb ub false = Pure.pure u := by
  cases lb with
  | none => simp [fixedAbove] at h
  | some l =>
    cases ub with
    | none => simp [fixedAbove] at h
    | some u =>
      simp only [fixedAbove, decide_eq_true_eq] at h
      obtain ⟨rfl, h1, h2⟩ := h
      have hl := hb.1 l rfl
      refine ⟨l.toNat, by omega, ?_⟩
      unfold decodeLength
      simp only [Bool.false_eq_true, if_false]
      rw [lengthLowerBound_eq hb, M.pure_bind']
      show (toUsizeOrPanic l >>= _) = _
      unfold toUsizeOrPanic
      rw [if_pos hl, M.pure_bind', if_pos (by omega)]
      exact if_pos rfl

theorem AlignFirst.chunk {n k : Nat} {f : Nat → M (List α)} (h : n < k) :
    AlignFirst (decodeChunk n f k) := by
  unfold decodeChunk decodeAlignIf
  rw [if_pos (by omega)]
  simp only [h, decide_true, if_true]
  exact AlignFirst.bind .align

theorem AlignFirst.fragLoop {len : M Nat} {n : Nat} {f : Nat → M (List α)} (fuel : Nat) (acc : List α)
    (h : AlignFirst len ∨ ∃ k, n < k ∧ len = Pure.pure k) :
    AlignFirst (fragLoop len n f (fuel + 1) acc) := by
  unfold Hampi.fragLoop
  rcases h with h | ⟨k, hk, rfl⟩
  · exact AlignFirst.bind h
  · rw [M.pure_bind']
    exact AlignFirst.bind (AlignFirst.chunk hk)

theorem AlignFirst.fragments {len : M Nat} {n : Nat} {f : Nat → M (List α)}
    (h : AlignFirst len ∨ ∃ k, n < k ∧ len = Pure.pure k) :
    AlignFirst (decodeFragments len n f) := by
  funext s
  have hb : (decodeAlign s).After (fun t => t.bits = s.bits) := by
    have := decodeAlign_reader.frame s
    cases hr : decodeAlign s with
    | ok a t => rw [hr] at this; exact this.1
    | err t => rw [hr] at this; exact this.1
    | panic => trivial
  have h2 : decodeFragments len n f s = (decodeAlign >>= fun _ =>
      Hampi.fragLoop len n f (s.bits.length + 1) []) s := by
    rw [AlignFirst.fragLoop (s.bits.length) [] h]; rfl
  rw [h2, M.bind_apply, M.bind_apply]
  cases hr : decodeAlign s with
  | ok a t =>
    rw [hr] at hb
    dsimp only
    unfold decodeFragments
    rw [show t.bits = s.bits from hb]
  | err t => rfl
  | panic => rfl

theorem AlignFirst.ofLength {lb ub : Option Int} (hb : SizeBounds lb ub) {n : Nat}
    (h : (lengthAligns lb ub || fixedAbove n lb ub) = true) :
    AlignFirst (decodeLength lb ub false) ∨ ∃ k, n < k ∧ decodeLength lb ub false = Pure.pure k := by
  rw [Bool.or_eq_true] at h
  rcases h with h | h
  · exact .inl (.length hb h)
  · obtain ⟨u, h1, h2⟩ := decodeLength_fixed hb h
    exact .inr ⟨u, by omega, h2⟩

theorem AlignFirst.bitstring {lb ub : Option Int} (hb : SizeBounds lb ub)
    (h : (lengthAligns lb ub || fixedAbove 16 lb ub) = true) :
    AlignFirst (decodeBitstring lb ub false) := by
  show AlignFirst (decodeFragments (decodeLength lb ub false) 16 getBitvec)
  exact AlignFirst.fragments (AlignFirst.ofLength (n := 16) hb h)

theorem AlignFirst.octetstring {lb ub : Option Int} (hb : SizeBounds lb ub)
    (h : (lengthAligns lb ub || fixedAbove 2 lb ub) = true) :
    AlignFirst (decodeOctetstring lb ub false) := by
  show AlignFirst (decodeFragments (decodeLength lb ub false) 2 getBytes)
  exact AlignFirst.fragments (AlignFirst.ofLength (n := 2) hb h)

theorem AlignFirst.string {lb ub : Option Int} (hb : SizeBounds lb ub)
    (h : (lengthAligns lb ub || fixedAbove 2 lb ub) = true) :
    AlignFirst (decodeString lb ub false) := by
  show AlignFirst (decodeLength lb ub false >>= fun len => decodeAlignIf (16 < len * 8) >>= fun _ =>
    getBitvecStored (len * 8) >>= fun bits => decodeText bits)
  rcases AlignFirst.ofLength (n := 2) hb h with h | ⟨k, hk, h⟩
  · exact AlignFirst.bind h
  · rw [h, M.pure_bind']
    refine AlignFirst.bind ?_
    unfold decodeAlignIf
    rw [if_pos (by simp; omega)]
    exact .align

/-! ## Reading with possibly unread padding -/

/-- A decoder at `off` may be taken to be at `e`: either it is there, or (if `b`) only zero padding up
to the octet boundary `e` is in between. -/
def At (b : Bool) (bits : List Bool) (off e : Nat) : Prop :=
  off = e ∨ (b = true ∧ e % 8 = 0 ∧ off ≤ e ∧ e < off + 8 ∧ e ≤ bits.length ∧
    ∀ i, off ≤ i → i < e → bits[i]? = some false)

theorem At.mono {b c : Bool} {bits : List Bool} {off e : Nat} (h : At b bits off e)
    (hbc : b = true → c = true) : At c bits off e := by
  rcases h with h | ⟨h1, h⟩
  · exact .inl h
  · exact .inr ⟨hbc h1, h⟩

theorem At.align {b : Bool} {bits : List Bool} {off e : Nat} (h : At b bits off e) (he : e % 8 = 0)
    (k : Option Int) : decodeAlign ⟨bits, off, k⟩ = .ok () ⟨bits, e, k⟩ := by
  rcases h with rfl | ⟨-, -, h1, h2, -, h3⟩
  · unfold decodeAlign; rw [if_pos he]
  · exact (C28_decoder_alignment ⟨bits, off, k⟩ ⟨bits, e, k⟩ (e - off) (by omega)
      (by rw [show off + (e - off) = e by omega]; exact he)).mpr
      ⟨by rw [show off + (e - off) = e by omega], fun i hi => h3 (off + i) (by omega) (by omega)⟩

theorem At.skip {b : Bool} {bits : List Bool} {off e : Nat} {dec : M α} (h : At b bits off e)
    (hd : b = true → AlignFirst dec) (k : Option Int) :
    dec ⟨bits, off, k⟩ = dec ⟨bits, e, k⟩ := by
  rcases h with rfl | ⟨hb, he, h⟩
  · rfl
  · conv => lhs; rw [← hd hb]
    rw [M.bind_apply, At.align (b := true) (.inr ⟨rfl, he, h⟩) he k]

/-- The decoder reads the word `w`, standing at a position congruent to `p`, as `v`; it tolerates
unread padding before if `b`, and leaves some unread at most if `c`; the key goes from `k` to `k'`. -/
def Reads (dec : M α) (v : α) (b c : Bool) (p : Nat) (w : List Bool) (k k' : Option Int) : Prop :=
  ∀ pre suf off, pre.length % 8 = p % 8 → At b (pre ++ w ++ suf) off pre.length →
    ∃ off', dec ⟨pre ++ w ++ suf, off, k⟩ = .ok v ⟨pre ++ w ++ suf, off', k'⟩ ∧
      At c (pre ++ w ++ suf) off' (pre.length + w.length)

theorem Reads.of {dec : M α} {p : Nat} {w : List Bool} {v : α} {b c : Bool} (h : Decodes dec p w v)
    (hb : b = true → AlignFirst dec) (k : Option Int) : Reads dec v b c p w k k := by
  intro pre suf off hp hat
  refine ⟨_, ?_, .inl rfl⟩
  rw [hat.skip hb, h pre suf k hp]

theorem Reads.pure (v : α) (b : Bool) (p : Nat) (k : Option Int) : Reads (pure v) v b b p [] k k := by
  intro pre suf off _ hat
  exact ⟨off, rfl, by simpa using hat⟩

theorem Reads.bind {m : M α} {g : α → M β} {a : α} {v : β} {b c d : Bool} {p : Nat}
    {w1 w2 : List Bool} {k k1 k2 : Option Int} (h1 : Reads m a b c p w1 k k1)
    (h2 : Reads (g a) v c d (p + w1.length) w2 k1 k2) :
    Reads (m >>= g) v b d p (w1 ++ w2) k k2 := by
  intro pre suf off hp hat
  have e : pre ++ (w1 ++ w2) ++ suf = pre ++ w1 ++ (w2 ++ suf) := by simp
  rw [e] at hat ⊢
  obtain ⟨o1, e1, a1⟩ := h1 pre (w2 ++ suf) off hp hat
  rw [M.bind_apply, e1]
  dsimp only
  have e2 : pre ++ w1 ++ (w2 ++ suf) = (pre ++ w1) ++ w2 ++ suf := by simp
  rw [e2] at a1 ⊢
  obtain ⟨o2, e3, a2⟩ := h2 (pre ++ w1) suf o1 (by simp; omega) (by simpa using a1)
  refine ⟨o2, e3, ?_⟩
  simp only [List.length_append] at a2 ⊢
  rw [← Nat.add_assoc]
  exact a2

theorem Reads.map {m : M α} {a : α} {b c : Bool} {p : Nat} {w : List Bool} {k k1 : Option Int}
    (h : Reads m a b c p w k k1) (f : α → β) :
    Reads (m >>= fun x => Pure.pure (f x)) (f a) b c p w k k1 := by
  have := Reads.bind (g := fun x => (Pure.pure (f x) : M β)) h (Reads.pure (f a) c _ k1)
  simpa using this

theorem Reads.mono {m : M α} {a : α} {b b' c c' : Bool} {p : Nat} {w : List Bool} {k k1 : Option Int}
    (h : Reads m a b c p w k k1) (hb : b' = true → b = true) (hc : c = true → c' = true) :
    Reads m a b' c' p w k k1 := by
  intro pre suf off hp hat
  obtain ⟨o, e, a⟩ := h pre suf off hp (hat.mono hb)
  exact ⟨o, e, a.mono hc⟩

/-- Round trip of an encoder and decoder in which padding may be left unread. -/
def RTS (enc : M Unit) (dec : M α) (v : α) (b c : Bool) (k k' : Option Int) : Prop :=
  ∀ s s', enc s = .ok () s' → ∃ w, s' = { s with bits := s.bits ++ w } ∧
    Writes enc s.bits.length w ∧ Reads dec v b c s.bits.length w k k'

theorem RTS.of {enc : M Unit} {dec : M α} {v : α} {b c : Bool} (h : RT enc dec v)
    (hb : b = true → AlignFirst dec) (k : Option Int) : RTS enc dec v b c k k := by
  intro s s' hs
  obtain ⟨w, e, hw, hd⟩ := h s s' hs
  exact ⟨w, e, hw, .of hd hb k⟩

theorem RTS.pure (v : α) (b : Bool) (k : Option Int) : RTS (pure ()) (Pure.pure v) v b b k k := by
  intro s s' hs
  cases hs
  exact ⟨[], by simp, .pure _, .pure v b _ k⟩

theorem RTS.bind {m : M Unit} {m2 : Unit → M Unit} {d : M α} {d2 : α → M β} {a : α} {v : β}
    {b c e : Bool} {k k1 k2 : Option Int} (h1 : RTS m d a b c k k1)
    (h2 : RTS (m2 ()) (d2 a) v c e k1 k2) : RTS (m >>= m2) (d >>= d2) v b e k k2 := by
  intro s s' hs
  rw [M.bind_apply] at hs
  cases hr : m s with
  | ok u t =>
    rw [hr] at hs
    obtain ⟨w1, rfl, hw1, hd1⟩ := h1 s t hr
    obtain ⟨w2, rfl, hw2, hd2⟩ := h2 _ s' hs
    refine ⟨w1 ++ w2, by simp, .bind hw1 (by simpa using hw2), .bind hd1 (by simpa using hd2)⟩
  | err t => rw [hr] at hs; cases hs
  | panic => rw [hr] at hs; cases hs

/-- The decoder does something after (reading nothing) that the encoder does not. -/
theorem RTS.bindDec {m : M Unit} {d : M α} {d2 : α → M β} {a : α} {v : β} {b c : Bool}
    {k k1 k2 : Option Int} (h1 : RTS m d a b c k k1)
    (h2 : ∀ bits off, d2 a ⟨bits, off, k1⟩ = .ok v ⟨bits, off, k2⟩) :
    RTS m (d >>= d2) v b c k k2 := by
  intro s s' hs
  obtain ⟨w, e, hw, hd⟩ := h1 s s' hs
  refine ⟨w, e, hw, fun pre suf off hp hat => ?_⟩
  obtain ⟨o, e1, a1⟩ := hd pre suf off hp hat
  refine ⟨o, ?_, a1⟩
  rw [M.bind_apply, e1]
  exact h2 _ _

/-- The decoder does something before (reading nothing) that the encoder does not. -/
theorem RTS.decFirst {m : M Unit} {d : M α} {d2 : α → M β} {a : α} {v : β} {b c : Bool}
    {k k1 k2 : Option Int} (h1 : ∀ bits off, d ⟨bits, off, k⟩ = .ok a ⟨bits, off, k1⟩)
    (h2 : RTS m (d2 a) v b c k1 k2) : RTS m (d >>= d2) v b c k k2 := by
  intro s s' hs
  obtain ⟨w, e, hw, hd⟩ := h2 s s' hs
  refine ⟨w, e, hw, fun pre suf off hp hat => ?_⟩
  obtain ⟨o, e1, a1⟩ := hd pre suf off hp hat
  refine ⟨o, ?_, a1⟩
  rw [M.bind_apply, h1]
  exact e1

theorem RTS.map {m : M Unit} {d : M α} {a : α} {b c : Bool} {k k1 : Option Int}
    (h : RTS m d a b c k k1) (f : α → β) :
    RTS m (d >>= fun x => Pure.pure (f x)) (f a) b c k k1 := by
  intro s s' hs
  obtain ⟨w, e, hw, hd⟩ := h s s' hs
  exact ⟨w, e, hw, hd.map f⟩

theorem RTS.mono {m : M Unit} {d : M α} {a : α} {b b' c c' : Bool} {k k1 : Option Int}
    (h : RTS m d a b c k k1) (hb : b' = true → b = true) (hc : c = true → c' = true) :
    RTS m d a b' c' k k1 := by
  intro s s' hs
  obtain ⟨w, e, hw, hd⟩ := h s s' hs
  exact ⟨w, e, hw, hd.mono hb hc⟩

theorem RTS.fail {d : M α} {a : α} {b c : Bool} {k k1 : Option Int} : RTS M.fail d a b c k k1 := by
  intro s s' hs; cases hs

/-! ## Lists -/

/-- The elements one after the other, each starting where the one before ended. -/
theorem RTS.list {enc : α → M Unit} {dec : M α} {f : α → Option Int → Option Int}
    {ok : α → Option Int → Prop} {track : α → Bool → Option Bool} :
    ∀ (l : List α) (b c : Bool) (k : Option Int), trackAll track l b = some c →
      (∀ x ∈ l, ∀ b c k, track x b = some c → ok x k → RTS (enc x) dec x b c k (f x k)) →
      keysOkAll ok f l k →
      RTS (encodeAll enc l) (decodeTimes dec l.length) l b c k (keyAfterAll f l k)
  | [], b, c, k, ht, _, _ => by
    simp only [trackAll, Option.some.injEq] at ht
    subst ht
    exact .pure [] b k
  | x :: xs, b, c, k, ht, h, hk => by
    simp only [trackAll] at ht
    cases h1 : track x b with
    | none => rw [h1] at ht; cases ht
    | some d =>
      rw [h1] at ht
      refine .bind (h x List.mem_cons_self b d k h1 hk.1) ?_
      exact .map (RTS.list xs d c (f x k) ht (fun y hy => h y (List.mem_cons_of_mem _ hy)) hk.2) (x :: ·)

/-! ## Lengths of lists -/

theorem encodeLength_sizeOk {lb ub : Option Int} {n : Nat} (h : SizeOk lb ub n) (s : Codec) :
    ∃ s', encodeLength lb ub false n s = .ok () s' := by
  obtain ⟨u, t, h2⟩ := (C10_accepted_lengths lb ub h.1 n s).1 ⟨h.2.1, h.2.2⟩
  exact ⟨t, h2⟩

theorem RT.ignoreErr {m : M Unit} {dec : M α} {v : α} (h : RT m dec v)
    (hok : ∀ s, ∃ s', m s = .ok () s') : RT (M.ignoreErr m) dec v := by
  have : M.ignoreErr m = m := by
    funext s
    obtain ⟨s', hs⟩ := hok s
    unfold M.ignoreErr
    rw [hs]
  rw [this]; exact h

theorem normallySmall_ok {n : Nat} (h1 : 1 ≤ n) (h2 : n < 16384) (s : Codec) :
    ∃ s', encodeNormallySmallLength n s = .ok () s' := by
  unfold encodeNormallySmallLength
  by_cases h : n ≤ 32
  · rw [if_pos h, if_neg (by omega)]
    exact ⟨_, rfl⟩
  · rw [if_neg h]
    exact ⟨_, Writes.bind (Writes.push s.bits.length true) (encodeIndefinite_writes h2 _) s rfl⟩

theorem RT.listLength {lb ub : Option Int} {ext : Bool} {n : Nat} (hn : 1 ≤ n)
    (h : if ext then n < 16384 else SizeOk lb ub n) :
    RT (M.ignoreErr (encodeLength lb ub ext n)) (decodeLength lb ub ext) n := by
  cases ext with
  | false => exact .ignoreErr (.length h.1 false n) fun s => encodeLength_sizeOk h s
  | true =>
    refine .ignoreErr ?_ fun s => normallySmall_ok hn h s
    exact .normallySmallLength n

/-! ## Bitmaps -/

/-- The bitmap tells which optional fields are present. -/
def Fields.Marked : (fs : Fields) → fs.Val → List Bool → Prop
  | .nil, _, _ => True
  | .required _ _ rest, v, bm => rest.Marked v.2 bm
  | .optional i _ rest, v, bm => bm[i]? = some v.1.isSome ∧ rest.Marked v.2 bm

theorem Fields.mark_length : (fs : Fields) → (v : fs.Val) → (bm bm' : List Bool) →
    fs.mark v bm = some bm' → bm'.length = bm.length
  | .nil, _, bm, bm', h => by simp only [Fields.mark] at h; cases h; rfl
  | .required _ _ rest, v, bm, bm', h => Fields.mark_length rest v.2 bm bm' h
  | .optional i _ rest, (some _, v), bm, bm', h => by
    simp only [Fields.mark] at h
    split at h
    · have := Fields.mark_length rest v _ bm' h
      simpa using this
    · cases h
  | .optional i _ rest, (none, v), bm, bm', h => Fields.mark_length rest v bm bm' h

theorem Fields.mark_other : (fs : Fields) → (v : fs.Val) → (bm bm' : List Bool) →
    fs.mark v bm = some bm' → ∀ j, j ∉ fs.indexes → bm'[j]? = bm[j]?
  | .nil, _, bm, bm', h, j, _ => by simp only [Fields.mark] at h; cases h; rfl
  | .required _ _ rest, v, bm, bm', h, j, hj => Fields.mark_other rest v.2 bm bm' h j hj
  | .optional i _ rest, (some _, v), bm, bm', h, j, hj => by
    simp only [Fields.mark] at h
    simp only [Fields.indexes, List.mem_cons, not_or] at hj
    split at h
    · rw [Fields.mark_other rest v _ bm' h j hj.2, List.getElem?_set_ne (by omega)]
    · cases h
  | .optional i _ rest, (none, v), bm, bm', h, j, hj => by
    simp only [Fields.indexes, List.mem_cons, not_or] at hj
    exact Fields.mark_other rest v bm bm' h j hj.2

theorem Fields.mark_marked : (fs : Fields) → (v : fs.Val) → (bm bm' : List Bool) →
    fs.mark v bm = some bm' → fs.indexes.Nodup → (∀ i ∈ fs.indexes, bm[i]? = some false) →
    fs.Marked v bm'
  | .nil, _, bm, bm', _, _, _ => trivial
  | .required _ _ rest, v, bm, bm', h, hn, hz => Fields.mark_marked rest v.2 bm bm' h hn hz
  | .optional i _ rest, (some _, v), bm, bm', h, hn, hz => by
    simp only [Fields.mark] at h
    simp only [Fields.indexes, List.nodup_cons] at hn
    split at h
    · rename_i hi
      refine ⟨?_, Fields.mark_marked rest v _ bm' h hn.2 fun j hj => ?_⟩
      · rw [Fields.mark_other rest v _ bm' h i hn.1]
        simp [hi]
      · rw [List.getElem?_set_ne (by rintro rfl; exact hn.1 hj)]
        exact hz j (List.mem_cons_of_mem _ hj)
    · cases h
  | .optional i _ rest, (none, v), bm, bm', h, hn, hz => by
    simp only [Fields.indexes, List.nodup_cons] at hn
    refine ⟨?_, Fields.mark_marked rest v bm bm' h hn.2 fun j hj => hz j (List.mem_cons_of_mem _ hj)⟩
    rw [Fields.mark_other rest v bm bm' h i hn.1]
    exact hz i List.mem_cons_self

/-! ## Casts -/

theorem Width.cast_of_fits {w : Width} {v : Int} (h : w.Fits v) : w.cast v = v := by
  cases w <;>
  · simp only [Width.Fits, Width.signed, Width.bits, if_true, Bool.false_eq_true, if_false,
      Nat.reduceSub] at h
    simp only [Width.cast, Width.signed, Width.bits, if_true, Bool.false_eq_true, if_false,
      signExtend, Nat.reduceSub]
    omega

theorem IntValueOk.i128 {w : Width} {lb : Option Int} {v : Int} (h : IntValueOk w lb v) : IsI128 v := by
  have := h.1
  unfold IsI128
  cases w <;> simp only [Width.Fits, Width.signed, Width.bits, if_true, Bool.false_eq_true, if_false,
      Nat.reduceSub] at this <;> omega

theorem IntValueOk.intOk {w : Width} {lb : Option Int} {v : Int} (h : IntValueOk w lb v) :
    IntOk lb v := by
  intro hn
  refine signedOctets_of_i64 ?_
  have h1 := h.1
  have h2 := h.2 hn
  cases w <;> simp only [Width.Fits, Width.signed, Width.bits, if_true, Bool.false_eq_true, if_false,
      Nat.reduceSub] at h1 <;> omega

/-! ## Character strings -/

theorem cWord_end {p R x : Nat} (h : 256 ≤ R) : (p + (cWord p R x).length) % 8 = 0 := by
  unfold cWord
  by_cases h1 : R ≤ 65536
  · rw [if_pos h1]
    unfold smallWord
    rw [if_neg (by omega)]
    split <;> simp only [List.length_append, pad_length, natToBits_length] <;>
      have := padLen_add p <;> omega
  · rw [if_neg h1]
    simp only [List.length_append, pad_length, natToBits_length]
    have := padLen_add (p + (lenField R x).length)
    omega

theorem encodeLength_end {lb ub : Option Int} {n : Nat} (h : lengthAligns lb ub = true) {s s' : Codec}
    (hs : encodeLength lb ub false n s = .ok () s') : s'.bits.length % 8 = 0 := by
  have hind : ∀ t t' : Codec, encodeIndefiniteLength n t = .ok () t' → t'.bits.length % 8 = 0 := by
    intro t t' ht
    by_cases hn : n < 16384
    · rw [encodeIndefinite_writes hn t.bits.length t rfl] at ht
      cases ht
      simp only [List.length_append]
      exact indefWord_end _ _
    · rw [encodeIndefinite_fails (by omega) t.bits.length t rfl] at ht
      cases ht
  unfold encodeLength at hs
  simp only [Bool.false_eq_true, if_false] at hs
  cases ub with
  | none =>
    dsimp only at hs
    rw [if_neg (by simp)] at hs
    split at hs
    · cases hs
    · exact hind _ _ hs
  | some u =>
    dsimp only at hs
    by_cases hu : u < 65536
    · rw [if_pos hu] at hs
      obtain ⟨R, x, hi, h2⟩ := encodeConstrained_ok hs
      rw [encodeConstrained_writes hi h2 s.bits.length s rfl] at hs
      cases hs
      simp only [List.length_append]
      refine cWord_end ?_
      simp only [lengthAligns, Bool.or_eq_true, decide_eq_true_eq] at h
      have := hi.hR
      omega
    · rw [if_neg hu] at hs
      split at hs
      · cases hs
      · split at hs
        · cases hs
        · exact hind _ _ hs

theorem RT.text {lb ub : Option Int} {v : String} (h : TextOk lb ub v) (e x : Bool) :
    RT (encodeString lb ub e v x) (decodeString lb ub e) v := by
  intro s s' hs
  refine string_rt h.1 hs ?_
  rcases h.2 with h2 | h2 | h2
  · exact .inl h2
  · exact .inr (.inr h2)
  · by_cases h3 : 2 < (utf8 v).length
    · exact .inl h3
    · refine .inr (.inl ?_)
      unfold encodeString at hs
      cases x with
      | true => cases hs
      | false =>
        simp only [Bool.false_eq_true, if_false] at hs
        rw [M.bind_apply] at hs
        cases h1 : encodeExtBit e false s with
        | ok u s1 =>
          rw [h1] at hs
          dsimp only at hs
          rw [M.bind_apply] at hs
          cases h4 : encodeLength lb ub false (utf8 v).length s1 with
          | ok u s2 =>
            rw [h4] at hs
            dsimp only at hs
            have hw3 := Writes.bind (g := fun _ => appendBits (bytesBits (utf8 v)))
              (.alignIf s2.bits.length (2 < (utf8 v).length))
              (.append _ (bytesBits (utf8 v)))
            rw [hw3 s2 rfl] at hs
            cases hs
            simp only [List.length_append, bytesBits_length, h3, decide_false,
              Bool.false_eq_true, if_false, List.length_nil]
            have := encodeLength_end h2 h4
            omega
          | err _ => rw [h4] at hs; cases hs
          | panic => rw [h4] at hs; cases hs
        | err _ => rw [h1] at hs; cases hs
        | panic => rw [h1] at hs; cases hs

/-! ## Open types -/

theorem RTS.open {payload : M Unit} {as : Alts} {v : as.Val} {c b : Bool} {k k' : Option Int} {key : Int}
    (hk : k = some key) (h : RTS payload (as.decode key) v false c k k') :
    RTS (encodeOpen payload) (decodeLength none none false >>= fun _ => requireKey >>= fun x =>
      as.decode x) v b (c || endsInside payload) k k' := by
  intro s s' hs
  unfold encodeOpen at hs
  cases hp : payload Codec.new with
  | err _ => rw [hp] at hs; cases hs
  | panic => rw [hp] at hs; cases hs
  | ok u inner =>
    rw [hp] at hs
    obtain ⟨w, rfl, hw, hd⟩ := h _ _ hp
    simp only [Codec.new, List.nil_append] at hs hd
    by_cases h0 : w.length = 0
    · unfold lengthInBytes at hs
      simp only [h0, if_true] at hs
      cases hs
    · have hl : lengthInBytes ⟨w, 0, none⟩ = .ok ((w.length - 1) / 8 + 1) ⟨w, 0, none⟩ := by
        unfold lengthInBytes; exact if_neg h0
      rw [hl] at hs
      dsimp only at hs
      have hfull : encodeOpen payload = (encodeLength none none false ((w.length - 1) / 8 + 1) >>=
          fun _ => appendAligned ⟨w, 0, none⟩) := by
        funext t
        unfold encodeOpen
        rw [hp]
        simp only [Codec.new, List.nil_append]
        rw [hl]
      by_cases hn : (w.length - 1) / 8 + 1 < 16384
      · have happ : ∀ p, p % 8 = 0 → Writes (appendAligned ⟨w, 0, none⟩) p (w ++ pad w.length) := by
          intro p hp0
          unfold appendAligned
          have ha := Writes.align w.length ⟨w, 0, none⟩ rfl
          rw [ha]
          have := Writes.bind (g := fun _ => appendBits (w ++ pad w.length)) (.align p) (.append _ _)
          rwa [pad_zero hp0, List.nil_append] at this
        have hwr : Writes (encodeOpen payload) s.bits.length
            (indefWord s.bits.length ((w.length - 1) / 8 + 1) ++ (w ++ pad w.length)) := by
          rw [hfull]
          exact .bind (encodeIndefinite_writes hn _) (happ _ (indefWord_end _ _))
        refine ⟨_, ?_, hwr, ?_⟩
        · have := hwr s rfl
          rw [hfull] at this
          rw [this] at hs
          cases hs
          rfl
        · refine .bind (Reads.of (c := false) (decodeIndefinite_decodes hn _)
            (fun _ => AlignFirst.indefinite) k) ?_
          intro pre suf off hpre hat
          have hpre0 : pre.length % 8 = 0 := by
            have := indefWord_end s.bits.length ((w.length - 1) / 8 + 1)
            omega
          rw [M.bind_apply]
          have hr : requireKey ⟨pre ++ (w ++ pad w.length) ++ suf, off, k⟩ =
              .ok key ⟨pre ++ (w ++ pad w.length) ++ suf, off, k⟩ := by
            unfold requireKey; rw [hk]
          rw [hr]
          dsimp only
          have e : pre ++ (w ++ pad w.length) ++ suf = pre ++ w ++ (pad w.length ++ suf) := by simp
          rw [e] at hat ⊢
          obtain ⟨o, e1, a1⟩ := hd pre (pad w.length ++ suf) off (by simpa using hpre0) hat
          refine ⟨o, e1, ?_⟩
          have hpl := padLen_add w.length
          have hpl2 := padLen_lt w.length
          have hei : endsInside payload = decide (w.length % 8 ≠ 0) := by
            unfold endsInside
            rw [hp]
            rfl
          rcases a1 with a1 | ⟨a1, a2, a3⟩
          · by_cases hz : w.length % 8 = 0
            · rw [pad_zero hz, List.append_nil, List.nil_append] at *
              exact .inl a1
            refine .inr ⟨by rw [hei]; simp [hz], ?_, ?_, ?_, ?_, fun i h1 h2 => ?_⟩
            · simp only [List.length_append, pad_length]; omega
            · simp only [List.length_append, pad_length]; omega
            · simp only [List.length_append, pad_length]; omega
            · simp only [List.length_append, pad_length]; omega
            · simp only [List.length_append, pad_length] at h1 h2
              rw [List.getElem?_append_right (by simp; omega),
                List.getElem?_append_left (by simp; omega)]
              unfold pad
              rw [List.getElem?_replicate, if_pos]
              simp only [List.length_append]; omega
          · have hz : w.length % 8 = 0 := by omega
            rw [pad_zero hz, List.append_nil, List.nil_append] at *
            exact .inr ⟨by rw [a1]; rfl, a2, a3⟩
      · exfalso
        rw [M.bind_apply] at hs
        have hf : encodeLength none none false ((w.length - 1) / 8 + 1) s =
            encodeIndefiniteLength ((w.length - 1) / 8 + 1) s := rfl
        rw [hf, encodeIndefinite_fails (by omega) s.bits.length s rfl] at hs
        cases hs

/-! ## The derived codecs -/

theorem flowLeaf_some {al b c : Bool} (h : flowLeaf al b = some c) :
    c = false ∧ (b = true → al = true) := by
  unfold flowLeaf at h
  cases b <;> cases al <;> simp_all

theorem Ty.Val_seqOf (lb ub : Option Int) (ext : Bool) (e : Ty) :
    (Ty.sequenceOf lb ub ext e).Val = List e.Val := rfl

theorem Ty.keyValue_announces (t : Ty) (v : t.Val) : t.keyValue v = t.announces v := by
  cases t <;> try rfl
  cases (show Bool from v) <;> rfl

theorem setKeyFrom_run (kf : Bool) (t : Ty) (v : t.Val) (bits : List Bool) (off : Nat)
    (k : Option Int) : setKeyFrom kf t v ⟨bits, off, k⟩ = .ok () ⟨bits, off, keyAfterField kf t v k⟩ := by
  unfold setKeyFrom keyAfterField
  rw [Ty.keyValue_announces]
  cases kf with
  | false => rfl
  | true => cases t.announces v <;> rfl

/-- The header of a struct without optional fields or extension marker takes no bits. -/
theorem RTS.emptyHeader (k : Option Int) :
    RTS (encodeSequenceHeader false [] false) (decodeSequenceHeader false 0) ([], false) true true k k := by
  intro s s' hs
  have he : Writes (encodeSequenceHeader false [] false) s.bits.length [] := fun t _ => rfl
  rw [he s rfl] at hs
  cases hs
  refine ⟨[], rfl, he, fun pre suf off hp hat => ⟨off, ?_, by simpa using hat⟩⟩
  rfl

mutual

theorem Ty.rtt : (t : Ty) → (v : t.Val) → (b c : Bool) → (k : Option Int) → t.track v b = some c →
    t.Wf v → t.KeysOk v k → RTS (t.encode v) t.decode v b c k (t.keyAfter v k)
  | .boolean, v, b, c, k, hf, hw, hk => by
    obtain ⟨rfl, hb⟩ := flowLeaf_some hf
    have hb : b = false := by cases b <;> simp_all
    subst hb
    exact RTS.of (b := false) (RT.boolM v) (fun h => nomatch h) k
  | .null, v, b, c, k, hf, hw, hk => by
    simp only [Ty.track, Option.some.injEq] at hf
    subst hf
    exact RTS.pure v b k
  | .integer w lb ub ext, v, b, c, k, hf, hw, hk => by
    obtain ⟨rfl, hb⟩ := flowLeaf_some hf
    have h1 : RTS (encodeInteger lb ub ext v false) (decodeInteger lb ub ext) (v, false) b false k k := by
      refine RTS.of (RT.integer hw.i128 hw.intOk ext false) (fun h => ?_) k
      have := hb h
      simp only [Bool.and_eq_true, Bool.not_eq_true'] at this
      obtain ⟨rfl, h2⟩ := this
      exact .integer h2
    have h2 := h1.map (fun d => w.cast d.1)
    rw [show w.cast (v, false).1 = v from Width.cast_of_fits hw.1] at h2
    exact h2
  | .enumerated w lb ub ext, v, b, c, k, hf, hw, hk => by
    obtain ⟨rfl, hb⟩ := flowLeaf_some hf
    have h1 : RTS (encodeEnumerated lb ub ext v false) (decodeEnumerated lb ub ext) (v, false)
        b false k k := by
      refine RTS.of (RT.enumerated hw.i128 hw.intOk ext false) (fun h => ?_) k
      have := hb h
      simp only [Bool.and_eq_true, Bool.not_eq_true'] at this
      obtain ⟨rfl, h2⟩ := this
      exact .enumerated h2
    have h2 := h1.map (fun d => w.cast d.1)
    rw [show w.cast (v, false).1 = v from Width.cast_of_fits hw.1] at h2
    exact h2
  | .bitstring lb ub ext, v, b, c, k, hf, hw, hk => by
    obtain ⟨rfl, hb⟩ := flowLeaf_some hf
    refine RTS.of (RT.bitstring hw v ext false) (fun h => ?_) k
    have := hb h
    rw [Bool.and_eq_true, Bool.not_eq_true'] at this
    obtain ⟨rfl, h2⟩ := this
    exact .bitstring hw h2
  | .octetstring lb ub ext, v, b, c, k, hf, hw, hk => by
    obtain ⟨rfl, hb⟩ := flowLeaf_some hf
    refine RTS.of (RT.octetstring hw v ext false) (fun h => ?_) k
    have := hb h
    rw [Bool.and_eq_true, Bool.not_eq_true'] at this
    obtain ⟨rfl, h2⟩ := this
    exact .octetstring hw h2
  | .charstring kind lb ub ext, v, b, c, k, hf, hw, hk => by
    obtain ⟨rfl, hb⟩ := flowLeaf_some hf
    have h1 : RTS (encodeString lb ub ext v false) (decodeString lb ub ext) v b false k k := by
      refine RTS.of (RT.text hw ext false) (fun h => ?_) k
      have := hb h
      rw [Bool.and_eq_true, Bool.not_eq_true'] at this
      obtain ⟨rfl, h2⟩ := this
      exact .string hw.1 h2
    cases kind <;> exact h1
  | .objectIdentifier, v, b, c, k, hf, hw, hk => RTS.fail
  | .sequence ext n fs, v, b, c, k, hf, hw, hk => by
    simp only [Ty.track] at hf
    split at hf
    · cases hf
    · next hc =>
      show RTS (encodeHeader fs v ext n >>= fun _ => fs.encode v)
        (decodeSequenceHeader ext n >>= fun h => fs.decode h.1) v b c k (fs.keyAfter v k)
      unfold encodeHeader
      cases hm : fs.mark v (List.replicate n false) with
      | none =>
        intro s s' hs
        cases hs
      | some bm =>
        have hlen : bm.length = n := by
          have := Fields.mark_length fs v _ bm hm
          simpa using this
        have hmk : fs.Marked v bm := by
          refine Fields.mark_marked fs v _ bm hm hw.1.1 fun i hi => ?_
          rw [List.getElem?_replicate, if_pos (hw.1.2 i hi)]
        have hh : RTS (encodeSequenceHeader ext bm false) (decodeSequenceHeader ext n) (bm, false)
            b b k k := by
          have hrt := RT.sequenceHeader ext bm false
          rw [hlen] at hrt
          cases b with
          | false => exact RTS.of (b := false) hrt (fun h => nomatch h) k
          | true =>
            simp only [Bool.and_true, Bool.or_eq_true, decide_eq_true_eq, not_or,
              Bool.not_eq_true] at hc
            obtain ⟨rfl, hn⟩ := hc
            have hn : n = 0 := by omega
            subst hn
            have hbm : bm = [] := List.length_eq_zero_iff.mp hlen
            subst hbm
            exact RTS.emptyHeader k
        exact .bind hh (Fields.rtt fs v bm b c k hf hw.2 hk hmk)
  | .sequenceOf lb ub ext e, v, b, c, k, hf, hw, hk => by
    simp only [Ty.track] at hf
    cases hl : flowLeaf (!ext && lengthAligns lb ub) b with
    | none => rw [hl] at hf; cases hf
    | some d =>
      rw [hl] at hf
      dsimp only at hf
      obtain ⟨rfl, hb⟩ := flowLeaf_some hl
      obtain ⟨hne, hsz, hel⟩ := hw
      have hpos : 1 ≤ List.length v := by
        cases v with
        | nil => exact absurd rfl hne
        | cons x xs => simp
      have h1 : RTS (M.ignoreErr (encodeLength lb ub ext (List.length v))) (decodeLength lb ub ext)
          (List.length v) b false k k := by
        refine RTS.of (RT.listLength hpos hsz) (fun h => ?_) k
        have := hb h
        rw [Bool.and_eq_true, Bool.not_eq_true'] at this
        obtain ⟨rfl, h2⟩ := this
        exact .length hsz.1 h2
      refine .bind h1 ?_
      unfold decodeLoop
      rw [if_neg (by omega)]
      exact RTS.list (track := e.track) (ok := fun x k => e.KeysOk x k) v false c k hf
        (fun x hx b c k hf' hk' => Ty.rtt e x b c k hf' (hel x hx) hk') hk
  | .choice lb ub ext as, v, b, c, k, hf, hw, hk => by
    simp only [Ty.track] at hf
    cases hl : flowLeaf (!ext && intAligns (some lb) (some ub)) b with
    | none => rw [hl] at hf; cases hf
    | some d =>
      rw [hl] at hf
      dsimp only at hf
      obtain ⟨rfl, hb⟩ := flowLeaf_some hl
      obtain ⟨hsel, hi, hw⟩ := hw
      have h1 : RTS (encodeChoiceIdx lb ub ext (as.keyOf v) (as.extendedOf v))
          (decodeChoiceIdx lb ub ext) (as.keyOf v, false) b false k k := by
        refine RTS.of (RT.choiceIdx hi ext _) (fun h => ?_) k
        have := hb h
        rw [Bool.and_eq_true, Bool.not_eq_true'] at this
        obtain ⟨rfl, h2⟩ := this
        exact .choiceIdx h2
      refine .bind h1 ?_
      exact Alts.rtt as v (as.keyOf v) false c k hf hw hk hsel
  | .openType as, v, b, c, k, hf, hw, hk => by
    simp only [Ty.track] at hf
    cases hl : as.track v false with
    | none => rw [hl] at hf; cases hf
    | some d =>
      rw [hl] at hf
      cases hf
      obtain ⟨⟨key, rfl, hsel⟩, hk⟩ := hk
      exact RTS.open rfl (Alts.rtt as v key false d _ hl hw hk hsel)

theorem Fields.rtt : (fs : Fields) → (v : fs.Val) → (bm : List Bool) → (b c : Bool) →
    (k : Option Int) → fs.track v b = some c → fs.Wf v → fs.KeysOk v k → fs.Marked v bm →
    RTS (fs.encode v) (fs.decode bm) v b c k (fs.keyAfter v k)
  | .nil, v, bm, b, c, k, hf, _, _, _ => by
    simp only [Fields.track, Option.some.injEq] at hf
    subst hf
    exact RTS.pure v b k
  | .required kf t rest, v, bm, b, c, k, hf, hw, hk, hm => by
    simp only [Fields.track] at hf
    cases h1 : t.track v.1 b with
    | none => rw [h1] at hf; cases hf
    | some d =>
      rw [h1] at hf
      refine .bind (Ty.rtt t v.1 b d k h1 hw.1 hk.1) ?_
      refine .decFirst (fun bits off => setKeyFrom_run kf t v.1 bits off _) ?_
      exact .map (Fields.rtt rest v.2 bm d c _ hf hw.2 hk.2 hm) fun vs => (v.1, vs)
  | .optional i t rest, (some x, vs), bm, b, c, k, hf, hw, hk, hm => by
    simp only [Fields.track] at hf
    cases h1 : t.track x b with
    | none => rw [h1] at hf; cases hf
    | some d =>
      rw [h1] at hf
      have hpr : ∀ bits off, present bm i ⟨bits, off, k⟩ = .ok true ⟨bits, off, k⟩ := by
        intro bits off
        unfold present
        rw [hm.1]
        rfl
      refine .decFirst hpr ?_
      refine .bind (a := some x) (c := d) (k1 := t.keyAfter x k) ?_ ?_
      · exact RTS.map (Ty.rtt t x b d k h1 hw.1 hk.1) some
      · exact .map (Fields.rtt rest vs bm d c _ hf hw.2 hk.2 hm.2) fun vs => (some x, vs)
  | .optional i t rest, (none, vs), bm, b, c, k, hf, hw, hk, hm => by
    simp only [Fields.track] at hf
    have hpr : ∀ bits off, present bm i ⟨bits, off, k⟩ = .ok false ⟨bits, off, k⟩ := by
      intro bits off
      unfold present
      rw [hm.1]
      rfl
    refine .decFirst hpr ?_
    refine .bind (a := none) (c := b) (k1 := k) (RTS.pure none b k) ?_
    exact .map (Fields.rtt rest vs bm b c _ hf hw.2 hk.2 hm.2) fun vs => (none, vs)

theorem Alts.rtt : (as : Alts) → (v : as.Val) → (key : Int) → (b c : Bool) → (k : Option Int) →
    as.track v b = some c → as.Wf v → as.KeysOk v k → as.Selects key v →
    RTS (as.encode v) (as.decode key) v b c k (as.keyAfter v k)
  | .cons k0 x t rest, .inl v, key, b, c, k, hf, hw, hk, hs => by
    simp only [Alts.track] at hf
    have hs : key = k0 := hs
    subst hs
    show RTS (t.encode v) (if key = key then _ else _) _ _ _ _ _
    rw [if_pos rfl]
    exact RTS.map (Ty.rtt t v b c k hf hw hk) Sum.inl
  | .cons k0 x t rest, .inr v, key, b, c, k, hf, hw, hk, hs => by
    simp only [Alts.track] at hf
    obtain ⟨hne, hs⟩ := (show key ≠ k0 ∧ rest.Selects key v from hs)
    show RTS (rest.encode v) (if key = k0 then _ else _) _ _ _ _ _
    rw [if_neg hne]
    exact RTS.map (Alts.rtt rest v key b c k hf hw hk hs) Sum.inr

end

/-! ## The check of a type covers its values -/

theorem flowLeaf_mono {al b c b' : Bool} (h : flowLeaf al b = some c) (hb : b' = true → b = true) :
    ∃ c', flowLeaf al b' = some c' ∧ (c' = true → c = true) := by
  unfold flowLeaf at *
  cases b <;> cases b' <;> cases al <;> simp_all

theorem flowMany_track {track : α → Bool → Option Bool} {flow : Bool → Option Bool} {b c b' : Bool} :
    ∀ {l : List α}, l ≠ [] → flowMany flow b = some c → (b' = true → b = true) →
      (∀ x ∈ l, ∀ b c b', flow b = some c → (b' = true → b = true) →
        ∃ c', track x b' = some c' ∧ (c' = true → c = true)) →
      ∃ c', trackAll track l b' = some c' ∧ (c' = true → c = true) := by
  intro l hl hf hb h
  -- once the elements run from `true` to at most `d`
  have run : ∀ (d : Bool), flow true = some d → ∀ (l : List α) (b' : Bool),
      (∀ x ∈ l, ∀ b c b', flow b = some c → (b' = true → b = true) →
        ∃ c', track x b' = some c' ∧ (c' = true → c = true)) →
      ∃ c', trackAll track l b' = some c' ∧ (l ≠ [] → c' = true → d = true) := by
    intro d hd l
    induction l with
    | nil => intro b' _; exact ⟨b', rfl, fun h => absurd rfl h⟩
    | cons x xs ih =>
      intro b' hx
      obtain ⟨c1, e1, h1⟩ := hx x List.mem_cons_self true d b' hd (fun _ => rfl)
      obtain ⟨c2, e2, h2⟩ := ih c1 fun y hy => hx y (List.mem_cons_of_mem _ hy)
      refine ⟨c2, by simp only [trackAll, e1, e2], fun _ hc => ?_⟩
      cases xs with
      | nil =>
        simp only [trackAll, Option.some.injEq] at e2
        subst e2
        exact h1 hc
      | cons y ys => exact h2 (by simp) hc
  unfold flowMany at hf
  cases h1 : flow b with
  | none => rw [h1] at hf; cases hf
  | some d =>
    rw [h1] at hf
    dsimp only at hf
    cases b with
    | true =>
      simp only [Bool.true_or, if_true, Option.some.injEq] at hf
      subst hf
      obtain ⟨c', e, hc⟩ := run d h1 l b' h
      exact ⟨c', e, hc hl⟩
    | false =>
      have hb' : b' = false := by cases b' <;> simp_all
      subst hb'
      cases d with
      | false =>
        simp only [Bool.not_false, Bool.or_true, if_true, Option.some.injEq] at hf
        subst hf
        clear hl
        refine ⟨false, ?_, fun h => nomatch h⟩
        induction l with
        | nil => rfl
        | cons x xs ih =>
          obtain ⟨c1, e1, hc1⟩ := h x List.mem_cons_self false false false h1 id
          have : c1 = false := by cases c1 <;> simp_all
          subst this
          simp only [trackAll, e1]
          exact ih fun y hy => h y (List.mem_cons_of_mem _ hy)
      | true =>
        simp only [Bool.not_true, Bool.or_false, Bool.false_eq_true, if_false] at hf
        cases h2 : flow true with
        | none => rw [h2] at hf; cases hf
        | some e =>
          rw [h2] at hf
          cases hf
          obtain ⟨c', e', -⟩ := run e h2 l false h
          exact ⟨c', e', fun _ => rfl⟩

mutual

theorem Ty.flow_track : (t : Ty) → (v : t.Val) → (b c b' : Bool) → t.flow b = some c → t.Wf v →
    (b' = true → b = true) → ∃ c', t.track v b' = some c' ∧ (c' = true → c = true)
  | .boolean, _, b, c, b', h, _, hb => flowLeaf_mono h hb
  | .null, _, b, c, b', h, _, hb => by
    simp only [Ty.flow, Option.some.injEq] at h
    subst h
    exact ⟨b', rfl, hb⟩
  | .integer .., _, b, c, b', h, _, hb => flowLeaf_mono h hb
  | .enumerated .., _, b, c, b', h, _, hb => flowLeaf_mono h hb
  | .bitstring .., _, b, c, b', h, _, hb => flowLeaf_mono h hb
  | .octetstring .., _, b, c, b', h, _, hb => flowLeaf_mono h hb
  | .charstring .., _, b, c, b', h, _, hb => flowLeaf_mono h hb
  | .objectIdentifier, _, b, c, b', h, _, hb => ⟨false, rfl, fun h => nomatch h⟩
  | .sequence ext n fs, v, b, c, b', h, hw, hb => by
    simp only [Ty.flow] at h
    split at h
    · cases h
    · next hc =>
      simp only [Ty.track]
      rw [if_neg]
      · exact Fields.flow_track fs v b c b' h hw.2 hb
      · intro hh
        apply hc
        rw [Bool.and_eq_true] at hh ⊢
        exact ⟨hh.1, hb hh.2⟩
  | .sequenceOf lb ub ext e, v, b, c, b', h, hw, hb => by
    simp only [Ty.flow] at h
    cases hl : flowLeaf (!ext && lengthAligns lb ub) b with
    | none => rw [hl] at h; cases h
    | some d =>
      rw [hl] at h
      obtain ⟨d', e1, hd⟩ := flowLeaf_mono hl hb
      simp only [Ty.track, e1]
      exact flowMany_track hw.1 h hd fun x hx b c b' hf hb' =>
        Ty.flow_track e x b c b' hf (hw.2.2 x hx) hb'
  | .choice lb ub ext as, v, b, c, b', h, hw, hb => by
    simp only [Ty.flow] at h
    cases hl : flowLeaf (!ext && intAligns (some lb) (some ub)) b with
    | none => rw [hl] at h; cases h
    | some d =>
      rw [hl] at h
      obtain ⟨d', e1, hd⟩ := flowLeaf_mono hl hb
      simp only [Ty.track, e1]
      exact Alts.flow_track as v d c d' h hw.2.2 hd
  | .openType as, v, b, c, b', h, hw, hb => by
    simp only [Ty.flow] at h
    cases hl : as.flow false with
    | none => rw [hl] at h; cases h
    | some d =>
      rw [hl] at h
      cases h
      obtain ⟨d', e1, -⟩ := Alts.flow_track as v false d false hl hw id
      simp only [Ty.track, e1]
      exact ⟨_, rfl, by simp⟩

theorem Fields.flow_track : (fs : Fields) → (v : fs.Val) → (b c b' : Bool) → fs.flow b = some c →
    fs.Wf v → (b' = true → b = true) → ∃ c', fs.track v b' = some c' ∧ (c' = true → c = true)
  | .nil, _, b, c, b', h, _, hb => by
    simp only [Fields.flow, Option.some.injEq] at h
    subst h
    exact ⟨b', rfl, hb⟩
  | .required kf t rest, v, b, c, b', h, hw, hb => by
    simp only [Fields.flow] at h
    cases h1 : t.flow b with
    | none => rw [h1] at h; cases h
    | some d =>
      rw [h1] at h
      obtain ⟨d', e1, hd⟩ := Ty.flow_track t v.1 b d b' h1 hw.1 hb
      simp only [Fields.track, e1]
      exact Fields.flow_track rest v.2 d c d' h hw.2 hd
  | .optional i t rest, (some x, vs), b, c, b', h, hw, hb => by
    simp only [Fields.flow] at h
    cases h1 : t.flow b with
    | none => rw [h1] at h; cases h
    | some d =>
      rw [h1] at h
      obtain ⟨d', e1, hd⟩ := Ty.flow_track t x b d b' h1 hw.1 hb
      simp only [Fields.track, e1]
      exact Fields.flow_track rest vs (b || d) c d' h hw.2 fun hh => by simp [hd hh]
  | .optional i t rest, (none, vs), b, c, b', h, hw, hb => by
    simp only [Fields.flow] at h
    cases h1 : t.flow b with
    | none => rw [h1] at h; cases h
    | some d =>
      rw [h1] at h
      simp only [Fields.track]
      exact Fields.flow_track rest vs (b || d) c b' h hw.2 fun hh => by simp [hb hh]

theorem Alts.flow_track : (as : Alts) → (v : as.Val) → (b c b' : Bool) → as.flow b = some c →
    as.Wf v → (b' = true → b = true) → ∃ c', as.track v b' = some c' ∧ (c' = true → c = true)
  | .cons k x t rest, .inl v, b, c, b', h, hw, hb => by
    simp only [Alts.flow] at h
    cases h1 : t.flow b with
    | none => rw [h1] at h; cases h
    | some d =>
      rw [h1] at h
      cases h2 : rest.flow b with
      | none => rw [h2] at h; cases h
      | some d2 =>
        rw [h2] at h
        cases h
        obtain ⟨d', e1, hd⟩ := Ty.flow_track t v b d b' h1 hw hb
        exact ⟨d', e1, fun hh => by simp [hd hh]⟩
  | .cons k x t rest, .inr v, b, c, b', h, hw, hb => by
    simp only [Alts.flow] at h
    cases h1 : t.flow b with
    | none => rw [h1] at h; cases h
    | some d =>
      rw [h1] at h
      cases h2 : rest.flow b with
      | none => rw [h2] at h; cases h
      | some d2 =>
        rw [h2] at h
        cases h
        obtain ⟨d', e1, hd⟩ := Alts.flow_track rest v b d2 b' h2 hw hb
        exact ⟨d', e1, fun hh => by simp [hd hh]⟩

end

theorem Ty.rts (t : Ty) (v : t.Val) (b c : Bool) (k : Option Int) (hf : t.flow b = some c)
    (hw : t.Wf v) (hk : t.KeysOk v k) : RTS (t.encode v) t.decode v b c k (t.keyAfter v k) := by
  obtain ⟨c', h1, h2⟩ := Ty.flow_track t v b c b hf hw id
  exact (Ty.rtt t v b c' k h1 hw hk).mono id h2

/-! ## Whole octets leave nothing unread -/

theorem flowLeaf_false (al : Bool) : flowLeaf al false = some false := by cases al <;> rfl

mutual

theorem Ty.whole_track : (t : Ty) → (v : t.Val) → t.WholeOctets v → t.track v false = some false
  | .boolean, _, _ => rfl
  | .null, _, _ => rfl
  | .integer .., _, _ => flowLeaf_false _
  | .enumerated .., _, _ => flowLeaf_false _
  | .bitstring .., _, _ => flowLeaf_false _
  | .octetstring .., _, _ => flowLeaf_false _
  | .charstring .., _, _ => flowLeaf_false _
  | .objectIdentifier, _, _ => rfl
  | .sequence ext n fs, v, h => by
    simp only [Ty.track, Bool.and_false, Bool.false_eq_true, if_false]
    exact Fields.whole_track fs v h
  | .sequenceOf lb ub ext e, v, h => by
    simp only [Ty.track, flowLeaf_false]
    have : ∀ l : List e.Val, (∀ x ∈ l, x ∈ (show List e.Val from v)) →
        trackAll e.track l false = some false := by
      intro l
      induction l with
      | nil => intro _; rfl
      | cons x xs ih =>
        intro hl
        simp only [trackAll, Ty.whole_track e x (h x (hl x List.mem_cons_self))]
        exact ih fun y hy => hl y (List.mem_cons_of_mem _ hy)
    exact this v fun _ h => h
  | .choice lb ub ext as, v, h => by
    simp only [Ty.track, flowLeaf_false]
    exact Alts.whole_track as v h
  | .openType as, v, h => by
    simp only [Ty.track, Alts.whole_track as v h.1, Bool.false_or, Option.some.injEq]
    unfold endsInside
    cases hr : as.encode v Codec.new with
    | ok u s =>
      dsimp only
      simp [h.2 s hr]
    | err _ => rfl
    | panic => rfl

theorem Fields.whole_track : (fs : Fields) → (v : fs.Val) → fs.WholeOctets v →
    fs.track v false = some false
  | .nil, _, _ => rfl
  | .required kf t rest, v, h => by
    simp only [Fields.track, Ty.whole_track t v.1 h.1]
    exact Fields.whole_track rest v.2 h.2
  | .optional i t rest, (some x, vs), h => by
    simp only [Fields.track, Ty.whole_track t x h.1]
    exact Fields.whole_track rest vs h.2
  | .optional i t rest, (none, vs), h => by
    simp only [Fields.track]
    exact Fields.whole_track rest vs h.2

theorem Alts.whole_track : (as : Alts) → (v : as.Val) → as.WholeOctets v →
    as.track v false = some false
  | .cons k x t rest, .inl v, h => Ty.whole_track t v h
  | .cons k x t rest, .inr v, h => Alts.whole_track rest v h

end

end Hampi
