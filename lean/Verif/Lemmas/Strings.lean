import Verif.Lemmas.Reader
/-!
# The fragment loop of the string decoders

`fragLoop_fuel`: the fuel given by `decodeFragments` is never exhausted, so the bounded loop of the
model is the unbounded loop of the code.
-/
namespace Hampi

variable {α : Type}

/-- Reading units really consumes them. -/
def Consumes (getUnits : Nat → M (List α)) : Prop :=
  ∀ n s l s', getUnits n s = .ok l s' → s.off + n ≤ s'.off ∧ s'.off ≤ s.bits.length

theorem getBitvec_consumes : Consumes getBitvec := by
  intro n s l s' h
  rw [getBitvec_eq] at h
  have := takeBits_length h
  omega

theorem getBytes_consumes : Consumes getBytes := by
  intro n s l s' h
  rw [getBytes_eq, M.bind_apply] at h
  cases hr : takeBits (n * 8) s with
  | ok l1 s1 =>
    rw [hr] at h
    have := takeBits_length hr
    cases h
    omega
  | err _ => rw [hr] at h; cases h
  | panic => rw [hr] at h; cases h

theorem decodeChunk_consumes {n : Nat} {f : Nat → M (List α)} (hf : Consumes f)
    {len : Nat} {s : Codec} {l s'} (hpos : 0 < len) (h : decodeChunk n f len s = .ok l s') :
    s.off + len ≤ s'.off ∧ s'.off ≤ s.bits.length := by
  unfold decodeChunk at h
  rw [if_pos hpos, M.bind_apply] at h
  have h1 := (IsDec.alignIf (decide (n < len))).reader.frame s
  cases hr : decodeAlignIf (decide (n < len)) s with
  | ok a s1 =>
    rw [hr] at h h1
    have h2 := hf _ _ _ _ h
    obtain ⟨hb, ho, -⟩ := h1
    rw [hb] at h2
    omega
  | err _ => rw [hr] at h; cases h
  | panic => rw [hr] at h; cases h

/-- Enough fuel is as good as any amount of it. -/
theorem fragLoop_fuel {len : M Nat} (hl : IsDec len) (n : Nat) {f : Nat → M (List α)}
    (hf : Consumes f) (hd : ∀ n, IsDec (f n)) :
    ∀ (f1 f2 : Nat) (acc : List α) (s : Codec), s.bits.length - s.off < f1 →
      s.bits.length - s.off < f2 → fragLoop len n f f1 acc s = fragLoop len n f f2 acc s := by
  intro f1
  induction f1 with
  | zero => intro f2 acc s h; omega
  | succ f1 ih =>
    intro f2 acc s h1 h2
    cases f2 with
    | zero => omega
    | succ f2 =>
      simp only [fragLoop]
      rw [M.bind_apply, M.bind_apply]
      have hl1 := hl.reader.frame s
      cases hr : len s with
      | ok a s1 =>
        rw [hr] at hl1
        obtain ⟨hb1, ho1, -⟩ := hl1
        dsimp only
        rw [M.bind_apply, M.bind_apply]
        have hc := (IsDec.chunk n hd a).reader.frame s1
        cases hr2 : decodeChunk n f a s1 with
        | ok l s2 =>
          rw [hr2] at hc
          dsimp only
          rw [M.ite_apply, M.ite_apply]
          split
          · next hge =>
            have h3 := decodeChunk_consumes hf (by omega) hr2
            obtain ⟨hb2, -, -⟩ := hc
            rw [hb1] at hb2
            rw [hb1] at h3
            apply ih <;> rw [hb2] <;> omega
          · rfl
        | err _ => rfl
        | panic => rfl
      | err _ => rfl
      | panic => rfl

/-- More fuel does not change an outcome other than `panic`. -/
theorem fragLoop_mono {len : M Nat} (n : Nat) {f : Nat → M (List α)} :
    ∀ (f1 f2 : Nat) (acc : List α) (s : Codec), f1 ≤ f2 → fragLoop len n f f1 acc s ≠ .panic →
      fragLoop len n f f2 acc s = fragLoop len n f f1 acc s := by
  intro f1
  induction f1 with
  | zero => intro f2 acc s _ h; exact absurd rfl h
  | succ f1 ih =>
    intro f2 acc s hle hne
    cases f2 with
    | zero => omega
    | succ f2 =>
      simp only [fragLoop] at hne ⊢
      rw [M.bind_apply] at hne ⊢
      rw [M.bind_apply]
      cases hr : len s with
      | ok a s1 =>
        rw [hr] at hne
        dsimp only at hne ⊢
        rw [M.bind_apply] at hne ⊢
        rw [M.bind_apply]
        cases hr2 : decodeChunk n f a s1 with
        | ok l s2 =>
          rw [hr2] at hne
          dsimp only at hne ⊢
          rw [M.ite_apply] at hne ⊢
          rw [M.ite_apply]
          split
          · next hge => rw [if_pos hge] at hne; exact ih _ _ _ (by omega) hne
          · rfl
        | err _ => rfl
        | panic => rfl
      | err _ => rfl
      | panic => rfl

theorem decodeFragments_eq {len : M Nat} (hl : IsDec len) (n : Nat) {f : Nat → M (List α)}
    (hf : Consumes f) (hd : ∀ n, IsDec (f n)) (s : Codec) (fuel : Nat)
    (h : s.bits.length < fuel) : decodeFragments len n f s = fragLoop len n f fuel [] s := by
  unfold decodeFragments
  exact fragLoop_fuel hl n hf hd _ _ _ _ (by omega) (by omega)

theorem IsDec.fragments {len : M Nat} (hl : IsDec len) (n : Nat) {f : Nat → M (List α)}
    (hf : Consumes f) (hd : ∀ n, IsDec (f n)) : IsDec (decodeFragments len n f) where
  reader :=
    { frame := fun s => (IsDec.fragLoop hl n hd _ _).reader.frame s
      local_ := by
        intro bits off key a s' h suf
        have h1 := (IsDec.fragLoop hl n hd _ _).reader.local_ _ _ _ _ _ h suf
        unfold decodeFragments
        rw [fragLoop_mono n ((⟨bits, off, key⟩ : Codec).bits.length + 1) _ _ _
          (by simp) (by rw [h1]; simp), h1]
      shift := by
        intro p p' r o k hp
        rw [decodeFragments_eq hl n hf hd _ (p.length + p'.length + r.length + 1)
            (by simp [List.length_append]; omega),
          decodeFragments_eq hl n hf hd ⟨p ++ r, p.length + o, k⟩
            (p.length + p'.length + r.length + 1) (by simp [List.length_append]; omega)]
        exact (IsDec.fragLoop hl n hd _ _).reader.shift p p' r o k hp }
  key := fun s => (IsDec.fragLoop hl n hd _ _).key s

theorem IsDec.bitstring (lb ub : Option Int) (e : Bool) : IsDec (decodeBitstring lb ub e) :=
  .bind (.extBit e) fun x => .fragments (.stringLength x lb ub) 16 getBitvec_consumes .bitvec

theorem IsDec.octetstring (lb ub : Option Int) (e : Bool) : IsDec (decodeOctetstring lb ub e) :=
  .bind (.extBit e) fun x => .fragments (.stringLength x lb ub) 2 getBytes_consumes .bytes

theorem getBitvecStored_apply (n : Nat) (s : Codec) :
    getBitvecStored n s = match takeBits n s with
      | .ok l s' => .ok (s.off % 8, l) s'
      | .err s' => .err s'
      | .panic => .panic := by
  unfold getBitvecStored
  rw [getBitvec_eq, M.bind_apply]
  cases takeBits n s <;> rfl

theorem IsDec.bitvecStored (n : Nat) : IsDec (getBitvecStored n) where
  reader :=
    { frame := fun s => by
        have h := (takeBits_reader n).frame s
        rw [getBitvecStored_apply]
        cases hr : Hampi.takeBits n s <;> rw [hr] at h <;> exact h
      local_ := by
        intro bits off key a s' h suf
        rw [getBitvecStored_apply] at h ⊢
        cases hr : Hampi.takeBits n ⟨bits, off, key⟩ with
        | ok l s1 =>
          rw [hr] at h
          rw [(takeBits_reader n).local_ _ _ _ _ _ hr suf]
          cases h
          rfl
        | err _ => rw [hr] at h; cases h
        | panic => rw [hr] at h; cases h
      shift := by
        intro p p' r o k hp
        rw [getBitvecStored_apply, getBitvecStored_apply, (takeBits_reader n).shift p p' r o k hp]
        have hm : (p'.length + o) % 8 = (p.length + o) % 8 := by omega
        cases Hampi.takeBits n ⟨p ++ r, p.length + o, k⟩ <;> simp only [Res.shift, hm] }
  key := fun s => by
    have h := takeBits_key n s
    rw [getBitvecStored_apply]
    cases hr : Hampi.takeBits n s <;> rw [hr] at h <;> exact h

theorem IsDec.string (lb ub : Option Int) (e : Bool) : IsDec (decodeString lb ub e) := by
  refine .bind (.extBit e) fun x => .bind (.stringLength x lb ub) fun n =>
    .bind (.alignIf _) fun _ => .bind (.bitvecStored _) fun b => ?_
  unfold decodeText
  split
  · exact .pure _
  · exact .fail

end Hampi
