import Verif.Spec.Work
import Verif.Props.MessageSize
/-!
# How much a derived decoder does: a bound by induction on the type
-/
namespace Hampi

variable {α β : Type} {st : Bool}

/-- `b` and `r` for each bit consumed, or `f` and `r` for each bit that is left if there is no result; all in units of
`1 / K`. -/
def Spent (K b f r : Nat) (s : Codec) : Res α → Nat
  | .ok _ s' => K * b + r * (s'.off - s.off)
  | .err _ | .panic => K * f + r * (s.bits.length - s.off)

/-- Panics are looked at only if this is `strict`. -/
def Counts (strict : Bool) (x : Res α) : Prop := strict = true ∨ x ≠ .panic

/-- What is done is within this bound. -/
def Working (strict : Bool) (dec : M α) (work : Codec → Nat) (K b f r : Nat) : Prop :=
  ∀ s, s.off ≤ s.bits.length → Counts strict (dec s) → K * work s ≤ Spent K b f r s (dec s)

theorem Counts.first {strict : Bool} {m : M α} {g : α → M β} {s : Codec} (h : Counts strict ((m >>= g) s)) :
    Counts strict (m s) := by
  rcases h with h | h
  · exact .inl h
  · refine .inr fun hm => h ?_
    rw [M.bind_apply, hm]

theorem Counts.then {strict : Bool} {m : M α} {g : α → M β} {s s1 : Codec} {a : α} (h : Counts strict ((m >>= g) s))
    (hm : m s = .ok a s1) : Counts strict (g a s1) := by
  rw [M.bind_apply, hm] at h
  exact h

namespace Working

theorem one {dec : M α} {work : Codec → Nat} (hw : ∀ s, work s = 1) (K r : Nat) : Working st dec work K 1 1 r := by
  intro s _ _
  rw [hw]
  cases dec s <;> simp only [Spent] <;> omega

theorem more {dec : M α} {work : Codec → Nat} {K b f r b' f' r' : Nat} (h : Working st dec work K b f r) (hb : b ≤ b')
    (hf : f ≤ f') (hr : r ≤ r') : Working st dec work K b' f' r' := by
  intro s hs hc
  refine Nat.le_trans (h s hs hc) ?_
  cases dec s with
  | ok v s' => exact Nat.add_le_add (Nat.mul_le_mul_left K hb) (Nat.mul_le_mul_right _ hr)
  | err s' => exact Nat.add_le_add (Nat.mul_le_mul_left K hf) (Nat.mul_le_mul_right _ hr)
  | panic => exact Nat.add_le_add (Nat.mul_le_mul_left K hf) (Nat.mul_le_mul_right _ hr)

/-- Results do not matter. -/
theorem map {dec : M α} {work : Codec → Nat} {K b f r : Nat} (h : Working st dec work K b f r) (g : α → β) :
    Working st (dec >>= fun v => Pure.pure (g v)) work K b f r := by
  intro s hs hc
  have := h s hs hc.first
  rw [M.bind_apply]
  cases hd : dec s with
  | ok v s' => rw [hd] at this; exact this
  | err s' => rw [hd] at this; exact this
  | panic => rw [hd] at this; exact this

/-- The states a reader leaves. -/
theorem steps {m : M α} (hm : IsReader m) {s s1 : Codec} {a : α} (h : m s = .ok a s1) :
    s1.bits = s.bits ∧ s.off ≤ s1.off ∧ (s.off ≤ s.bits.length → s1.off ≤ s.bits.length) := by
  have := hm.frame s
  rw [h] at this
  exact this

theorem later {K b f r : Nat} {s s1 : Codec} (h1 : s1.bits = s.bits) (h2 : s.off ≤ s1.off) (x : Res α) :
    Spent K b f r s1 x ≤ Spent K b f r s x := by
  cases x with
  | ok v s' => exact Nat.add_le_add_left (Nat.mul_le_mul_left r (by omega)) _
  | err s' =>
    simp only [Spent]
    rw [h1]
    exact Nat.add_le_add_left (Nat.mul_le_mul_left r (by omega)) _
  | panic =>
    simp only [Spent]
    rw [h1]
    exact Nat.add_le_add_left (Nat.mul_le_mul_left r (by omega)) _

/-- A header first, which counts one. -/
theorem header {m : M α} {g : α → M β} {w : α → Codec → Nat} {K b f r : Nat} (hm : IsReader m)
    (hg : ∀ a, Working st (g a) (w a) K b f r) :
    Working st (m >>= g) (fun s => 1 + after m w s) K (1 + b) (1 + f) r := by
  intro s hs hc
  rw [M.bind_apply]
  show K * (1 + after m w s) ≤ _
  unfold after
  cases h : m s with
  | ok a s1 =>
    obtain ⟨h1, h2, h3⟩ := steps hm h
    have := Nat.le_trans (hg a s1 (by rw [h1]; exact h3 hs) (hc.then h)) (later h1 h2 _)
    dsimp only
    rw [Nat.mul_add]
    cases hd : g a s1 with
    | ok v s' => rw [hd] at this; simp only [Spent] at this ⊢; rw [Nat.mul_add]; omega
    | err s' => rw [hd] at this; simp only [Spent] at this ⊢; rw [Nat.mul_add]; omega
    | panic => rw [hd] at this; simp only [Spent] at this ⊢; rw [Nat.mul_add]; omega
  | err s1 => simp only [Spent]; rw [Nat.mul_add, Nat.mul_add]; omega
  | panic => simp only [Spent]; rw [Nat.mul_add, Nat.mul_add]; omega

/-- The same without counting. -/
theorem header' {m : M α} {g : α → M β} {w : α → Codec → Nat} {K b f r : Nat} (hm : IsReader m)
    (hg : ∀ a, Working st (g a) (w a) K b f r) : Working st (m >>= g) (after m w) K b f r := by
  intro s hs hc
  rw [M.bind_apply]
  unfold after
  cases h : m s with
  | ok a s1 =>
    obtain ⟨h1, h2, h3⟩ := steps hm h
    exact Nat.le_trans (hg a s1 (by rw [h1]; exact h3 hs) (hc.then h)) (later h1 h2 _)
  | err s1 => exact Nat.zero_le _
  | panic => exact Nat.zero_le _

/-- One after the other. -/
theorem both {m : M α} {g : α → M β} {w0 : Codec → Nat} {w : α → Codec → Nat} {K b f b' f' r : Nat} (hm : IsReader m)
    (hg' : ∀ a, IsReader (g a)) (h0 : Working st m w0 K b f r) (hg : ∀ a, Working st (g a) (w a) K b' f' r) :
    Working st (m >>= g) (fun s => w0 s + after m w s) K (b + b') (max f (b + f')) r := by
  intro s hs hc
  rw [M.bind_apply]
  show K * (w0 s + after m w s) ≤ _
  have a0 := h0 s hs hc.first
  unfold after
  cases h : m s with
  | ok a s1 =>
    obtain ⟨h1, h2, h3⟩ := steps hm h
    have a1 := hg a s1 (by rw [h1]; exact h3 hs) (hc.then h)
    rw [h] at a0
    dsimp only
    rw [Nat.mul_add]
    simp only [Spent] at a0
    have hf := Nat.mul_le_mul_left K (Nat.le_max_right f (b + f'))
    rw [Nat.mul_add] at hf
    have rest : ∀ x : Res β, (x = .panic ∨ ∃ s', x = .err s') → g a s1 = x →
        K * w0 s + K * w a s1 ≤ Spent K (b + b') (max f (b + f')) r s x := by
      intro x hx he
      rw [he] at a1
      have e : s.bits.length - s.off = (s1.off - s.off) + (s1.bits.length - s1.off) := by
        have := h3 hs
        rw [h1]; omega
      rcases hx with rfl | ⟨s', rfl⟩
      · simp only [Spent] at a1 ⊢
        rw [e, Nat.mul_add]; omega
      · simp only [Spent] at a1 ⊢
        rw [e, Nat.mul_add]; omega
    cases hd : g a s1 with
    | ok v s' =>
      rw [hd] at a1
      obtain ⟨-, h4, -⟩ := steps (hg' a) hd
      simp only [Spent] at a1 ⊢
      have e : s'.off - s.off = (s1.off - s.off) + (s'.off - s1.off) := by omega
      rw [e, Nat.mul_add, Nat.mul_add]
      omega
    | err s' => exact rest _ (.inr ⟨s', rfl⟩) hd
    | panic => exact rest _ (.inl rfl) hd
  | err s1 =>
    rw [h] at a0
    have hf := Nat.mul_le_mul_left K (Nat.le_max_left f (b + f'))
    simp only [Spent] at a0 ⊢
    rw [Nat.mul_add]
    omega
  | panic =>
    rw [h] at a0
    have hf := Nat.mul_le_mul_left K (Nat.le_max_left f (b + f'))
    simp only [Spent] at a0 ⊢
    rw [Nat.mul_add]
    omega

/-- A loop over elements of at least `m` bits. -/
theorem timesLeast {dec : M α} {work : Codec → Nat} {K b f r m q : Nat} (hd : IsReader dec)
    (h : Working st dec work K b f r) (ht : Takes dec m) (hq : K * b ≤ q * m) :
    (n : Nat) → Working st (decodeTimes dec n) (workTimes dec work n) K 0 f (q + r)
  | 0 => by
    intro s _ _
    show K * 0 ≤ _
    omega
  | n + 1 => by
    intro s hs hc
    have hc : Counts st ((dec >>= fun x => decodeTimes dec n >>= fun xs => Pure.pure (f := M) (x :: xs)) s) := hc
    have a0 := h s hs hc.first
    show K * (work s + after dec (fun _ => workTimes dec work n) s) ≤
      Spent K 0 f (q + r) s ((dec >>= fun x => decodeTimes dec n >>= fun xs => pure (x :: xs)) s)
    rw [M.bind_apply]
    unfold after
    cases hr : dec s with
    | ok x s1 =>
      obtain ⟨h1, h2, h3⟩ := steps hd hr
      have hk : s.off + m ≤ s1.off := ht _ _ _ hr
      have a1 := timesLeast hd h ht hq n s1 (by rw [h1]; exact h3 hs) (hc.then hr).first
      rw [hr] at a0
      dsimp only
      rw [M.bind_apply, Nat.mul_add]
      simp only [Spent] at a0
      have a2 : K * b + r * (s1.off - s.off) ≤ (q + r) * (s1.off - s.off) := by
        rw [Nat.add_mul]
        have : q * m ≤ q * (s1.off - s.off) := Nat.mul_le_mul_left q (by omega)
        omega
      have e : s.bits.length - s.off = (s1.off - s.off) + (s1.bits.length - s1.off) := by
        have := h3 hs
        rw [h1]; omega
      cases hx : decodeTimes dec n s1 with
      | ok xs s' =>
        rw [hx] at a1
        have h4 : s1.off ≤ s'.off := (steps (IsReader.decodeTimes hd n) hx).2.1
        show _ ≤ K * 0 + (q + r) * (s'.off - s.off)
        simp only [Spent] at a1
        have e : s'.off - s.off = (s1.off - s.off) + (s'.off - s1.off) := by omega
        rw [e, Nat.mul_add]
        omega
      | err s' =>
        rw [hx] at a1
        simp only [Spent] at a1 ⊢
        rw [e, Nat.mul_add]; omega
      | panic =>
        rw [hx] at a1
        simp only [Spent] at a1 ⊢
        rw [e, Nat.mul_add]; omega
    | err s1 =>
      rw [hr] at a0
      simp only [Spent] at a0 ⊢
      rw [Nat.add_mul, Nat.add_zero]; omega
    | panic =>
      rw [hr] at a0
      simp only [Spent] at a0 ⊢
      rw [Nat.add_mul, Nat.add_zero]; omega

/-- A loop over elements that need not take bits. -/
theorem timesCount {dec : M α} {work : Codec → Nat} {K b f r : Nat} (hd : IsReader dec) (h : Working st dec work K b f r) :
    (n : Nat) → Working st (decodeTimes dec n) (workTimes dec work n) K (n * b) (n * b + f) r
  | 0 => by
    intro s _ _
    show K * 0 ≤ _
    omega
  | n + 1 => by
    have a := both (g := fun x => decodeTimes dec n >>= fun xs => pure (x :: xs)) hd
      (fun x => .bind (IsReader.decodeTimes hd n) fun _ => .pure _) h
      (w := fun _ => workTimes dec work n) (fun x => (timesCount hd h n).map _)
    refine a.more ?_ ?_ (Nat.le_refl _)
    · rw [Nat.add_mul]; omega
    · rw [Nat.add_mul]
      exact Nat.max_le.mpr ⟨by omega, by omega⟩

/-- The loop of a list, whatever its length. -/
theorem loopLeast {dec : M α} {work : Codec → Nat} {K b f r m q : Nat} (hd : IsReader dec)
    (h : Working st dec work K b f r) (ht : Takes dec m) (hq : K * b ≤ q * m) (n : Nat) :
    Working st (decodeLoop dec n) (workTimes dec work (if n = 0 then 2 ^ 64 else n)) K 0 f (q + r) := by
  unfold decodeLoop
  by_cases hn : n = 0
  · rw [if_pos hn, if_pos hn]
    generalize 2 ^ 64 = many
    intro s hs hc
    have a := timesLeast hd h ht hq many s hs hc.first
    rw [M.bind_apply]
    cases hx : decodeTimes dec many s with
    | ok v s' =>
      rw [hx] at a
      have h3 := (steps (IsReader.decodeTimes hd many) hx).2.2 hs
      show _ ≤ K * f + (q + r) * (s.bits.length - s.off)
      simp only [Spent] at a
      have : (q + r) * (s'.off - s.off) ≤ (q + r) * (s.bits.length - s.off) := Nat.mul_le_mul_left _ (by omega)
      omega
    | err s' => rw [hx] at a; exact a
    | panic => rw [hx] at a; exact a
  · rw [if_neg hn, if_neg hn]
    exact timesLeast hd h ht hq n

end Working

/-! ## Types -/

mutual

/-- What is done up to an error, without what bits stand for. -/
def Ty.most : Ty → Nat
  | .boolean | .null | .integer .. | .enumerated .. | .bitstring .. | .octetstring ..
  | .charstring .. | .objectIdentifier => 1
  | .sequenceOf _ _ _ e => 1 + e.most
  | .sequence _ _ fs => 1 + fs.most
  | .choice _ _ _ as | .openType as => 1 + as.most

/-- One of the fields fails, the ones before do not. -/
def Fields.most : Fields → Nat
  | .nil => 0
  | .required _ t rest => max t.most (t.base + rest.most)
  | .optional _ t rest => 1 + max t.most (t.base + rest.most)

/-- The maximum. -/
def Alts.most : Alts → Nat
  | .nil => 0
  | .cons _ _ t rest => max t.most rest.most

end

mutual

/-- A bit stands for at most `r`, in units of `1 / K`: the elements of each list take bits enough, or its length does and
is not 0, or 0 elements are a panic. -/
def Ty.Limited (strict : Bool) (K : Nat) : Ty → Nat → Prop
  | .sequenceOf lb ub ext e, r => ∃ q r', q + r' ≤ r ∧ e.Limited strict K r' ∧
      ((∃ m, Takes e.decode m ∧ K * e.base ≤ q * m) ∨
        wide lb ub ext = true ∧ (1 ≤ lb.getD 0 ∨ strict = false ∧ ∀ s, ∃ v, e.decode s = .ok v s) ∧ K * ((65535 + (lb.getD 0).toNat) * e.base) ≤ q * 16)
  | .sequence _ _ fs, r => fs.Limited strict K r
  | .choice _ _ _ as, r | .openType as, r => as.Limited strict K r
  | .boolean, _ | .null, _ | .integer .., _ | .enumerated .., _ | .bitstring .., _ | .octetstring .., _
  | .charstring .., _ | .objectIdentifier, _ => True

/-- In all fields. -/
def Fields.Limited (strict : Bool) (K : Nat) : Fields → Nat → Prop
  | .nil, _ => True
  | .required _ t rest, r | .optional _ t rest, r => t.Limited strict K r ∧ rest.Limited strict K r

/-- In all variants. -/
def Alts.Limited (strict : Bool) (K : Nat) : Alts → Nat → Prop
  | .nil, _ => True
  | .cons _ _ t rest, r => t.Limited strict K r ∧ rest.Limited strict K r

end

/-- A length of 16 bits is at least the lower bound. -/
theorem decodeLength_wide_ge {lb ub : Option Int} {ext : Bool} (h : wide lb ub ext = true) {s t : Codec}
    {n : Nat} (hs : decodeLength lb ub ext s = .ok n t) : (lb.getD 0).toNat ≤ n := by
  unfold wide at h
  split at h
  · next l u =>
    simp only [Bool.and_eq_true, Bool.not_eq_true', decide_eq_true_eq] at h
    obtain ⟨rfl, h0, h1, h2⟩ := h
    have hb : Spec.SizeBounds (some l) (some u) := by
      constructor <;> intro x hx <;> cases hx <;> omega
    have hu := hb.2 u rfl
    unfold decodeLength at hs
    rw [if_neg (by decide), lengthLowerBound_eq hb, M.pure_bind'] at hs
    dsimp only at hs
    have e : toUsizeOrPanic u = Pure.pure u.toNat := by unfold toUsizeOrPanic; rw [if_pos hu]
    rw [e, M.pure_bind', if_pos (by omega)] at hs
    simp only [Option.getD_some] at hs ⊢
    rw [if_neg (by omega)] at hs
    unfold decodeConstrainedLength at hs
    rw [if_neg (by omega), if_pos (by omega)] at hs
    obtain ⟨v, t2, h3, h4⟩ := bind_ok hs
    unfold decodeConstrained at h3
    rw [decodeConstrainedWith_eq _ (R := u.toNat - l.toNat + 1) (by omega) (by omega) (by omega)] at h3
    obtain ⟨a, t3, h5, rfl⟩ := chk_ok h3
    obtain ⟨h6, -, h7⟩ := decodeField_small_range (by omega) h5
    have h9 : asUsize (a + (l.toNat : Int)) = n := by injection h4
    unfold asUsize at h9
    omega
  · cases h

mutual

theorem Ty.working (K : Nat) : (t : Ty) → (r : Nat) → t.Limited st K r → Working st t.decode t.work K t.base t.most r
  | .boolean, r, _ => .one (fun _ => rfl) K r
  | .null, r, _ => .one (fun _ => rfl) K r
  | .integer .., r, _ => .one (fun _ => rfl) K r
  | .enumerated .., r, _ => .one (fun _ => rfl) K r
  | .bitstring .., r, _ => .one (fun _ => rfl) K r
  | .octetstring .., r, _ => .one (fun _ => rfl) K r
  | .charstring .., r, _ => .one (fun _ => rfl) K r
  | .objectIdentifier, r, _ => .one (fun _ => rfl) K r
  | .sequence ext n fs, r, h =>
    .header (w := fun h => fs.work h.1) (IsDec.sequenceHeader ext n).reader fun a => fs.working K r h a.1
  | .choice lb ub ext as, r, h => by
    refine .header (w := fun x s1 => if x.2 then 0 else as.work x.1 s1) (IsDec.choiceIdx lb ub ext).reader
      fun a => ?_
    obtain ⟨k, x⟩ := a
    cases x with
    | false => exact as.working K r h k
    | true => intro s _ _; show K * 0 ≤ _; omega
  | .openType as, r, h =>
    .header (w := fun _ => after requireKey as.work) (IsDec.length none none false).reader
      fun _ => .header' IsReader.requireKey fun k => as.working K r h k
  | .sequenceOf lb ub ext e, r, h => by
    obtain ⟨q, r', hr, he, h⟩ := h
    have ih := e.working K r' he
    have hd := e.decode_reader
    rcases h with ⟨m, ht, hq⟩ | ⟨hw, h1, hq⟩
    · have a := Working.header (K := K) (b := 0) (f := e.most) (r := q + r')
        (w := fun n => workTimes e.decode e.work (if n = 0 then 2 ^ 64 else n)) (IsDec.length lb ub ext).reader
        (fun n => Working.loopLeast hd ih ht hq n)
      exact a.more (Nat.le_refl _) (Nat.le_refl _) hr
    · intro s hs hc
      have hc : Counts st ((decodeLength lb ub ext >>= fun n => decodeLoop e.decode n) s) := hc
      show K * (1 + after (decodeLength lb ub ext) _ s) ≤
        Spent _ _ _ _ s ((decodeLength lb ub ext >>= fun n => decodeLoop e.decode n) s)
      rw [M.bind_apply]
      unfold after
      show _ ≤ Spent K 1 (1 + e.most) r s _
      cases hl : decodeLength lb ub ext s with
      | ok n s1 =>
        obtain ⟨a1, a2, a3⟩ := Working.steps (IsDec.length lb ub ext).reader hl
        obtain ⟨b1, b2⟩ := decodeLength_wide hw hl
        have b3 := decodeLength_wide_ge hw hl
        have hc := hc.then hl
        have hn : n ≠ 0 := by
          rintro rfl
          rcases h1 with h1 | ⟨rfl, h1⟩
          · omega
          · rcases hc with hc | hc
            · cases hc
            · exact hc (spins h1 s1)
        have hc : Counts st (decodeTimes e.decode n s1) := by
          have e1 : decodeLoop e.decode n = decodeTimes e.decode n := if_neg hn
          rw [e1] at hc
          exact hc
        dsimp only
        have a := Working.timesCount hd ih n s1 (by rw [a1]; exact a3 hs) hc
        unfold decodeLoop
        rw [if_neg hn, if_neg hn, Nat.mul_add]
        have c1 : K * (n * e.base) ≤ q * 16 :=
          Nat.le_trans (Nat.mul_le_mul_left K (Nat.mul_le_mul_right _ b2)) hq
        have c2 : q * 16 ≤ q * (s1.off - s.off) := Nat.mul_le_mul_left q (by omega)
        have rest : ∀ x : Res (List e.Val), (x = .panic ∨ ∃ s', x = .err s') → decodeTimes e.decode n s1 = x →
            K * 1 + K * workTimes e.decode e.work n s1 ≤ Spent K 1 (1 + e.most) r s x := by
          intro x hx he
          rw [he] at a
          have e1 : s.bits.length - s.off = (s1.off - s.off) + (s1.bits.length - s1.off) := by
            have := a3 hs
            rw [a1]; omega
          have c3 := Nat.mul_le_mul_right (s.bits.length - s.off) hr
          rw [Nat.add_mul] at c3
          have c4 : q * (s1.off - s.off) ≤ q * (s.bits.length - s.off) := Nat.mul_le_mul_left q (by omega)
          have c5 : r' * (s1.bits.length - s1.off) ≤ r' * (s.bits.length - s.off) := Nat.mul_le_mul_left r' (by omega)
          rcases hx with rfl | ⟨s', rfl⟩
          · simp only [Spent] at a ⊢
            rw [Nat.mul_add] at a ⊢
            omega
          · simp only [Spent] at a ⊢
            rw [Nat.mul_add] at a ⊢
            omega
        cases hx : decodeTimes e.decode n s1 with
        | ok v s' =>
          rw [hx] at a
          have h4 := (Working.steps (IsReader.decodeTimes hd n) hx).2.1
          simp only [Spent] at a ⊢
          have c3 := Nat.mul_le_mul_right (s'.off - s.off) hr
          rw [Nat.add_mul] at c3
          have c4 : q * (s1.off - s.off) ≤ q * (s'.off - s.off) := Nat.mul_le_mul_left q (by omega)
          have c5 : r' * (s'.off - s1.off) ≤ r' * (s'.off - s.off) := Nat.mul_le_mul_left r' (by omega)
          omega
        | err s' => exact rest _ (.inr ⟨s', rfl⟩) hx
        | panic => exact rest _ (.inl rfl) hx
      | err s1 => simp only [Spent]; rw [Nat.mul_add, Nat.mul_add]; omega
      | panic => simp only [Spent]; rw [Nat.mul_add, Nat.mul_add]; omega

theorem Fields.working (K : Nat) : (fs : Fields) → (r : Nat) → fs.Limited st K r → (bm : List Bool) →
    Working st (fs.decode bm) (fs.work bm) K fs.base fs.most r
  | .nil, _, _, _ => by intro s _ _; show K * 0 ≤ _; omega
  | .required k t rest, r, h, bm =>
    .both (w := fun v => after (setKeyFrom k t v) (fun _ => rest.work bm)) t.decode_reader
      (fun v => .bind (IsReader.setKeyFrom k t v) fun _ => .bind (rest.decode_reader bm) fun _ => .pure _)
      (t.working K r h.1) (fun v => .header' (IsReader.setKeyFrom k t v) fun _ => (rest.working K r h.2 bm).map _)
  | .optional i t rest, r, h, bm => by
    have a := Working.both (g := fun v => rest.decode bm >>= fun vs => Pure.pure (f := M) (some v, vs))
      (w := fun _ => rest.work bm) t.decode_reader (fun v => .bind (rest.decode_reader bm) fun _ => .pure _)
      (t.working K r h.1) (fun v => (rest.working K r h.2 bm).map _)
    have a' := (rest.working K r h.2 bm).map fun vs => ((none : Option t.Val), vs)
    intro s hs hc
    have ha := a s hs
    have ha' := a' s hs
    simp only [Fields.decode, Fields.work, Fields.base, Fields.most] at hc ⊢
    rw [M.bind_apply] at hc ⊢
    unfold present at hc ⊢
    cases hb : bm[i]? with
    | none => simp only [M.panic, Spent]; rw [Nat.mul_add]; omega
    | some b =>
      have hm := Nat.mul_le_mul_left K (Nat.le_max_right t.most (t.base + rest.most))
      rw [Nat.mul_add] at hm
      cases b with
      | true =>
        show K * (1 + t.work s + after t.decode (fun _ => rest.work bm) s) ≤
          Spent K (1 + t.base + rest.base) (1 + max t.most (t.base + rest.most)) r s _
        have e : ((if true = true then t.decode >>= fun x => Pure.pure (f := M) (some x) else pure none) >>= fun v =>
            rest.decode bm >>= fun vs => Pure.pure (f := M) (v, vs)) s =
            (t.decode >>= fun v => rest.decode bm >>= fun vs => Pure.pure (f := M) (some v, vs)) s := by
          rw [if_pos rfl, M.bind_apply, M.bind_apply, M.bind_apply]
          cases t.decode s <;> rfl
        show _ ≤ Spent _ _ _ _ s (((if true = true then t.decode >>= fun x => Pure.pure (f := M) (some x) else pure none)
          >>= fun v => rest.decode bm >>= fun vs => Pure.pure (f := M) (v, vs)) s)
        have ha := ha (by
          rw [hb] at hc
          rw [← e]
          exact hc)
        rw [e]
        rw [Nat.add_assoc, Nat.mul_add]
        cases hx : (t.decode >>= fun v => rest.decode bm >>= fun vs => Pure.pure (f := M) (some v, vs)) s with
        | ok v s' => rw [hx] at ha; simp only [Spent] at ha ⊢; rw [Nat.add_assoc, Nat.mul_add K 1]; omega
        | err s' => rw [hx] at ha; simp only [Spent] at ha ⊢; rw [Nat.mul_add K 1]; omega
        | panic => rw [hx] at ha; simp only [Spent] at ha ⊢; rw [Nat.mul_add K 1]; omega
      | false =>
        show K * (1 + rest.work bm s) ≤
          Spent K (1 + t.base + rest.base) (1 + max t.most (t.base + rest.most)) r s
            ((rest.decode bm >>= fun vs => Pure.pure (f := M) ((none : Option t.Val), vs)) s)
        have ha' := ha' (by rw [hb] at hc; exact hc)
        rw [Nat.mul_add]
        cases hx : (rest.decode bm >>= fun vs => Pure.pure (f := M) ((none : Option t.Val), vs)) s with
        | ok v s' => rw [hx] at ha'; simp only [Spent] at ha' ⊢; rw [Nat.mul_add, Nat.mul_add]; omega
        | err s' => rw [hx] at ha'; simp only [Spent] at ha' ⊢; rw [Nat.mul_add K 1]; omega
        | panic => rw [hx] at ha'; simp only [Spent] at ha' ⊢; rw [Nat.mul_add K 1]; omega

theorem Alts.working (K : Nat) : (as : Alts) → (r : Nat) → as.Limited st K r → (key : Int) →
    Working st (as.decode key) (as.work key) K as.base as.most r
  | .nil, _, _, _ => by intro s _ _; show K * 0 ≤ _; omega
  | .cons k x t rest, r, h, key => by
    unfold Alts.decode
    by_cases hk : key = k
    · rw [if_pos hk]
      have a := ((t.working K r h.1).map (Sum.inl (β := rest.Val))).more (Nat.le_max_left t.base rest.base)
        (Nat.le_max_left t.most rest.most) (Nat.le_refl r)
      intro s hs hc
      have := a s hs hc
      simp only [Alts.work, if_pos hk]
      exact this
    · rw [if_neg hk]
      have a := ((rest.working K r h.2 key).map (Sum.inr (α := t.Val))).more (Nat.le_max_right t.base rest.base)
        (Nat.le_max_right t.most rest.most) (Nat.le_refl r)
      intro s hs hc
      have := a s hs hc
      simp only [Alts.work, if_neg hk]
      exact this

end

end Hampi
