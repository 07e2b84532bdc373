import Verif.Lemmas.Takes
/-!
# C105, C106: derived decoders on hostile octets
-/
namespace Hampi

open Spec (SizeBounds)

variable {α β : Type}

/-! ## What a value occupies -/

theorem decodeTimes_takes {dec : M α} (h : Takes dec 1) : (n : Nat) → Takes (decodeTimes dec n) n
  | 0 => by intro s a s' h; cases h; exact Nat.le_refl _
  | n + 1 => by
    intro s v s' hs
    obtain ⟨x, t, h1, hs⟩ := bind_ok hs
    obtain ⟨xs, t2, h2, hs⟩ := bind_ok hs
    cases hs
    have a1 : s.off + 1 ≤ t.off := h _ _ _ h1
    have a2 : t.off + n ≤ s'.off := decodeTimes_takes h n _ _ _ h2
    show s.off + (n + 1) ≤ s'.off
    omega

mutual

theorem Ty.takes : (t : Ty) → t.solid = true → Takes t.decode 1
  | .boolean, _ => Costs.boolM
  | .null, h => by cases h
  | .integer w lb ub ext, h => Costs.left (Costs.integer h) fun _ => .pure _
  | .enumerated w lb ub ext, h => Costs.left (Costs.enumerated h) fun _ => .pure _
  | .bitstring lb ub ext, h => Costs.bitstringTakes h
  | .octetstring lb ub ext, h => Costs.octetstringTakes h
  | .charstring k lb ub ext, h => Costs.charstringTakes k h
  | .objectIdentifier, _ => Costs.fail
  | .sequence ext n fs, h => by
    rcases Bool.or_eq_true_iff.mp h with h | h
    · exact Costs.left (Costs.header h) fun r => fs.decode_reader r.1
    · exact Costs.right (IsDec.sequenceHeader ext n).reader fun r => fs.takes h r.1
  | .sequenceOf lb ub ext e, h => by
    rcases Bool.or_eq_true_iff.mp h with h | h
    · exact Costs.left (Costs.length h) fun n => .decodeLoop e.decode_reader n
    · refine Costs.right (IsDec.length lb ub ext).reader fun n => ?_
      intro s v s' hs
      obtain ⟨hn, hs⟩ := decodeLoop_ok hs
      have := decodeTimes_takes (e.takes h) n _ _ _ hs
      show s.off + 1 ≤ s'.off
      have : s.off + n ≤ s'.off := this
      omega
  | .choice lb ub ext as, h => by
    rcases Bool.or_eq_true_iff.mp h with h | h
    · exact Costs.left (Costs.choiceIdx h) fun r => .ite (as.decode_reader r.1) .fail
    · exact Costs.right (IsDec.choiceIdx lb ub ext).reader fun r =>
        Costs.ite (fun _ => as.takes h r.1) fun _ => Costs.fail
  | .openType as, _ =>
    Costs.left (Costs.length (lb := none) (ub := none) rfl) fun _ =>
      .bind .requireKey fun k => as.decode_reader k

theorem Fields.takes : (fs : Fields) → fs.solid = true → (bm : List Bool) → Takes (fs.decode bm) 1
  | .nil, h, _ => by cases h
  | .required k t rest, h, bm => by
    rcases Bool.or_eq_true_iff.mp h with h | h
    · exact Costs.left (t.takes h) fun v => .bind (.setKeyFrom k t v) fun _ =>
        .bind (rest.decode_reader bm) fun _ => .pure _
    · exact Costs.right t.decode_reader fun v => Costs.right (.setKeyFrom k t v) fun _ =>
        Costs.left (rest.takes h bm) fun _ => .pure _
  | .optional i t rest, h, bm =>
    Costs.right (.present bm i) fun _ =>
      Costs.right (.ite (.bind t.decode_reader fun _ => .pure _) (.pure _)) fun _ =>
        Costs.left (rest.takes h bm) fun _ => .pure _

theorem Alts.takes : (as : Alts) → as.solid = true → (key : Int) → Takes (as.decode key) 1
  | .nil, _, _ => Costs.fail
  | .cons k x t rest, h, key =>
    have h := Bool.and_eq_true_iff.mp h
    Costs.ite (fun _ => Costs.left (t.takes h.1) fun _ => .pure _)
      fun _ => Costs.left (rest.takes h.2 key) fun _ => .pure _

end

/-! ## C105 -/

/-- No panic on octet buffers that fit the address space. -/
def Firm (m : M α) : Prop := ∀ s, OctetBuffer s → s.bits.length < 2 ^ 64 → m s ≠ .panic

theorem Firm.of {m : M α} (h : Safe m) : Firm m := fun s hs _ => h s hs

theorem Firm.bind' {m : M α} {g : α → M β} (hd : IsReader m) (hm : Firm m)
    (hg : ∀ a s s', m s = .ok a s' → Firm (g a)) : Firm (m >>= g) := by
  intro s hs hl h
  rw [M.bind_apply] at h
  cases hr : m s with
  | ok a t =>
    rw [hr] at h
    have hf := hd.frame s
    rw [hr] at hf
    obtain ⟨h1, -, h3⟩ := hf
    refine hg a _ _ hr t ⟨?_, ?_⟩ ?_ h <;> rw [h1]
    · exact h3 hs.1
    · exact hs.2
    · exact hl
  | err t => rw [hr] at h; cases h
  | panic => exact hm s hs hl hr

theorem Firm.bind {m : M α} {g : α → M β} (hd : IsReader m) (hm : Firm m) (hg : ∀ a, Firm (g a)) :
    Firm (m >>= g) := Firm.bind' hd hm fun a _ _ _ => hg a

theorem Firm.pure (a : α) : Firm (Pure.pure a : M α) := .of (.pure a)

theorem Firm.times {dec : M α} (hd : IsReader dec) (h : Firm dec) : (n : Nat) → Firm (decodeTimes dec n)
  | 0 => .pure _
  | n + 1 => .bind hd h fun _ => .bind (.decodeTimes hd n) (Firm.times hd h n) fun _ => .pure _

theorem Firm.loop {dec : M α} (hd : IsReader dec) (h : Firm dec) {n : Nat} (hc : Takes dec 1 ∨ n ≠ 0) :
    Firm (decodeLoop dec n) := by
  unfold decodeLoop
  by_cases hn : n = 0
  · rw [if_pos hn]
    have ht := hc.resolve_right (fun h => h hn)
    intro s hs hl hp
    rw [M.bind_apply] at hp
    cases hr : decodeTimes dec (2 ^ 64) s with
    | ok v t =>
      have h1 : s.off + 2 ^ 64 ≤ t.off := decodeTimes_takes ht _ _ _ _ hr
      have h2 := (IsReader.decodeTimes hd (2 ^ 64)).frame s
      rw [hr] at h2
      have := h2.2.2 hs.1
      omega
    | err t => rw [hr] at hp; cases hp
    | panic => exact Firm.times hd h _ s hs hl hr
  · rw [if_neg hn]
    exact Firm.times hd h n

theorem Firm.ite {c : Prop} [Decidable c] {a b : M α} (ha : c → Firm a) (hb : ¬ c → Firm b) :
    Firm (if c then a else b) := by
  split
  · next h => exact ha h
  · next h => exact hb h

theorem Firm.header (e : Bool) (n : Nat) : Firm (decodeSequenceHeader e n) := by
  refine .of (.bind (.extBit e) (.extBit e) fun _ => .bind ?_ ?_ fun _ => .pure _)
  · unfold decodeBitmap; exact .ite (.bitvec _) (.pure _)
  · unfold decodeBitmap; exact .ite (fun _ => .bitvec _) fun _ => .pure _

/-- The bitmap has the size asked for. -/
theorem decodeSequenceHeader_length {e : Bool} {n : Nat} {s t : Codec} {r : List Bool × Bool}
    (h : decodeSequenceHeader e n s = .ok r t) : r.1.length = n := by
  obtain ⟨x, t1, -, h⟩ := bind_ok h
  obtain ⟨b, t2, h2, h⟩ := bind_ok h
  cases h
  unfold decodeBitmap at h2
  by_cases hn : 0 < n
  · rw [if_pos hn, getBitvec_eq] at h2
    exact (takeBits_length h2).1
  · rw [if_neg hn] at h2
    cases h2
    simp; omega

/-- A constrained length that is read is not below its lower bound. -/
theorem decodeLength_pos {l u : Int} (hs : SizeSane (some l) (some u)) (h1 : 1 ≤ l) (h2 : u < 65536)
    {s t : Codec} {n : Nat} (h : decodeLength (some l) (some u) false s = .ok n t) : n ≠ 0 := by
  have hb := hs.1
  have hl := hb.1 l rfl
  have hu := hb.2 u rfl
  have hlu := hs.2 l u rfl rfl
  unfold decodeLength at h
  rw [if_neg (by decide), lengthLowerBound_eq hb, M.pure_bind'] at h
  dsimp only at h
  have e : toUsizeOrPanic u = Pure.pure u.toNat := by unfold toUsizeOrPanic; rw [if_pos hu]
  rw [e, M.pure_bind', if_pos (by omega)] at h
  simp only [Option.getD_some] at h
  by_cases heq : l.toNat = u.toNat
  · rw [if_pos heq] at h
    cases h
    omega
  · rw [if_neg heq] at h
    unfold decodeConstrainedLength at h
    rw [if_neg (by omega), if_pos (by omega)] at h
    obtain ⟨v, t2, h3, h4⟩ := bind_ok h
    unfold decodeConstrained at h3
    rw [decodeConstrainedWith_eq _ (R := u.toNat - l.toNat + 1) (by omega) (by omega) (by omega)] at h3
    obtain ⟨a, t3, h5, rfl⟩ := chk_ok h3
    obtain ⟨h6, -, h7⟩ := decodeField_small_range (by omega) h5
    have h9 : asUsize (a + (l.toNat : Int)) = n := by injection h4
    unfold asUsize at h9
    omega

theorem Firm.present {bm : List Bool} {i : Nat} (h : i < bm.length) : Firm (present bm i) := by
  unfold Hampi.present
  rw [List.getElem?_eq_getElem h]
  exact .pure _

theorem Firm.setKeyFrom (k : Bool) (t : Ty) (v : t.Val) : Firm (setKeyFrom k t v) := by
  unfold Hampi.setKeyFrom
  split
  · intro s _ _ h; cases h
  · exact .pure _

theorem Firm.requireKey : Firm requireKey := by
  intro s _ _ h
  unfold Hampi.requireKey at h
  split at h <;> cases h

mutual

theorem Ty.firm : (t : Ty) → t.Sane → Firm t.decode
  | .boolean, _ => .of .boolM
  | .null, _ => .pure _
  | .integer w lb ub ext, h => .bind (IsDec.integer lb ub ext).reader (.of (.integer h ext)) fun _ => .pure _
  | .enumerated w lb ub ext, h => by
    obtain ⟨rfl, h⟩ := h
    refine .bind (IsDec.enumerated lb ub false).reader (.of ?_) fun _ => .pure _
    exact Safe.bind (m := decodeInteger lb ub false >>= fun d => (Pure.pure d.1 : M Int))
      (g := fun d => (Pure.pure (d, false) : M (Int × Bool)))
      (.bind (.integer lb ub false) fun _ => .pure _)
      (.bind (.integer lb ub false) (.integer h false) fun d => .pure d.1)
      fun d => .pure (d, false)
  | .bitstring lb ub ext, h => .of (.bind (.extBit ext) (.extBit ext) fun x => .fragments
      (.stringLength x lb ub) (.stringLength h x) 16 getBitvec_consumes .bitvec .bitvec)
  | .octetstring lb ub ext, h => .of (.bind (.extBit ext) (.extBit ext) fun x => .fragments
      (.stringLength x lb ub) (.stringLength h x) 2 getBytes_consumes .bytes .bytes)
  | .charstring k lb ub ext, h => .of (by cases k <;> exact .string h ext)
  | .objectIdentifier, _ => .of .fail
  | .sequence ext n fs, h =>
    .bind' (IsDec.sequenceHeader ext n).reader (.header ext n) fun r _ _ hr =>
      fs.firm n h r.1 (decodeSequenceHeader_length hr)
  | .sequenceOf lb ub ext e, h => by
    obtain ⟨h1, h2, h3⟩ := h
    refine .bind' (IsDec.length lb ub ext).reader (.of (.length h1)) fun n s s' hr => ?_
    refine .loop e.decode_reader (e.firm h2) ?_
    rcases h3 with h3 | ⟨rfl, l, u, rfl, rfl, h4, h5⟩
    · exact .inl (e.takes h3)
    · exact .inr (decodeLength_pos (h1.resolve_left (by decide)) h4 h5 hr)
  | .choice lb ub ext as, h => by
    obtain ⟨rfl, h1, h2⟩ := h
    refine .bind (IsDec.choiceIdx lb ub false).reader (.of ?_) fun r =>
      .ite (fun _ => as.firm h2 r.1) fun _ => .of .fail
    exact .bind (.integer _ _ _) (.integer (fun l h => by cases h; exact ⟨ub, rfl, h1⟩) _)
      fun _ => .pure _
  | .openType as, h =>
    .bind (IsDec.length none none false).reader (.of (.length (.inr (by
      refine ⟨⟨?_, ?_⟩, ?_⟩
      · intro l h; cases h
      · intro l h; cases h
      · intro l u h; cases h)))) fun _ =>
      .bind .requireKey .requireKey fun k => as.firm h k

theorem Fields.firm : (fs : Fields) → (n : Nat) → fs.Sane n → (bm : List Bool) → bm.length = n →
    Firm (fs.decode bm)
  | .nil, _, _, _, _ => .pure _
  | .required k t rest, n, h, bm, hb =>
    .bind t.decode_reader (t.firm h.1) fun v => .bind (.setKeyFrom k t v) (.setKeyFrom k t v) fun _ =>
      .bind (rest.decode_reader bm) (rest.firm n h.2 bm hb) fun _ => .pure _
  | .optional i t rest, n, h, bm, hb =>
    .bind (.present bm i) (.present (by rw [hb]; exact h.1)) fun _ =>
      .bind (.ite (.bind t.decode_reader fun _ => .pure _) (.pure _))
        (.ite (fun _ => .bind t.decode_reader (t.firm h.2.1) fun _ => .pure _) fun _ => .pure _) fun _ =>
          .bind (rest.decode_reader bm) (rest.firm n h.2.2 bm hb) fun _ => .pure _

theorem Alts.firm : (as : Alts) → as.Sane → (key : Int) → Firm (as.decode key)
  | .nil, _, _ => .of .fail
  | .cons k x t rest, h, key =>
    .ite (fun _ => .bind t.decode_reader (t.firm h.1) fun _ => .pure _)
      fun _ => .bind (rest.decode_reader key) (rest.firm h.2 key) fun _ => .pure _

end

/-- **C105 (partial).** Full statement: on a buffer made of octets a derived decoder returns `Ok` or
`Err`, whatever the octets. Proved: for every type (of any nesting) with the attributes of `Ty.Sane`.
Missing, because false: extensible CHOICE and ENUMERATED, semi-constrained INTEGER and those of 2^64
or more values (C24 has the panics of the two INTEGER forms), lists that can be empty and whose
elements occupy no bits, see the violations below. The buffer is smaller than the address space. -/
theorem C105_no_panic_partial (t : Ty) (ht : t.Sane) (octets : List UInt8)
    (hlen : 8 * octets.length < 2 ^ 64) (position : Nat) (hp : position ≤ 8 * octets.length)
    (key : Option Int) : t.decode ⟨bytesBits octets, position, key⟩ ≠ .panic :=
  t.firm ht _ ⟨by simpa using hp, by simp⟩ (by simpa using hlen)

/-- A message with a header, an optional string, a list of open types selected by a key, a CHOICE. -/
def Hostile : Ty :=
  .sequence true 1
    (.required false (.integer .u8 (some 0) (some 255) false)
    (.optional 0 (.octetstring none (some 300) true)
    (.required false (.sequenceOf (some 0) (some 65535) false
      (.sequence false 0
        (.required true (.integer .u16 (some 0) (some 65535) false)
        (.required false (.openType (.cons 1 false .boolean (.cons 2 false
          (.choice 0 1 false (.cons 0 false .null (.cons 1 false (.bitstring none none true) .nil))) .nil)))
        .nil)))) .nil)))

example : Hostile.Sane := by
  have hs : ∀ u : Int, 0 ≤ u → u < 2 ^ 64 → SizeSane none (some u) := by
    intro u h1 h2
    refine ⟨⟨?_, ?_⟩, ?_⟩
    · intro l h; cases h
    · intro l h; cases h; exact ⟨h1, h2⟩
    · intro l u h; cases h
  refine ⟨?_, by decide, hs 300 (by decide) (by decide), ⟨.inr ?_, ⟨?_, ⟨trivial, ⟨rfl, ?_, trivial, ?_, trivial⟩, trivial⟩,
    trivial⟩, .inl rfl⟩, trivial⟩
  · intro l h; cases h; exact ⟨_, rfl, by unfold IntSane; decide +kernel⟩
  · refine ⟨⟨?_, ?_⟩, ?_⟩
    · intro l h; cases h; decide
    · intro l h; cases h; decide
    · intro l u h1 h2; cases h1; cases h2; decide
  · intro l h; cases h; exact ⟨_, rfl, by unfold IntSane; decide +kernel⟩
  · unfold IntSane; decide +kernel
  · refine ⟨⟨?_, ?_⟩, ?_⟩
    · intro l h; cases h
    · intro l h; cases h
    · intro l u h; cases h

set_option maxRecDepth 4000 in
/-- **C105 is violated**: 19 octets make the decoder of every extensible CHOICE and ENUMERATED panic,
and 18 octets that of every INTEGER with a lower bound only. -/
theorem C105_extension_violated (lb ub : Int) (as : Alts) (w : Width) :
    (Ty.choice lb ub true as).decode (Codec.fromSlice (0xC0 :: 17 :: List.replicate 17 0)) = .panic ∧
    (Ty.enumerated w (some lb) (some ub) true).decode
      (Codec.fromSlice (0xC0 :: 17 :: List.replicate 17 0)) = .panic ∧
    (Ty.integer w (some lb) none false).decode (Codec.fromSlice (17 :: List.replicate 17 0)) = .panic :=
  ⟨rfl, rfl, rfl⟩

/-- **C105 is violated**: on a single octet 0 the decoder of a SEQUENCE OF whose elements occupy no
bits does not return: it goes on for 2^64 elements, after which its counter overflows. -/
theorem C105_empty_list_violated (e : Ty) (he : ∀ s, ∃ v, e.decode s = .ok v s) :
    (Ty.sequenceOf none none false e).decode (Codec.fromSlice [0]) = .panic := by
  have ht : ∀ n s, ∃ v, decodeTimes e.decode n s = .ok v s := by
    intro n
    induction n with
    | zero => intro s; exact ⟨[], rfl⟩
    | succ n ih =>
      intro s
      obtain ⟨v, h1⟩ := he s
      obtain ⟨vs, h2⟩ := ih s
      refine ⟨v :: vs, ?_⟩
      show (e.decode >>= fun x => decodeTimes e.decode n >>= fun xs => Pure.pure (x :: xs)) s = _
      rw [M.bind_apply, h1]
      dsimp only
      rw [M.bind_apply, h2]
      rfl
  have hl : decodeLength none none false (Codec.fromSlice [0]) = .ok 0 ⟨bytesBits [0], 8, none⟩ := by
    decide +kernel
  show (decodeLength none none false >>= fun n => decodeLoop e.decode n) (Codec.fromSlice [0]) = _
  rw [M.bind_apply, hl]
  dsimp only
  unfold decodeLoop
  rw [if_pos rfl, M.bind_apply]
  obtain ⟨v, h⟩ := ht (2 ^ 64) ⟨bytesBits [0], 8, none⟩
  rw [h]
  rfl

example : ∀ s, ∃ v, Ty.null.decode s = .ok v s := fun s => ⟨(), rfl⟩
example : ∀ s, ∃ v, (Ty.sequence false 0 (.required false .null .nil)).decode s = .ok v s :=
  fun s => ⟨((), ()), rfl⟩

/-! ## C106 -/

mutual

/-- The part of the size of a value that takes no bits. -/
def Ty.base : Ty → Nat
  | .boolean | .null | .integer .. | .enumerated .. | .bitstring .. | .octetstring ..
  | .charstring .. | .objectIdentifier | .sequenceOf .. => 1
  | .sequence _ _ fs => 1 + fs.base
  | .choice _ _ _ as | .openType as => 1 + as.base

/-- The sum. -/
def Fields.base : Fields → Nat
  | .nil => 0
  | .required _ t rest => t.base + rest.base
  | .optional _ t rest => 1 + t.base + rest.base

/-- The maximum. -/
def Alts.base : Alts → Nat
  | .nil => 0
  | .cons _ _ t rest => max t.base rest.base

end

mutual

/-- The size a bit can stand for. -/
def Ty.rate : Ty → Nat
  | .boolean | .null | .integer .. | .enumerated .. => 0
  | .bitstring .. | .octetstring .. | .charstring .. | .objectIdentifier => 1
  | .sequenceOf _ _ _ e => e.base + e.rate
  | .sequence _ _ fs => fs.rate
  | .choice _ _ _ as | .openType as => as.rate

/-- The maximum. -/
def Fields.rate : Fields → Nat
  | .nil => 0
  | .required _ t rest | .optional _ t rest => max t.rate rest.rate

/-- The maximum. -/
def Alts.rate : Alts → Nat
  | .nil => 0
  | .cons _ _ t rest => max t.rate rest.rate

end

mutual

theorem Ty.nodes_ge : (t : Ty) → t.base + t.rate ≤ t.nodes
  | .boolean | .null | .integer .. | .enumerated .. | .bitstring .. | .octetstring ..
  | .charstring .. | .objectIdentifier => by simp [Ty.base, Ty.rate, Ty.nodes]
  | .sequence _ _ fs => by
    have := fs.nodes_ge
    simp only [Ty.base, Ty.rate, Ty.nodes]; omega
  | .sequenceOf _ _ _ e => by
    have := e.nodes_ge
    simp only [Ty.base, Ty.rate, Ty.nodes]; omega
  | .choice _ _ _ as | .openType as => by
    have := as.nodes_ge
    simp only [Ty.base, Ty.rate, Ty.nodes]; omega

theorem Fields.nodes_ge : (fs : Fields) → fs.base + fs.rate ≤ fs.nodes
  | .nil => Nat.le_refl _
  | .required _ t rest => by
    have := t.nodes_ge
    have := rest.nodes_ge
    simp only [Fields.base, Fields.rate, Fields.nodes]; omega
  | .optional _ t rest => by
    have := t.nodes_ge
    have := rest.nodes_ge
    simp only [Fields.base, Fields.rate, Fields.nodes]; omega

theorem Alts.nodes_ge : (as : Alts) → as.base + as.rate ≤ as.nodes
  | .nil => Nat.le_refl _
  | .cons _ _ t rest => by
    have := t.nodes_ge
    have := rest.nodes_ge
    simp only [Alts.base, Alts.rate, Alts.nodes]; omega

end

/-- Values are within `b` and `r` per bit consumed. -/
def Sized (dec : M α) (size : α → Nat) (b r : Nat) : Prop :=
  ∀ s v s', dec s = .ok v s' → s.off ≤ s'.off ∧ size v ≤ b + r * (s'.off - s.off)

theorem Sized.of {dec : M α} (h : IsReader dec) : Sized dec (fun _ => 1) 1 0 := by
  intro s v s' hs
  have := Costs.zero h _ _ _ hs
  exact ⟨by omega, by dsimp only; omega⟩

theorem Sized.costs {dec : M α} {f : α → Nat} (h : Costs dec f) : Sized dec (fun v => 1 + f v) 1 1 := by
  intro s v s' hs
  have := h _ _ _ hs
  exact ⟨by omega, by dsimp only; omega⟩

theorem Sized.times {dec : M α} {size : α → Nat} {b r : Nat} (h : Sized dec size b r) (ht : Takes dec 1) :
    (n : Nat) → Sized (decodeTimes dec n) (fun v => (v.map size).sum) 0 (b + r)
  | 0 => by intro s v s' hs; cases hs; simp
  | n + 1 => by
    intro s v s' hs
    obtain ⟨x, t, h1, hs⟩ := bind_ok hs
    obtain ⟨xs, t2, h2, hs⟩ := bind_ok hs
    cases hs
    have a0 : s.off + 1 ≤ t.off := ht _ _ _ h1
    obtain ⟨a1, a2⟩ := h _ _ _ h1
    obtain ⟨a3, a4⟩ := Sized.times h ht n _ _ _ h2
    refine ⟨by omega, ?_⟩
    dsimp only at a4 ⊢
    simp only [List.map_cons, List.sum_cons]
    have e : s'.off - s.off = (t.off - s.off) + (s'.off - t.off) := by omega
    rw [e, Nat.mul_add]
    have : b + r * (t.off - s.off) ≤ (b + r) * (t.off - s.off) := by
      rw [Nat.add_mul]
      have : b * 1 ≤ b * (t.off - s.off) := Nat.mul_le_mul_left b (by omega)
      omega
    omega

theorem grow {b r r' c c' : Nat} (hr : r ≤ r') (hc : c ≤ c') : b + r * c ≤ b + r' * c' :=
  Nat.add_le_add_left (Nat.mul_le_mul hr hc) b

theorem setKeyFrom_off {k : Bool} {t : Ty} {v : t.Val} {s s' : Codec} {u : Unit}
    (h : setKeyFrom k t v s = .ok u s') : s'.off = s.off := by
  unfold setKeyFrom at h
  cases k <;> cases hk : t.keyValue v <;> simp only [hk] at h <;> cases h <;> rfl

mutual

theorem Ty.sized : (t : Ty) → t.SolidLists → Sized t.decode t.size t.base t.rate
  | .boolean, _ => Sized.of Ty.boolean.decode_reader
  | .null, _ => Sized.of Ty.null.decode_reader
  | .integer w lb ub ext, _ => Sized.of (Ty.integer w lb ub ext).decode_reader
  | .enumerated w lb ub ext, _ => Sized.of (Ty.enumerated w lb ub ext).decode_reader
  | .bitstring lb ub ext, _ => Sized.costs (Costs.bitstring lb ub ext)
  | .octetstring lb ub ext, _ => Sized.costs (Costs.octetstring lb ub ext)
  | .charstring k lb ub ext, _ => Sized.costs (Costs.charstring k lb ub ext)
  | .objectIdentifier, _ => by intro s v s' h; cases h
  | .sequence ext n fs, h => by
    intro s v s' hs
    obtain ⟨r, t, h1, h2⟩ := bind_ok hs
    have a1 : s.off + 0 ≤ t.off := Costs.zero (IsDec.sequenceHeader ext n).reader _ _ _ h1
    obtain ⟨a2, a3⟩ := fs.sized h r.1 _ _ _ h2
    refine ⟨by omega, ?_⟩
    show 1 + fs.size v ≤ 1 + fs.base + fs.rate * (s'.off - s.off)
    have := grow (b := fs.base) (Nat.le_refl fs.rate) (c := s'.off - t.off) (c' := s'.off - s.off) (by omega)
    omega
  | .sequenceOf lb ub ext e, h => by
    intro s v s' hs
    obtain ⟨n, t, h1, h2⟩ := bind_ok hs
    have a1 : s.off + 0 ≤ t.off := Costs.zero (IsDec.length lb ub ext).reader _ _ _ h1
    obtain ⟨-, h2⟩ := decodeLoop_ok h2
    obtain ⟨a2, a3⟩ := Sized.times (e.sized h.2) (e.takes h.1) n _ _ _ h2
    dsimp only at a3
    refine ⟨by omega, ?_⟩
    show 1 + (List.map e.size v).sum ≤ 1 + (e.base + e.rate) * (s'.off - s.off)
    have := grow (b := 0) (Nat.le_refl (e.base + e.rate)) (c := s'.off - t.off) (c' := s'.off - s.off)
      (by omega)
    omega
  | .choice lb ub ext as, h => by
    intro s v s' hs
    obtain ⟨r, t, h1, h2⟩ := bind_ok hs
    have a1 : s.off + 0 ≤ t.off := Costs.zero (IsDec.choiceIdx lb ub ext).reader _ _ _ h1
    obtain ⟨idx, x⟩ := r
    cases x with
    | false =>
      have h2 : as.decode idx t = .ok v s' := h2
      obtain ⟨a2, a3⟩ := as.sized h idx _ _ _ h2
      refine ⟨by omega, ?_⟩
      show 1 + as.size v ≤ 1 + as.base + as.rate * (s'.off - s.off)
      have := grow (b := as.base) (Nat.le_refl as.rate) (c := s'.off - t.off) (c' := s'.off - s.off) (by omega)
      omega
    | true => cases h2
  | .openType as, h => by
    intro s v s' hs
    obtain ⟨r, t, h1, h2⟩ := bind_ok hs
    obtain ⟨k, t2, h3, h4⟩ := bind_ok h2
    have a1 : s.off + 0 ≤ t.off := Costs.zero (IsDec.length none none false).reader _ _ _ h1
    obtain ⟨-, rfl⟩ := requireKey_ok h3
    obtain ⟨a2, a3⟩ := as.sized h k _ _ _ h4
    refine ⟨by omega, ?_⟩
    show 1 + as.size v ≤ 1 + as.base + as.rate * (s'.off - s.off)
    have := grow (b := as.base) (Nat.le_refl as.rate) (c := s'.off - t2.off) (c' := s'.off - s.off) (by omega)
    omega

theorem Fields.sized : (fs : Fields) → fs.SolidLists → (bm : List Bool) →
    Sized (fs.decode bm) fs.size fs.base fs.rate
  | .nil, _, _ => by intro s v s' h; cases h; simp [Fields.size]
  | .required k t rest, h, bm => by
    intro s v s' hs
    obtain ⟨x, t1, h1, hs⟩ := bind_ok hs
    obtain ⟨_, t2, h2, hs⟩ := bind_ok hs
    obtain ⟨xs, t3, h3, hs⟩ := bind_ok hs
    cases hs
    have e := setKeyFrom_off h2
    obtain ⟨a1, a2⟩ := t.sized h.1 _ _ _ h1
    obtain ⟨a3, a4⟩ := rest.sized h.2 bm _ _ _ h3
    refine ⟨by omega, ?_⟩
    show t.size x + rest.size xs ≤ t.base + rest.base + max t.rate rest.rate * (s'.off - s.off)
    have e2 : s'.off - s.off = (t1.off - s.off) + (s'.off - t2.off) := by omega
    rw [e2, Nat.mul_add]
    have := grow (b := t.base) (Nat.le_max_left t.rate rest.rate) (Nat.le_refl (t1.off - s.off))
    have := grow (b := rest.base) (Nat.le_max_right t.rate rest.rate) (Nat.le_refl (s'.off - t2.off))
    omega
  | .optional i t rest, h, bm => by
    intro s v s' hs
    obtain ⟨b, t0, h0, hs⟩ := bind_ok hs
    obtain ⟨x, t1, h1, hs⟩ := bind_ok hs
    obtain ⟨xs, t3, h3, hs⟩ := bind_ok hs
    cases hs
    obtain ⟨-, rfl⟩ := present_ok h0
    obtain ⟨a3, a4⟩ := rest.sized h.2 bm _ _ _ h3
    have hx : t0.off ≤ t1.off ∧ (x.map t.size).getD 0 ≤ t.base + t.rate * (t1.off - t0.off) := by
      rw [M.ite_apply] at h1
      split at h1
      · obtain ⟨y, t4, h5, h6⟩ := bind_ok h1
        cases h6
        exact t.sized h.1 _ _ _ h5
      · cases h1
        exact ⟨Nat.le_refl _, Nat.zero_le _⟩
    obtain ⟨a1, a2⟩ := hx
    refine ⟨by omega, ?_⟩
    have ex : (Fields.optional i t rest).size (x, xs) = 1 + (x.map t.size).getD 0 + rest.size xs := by
      cases x <;> rfl
    rw [ex]
    show 1 + (x.map t.size).getD 0 + rest.size xs ≤
      1 + t.base + rest.base + max t.rate rest.rate * (s'.off - t0.off)
    have e2 : s'.off - t0.off = (t1.off - t0.off) + (s'.off - t1.off) := by omega
    rw [e2, Nat.mul_add]
    have := grow (b := t.base) (Nat.le_max_left t.rate rest.rate) (Nat.le_refl (t1.off - t0.off))
    have := grow (b := rest.base) (Nat.le_max_right t.rate rest.rate) (Nat.le_refl (s'.off - t1.off))
    omega

theorem Alts.sized : (as : Alts) → as.SolidLists → (key : Int) →
    Sized (as.decode key) as.size as.base as.rate
  | .nil, _, _ => by intro s v s' h; cases h
  | .cons k x t rest, h, key => by
    intro s v s' hs
    simp only [Alts.decode] at hs
    rw [M.ite_apply] at hs
    split at hs
    · obtain ⟨y, t1, h1, hs⟩ := bind_ok hs
      cases hs
      obtain ⟨a1, a2⟩ := t.sized h.1 _ _ _ h1
      refine ⟨a1, ?_⟩
      show t.size y ≤ max t.base rest.base + max t.rate rest.rate * (s'.off - s.off)
      have := grow (b := t.base) (Nat.le_max_left t.rate rest.rate) (Nat.le_refl (s'.off - s.off))
      omega
    · obtain ⟨y, t1, h1, hs⟩ := bind_ok hs
      cases hs
      obtain ⟨a1, a2⟩ := rest.sized h.2 key _ _ _ h1
      refine ⟨a1, ?_⟩
      show rest.size y ≤ max t.base rest.base + max t.rate rest.rate * (s'.off - s.off)
      have := grow (b := rest.base) (Nat.le_max_right t.rate rest.rate) (Nat.le_refl (s'.off - s.off))
      omega

end

/-- **C106 (partial).** Full statement: what a derived decoder returns is at most proportional to the
bits it consumed, with a factor that depends on the type only. Proved: for every type in which the
elements of lists occupy at least one bit; the factor is the size of the type. Missing, because false:
lists of elements without bits, see `C106_amplification_violated`. -/
theorem C106_decoded_size_partial (t : Ty) (ht : t.SolidLists) (s s' : Codec) (v : t.Val)
    (h : t.decode s = .ok v s') : t.size v ≤ t.nodes * (1 + (s'.off - s.off)) := by
  obtain ⟨-, h2⟩ := t.sized ht s v s' h
  have h3 := t.nodes_ge
  have h4 : t.base * 1 ≤ t.nodes * 1 := Nat.mul_le_mul_right 1 (by omega)
  have h5 : t.rate * (s'.off - s.off) ≤ t.nodes * (s'.off - s.off) := Nat.mul_le_mul_right _ (by omega)
  rw [Nat.mul_add]
  omega

example : Hostile.SolidLists := ⟨trivial, trivial, ⟨rfl, trivial, ⟨trivial, ⟨trivial, trivial, trivial⟩, trivial⟩,
  trivial⟩, trivial⟩

/-- Lists of a fixed size, nested. -/
def Tower (n : Nat) : Nat → Ty
  | 0 => .null
  | d + 1 => .sequenceOf (some n) (some n) false (Tower n d)

theorem decodeLength_same {n : Nat} (h : n < 65536) :
    decodeLength (some (n : Int)) (some (n : Int)) false = Pure.pure n := by
  have hb : SizeBounds (some (n : Int)) (some (n : Int)) := by
    constructor <;> intro l h <;> cases h <;> omega
  unfold decodeLength
  simp only [Bool.false_eq_true, if_false]
  rw [lengthLowerBound_eq hb, M.pure_bind']
  show (toUsizeOrPanic (n : Int) >>= _) = _
  unfold toUsizeOrPanic
  rw [if_pos (by omega), M.pure_bind', if_pos (by omega)]
  exact if_pos (by simp)

/-- **C106 is violated**: without a single bit of input, nested lists of a fixed size yield `n ^ d`
elements: 65535 for one level, 4294836225 for two. The innermost, NULL, take time only; the lists
around them are vectors and take memory as well. -/
theorem C106_amplification_violated (n : Nat) (h1 : 1 ≤ n) (h2 : n < 65536) (d : Nat) (s : Codec) :
    ∃ v, (Tower n d).decode s = .ok v s ∧ n ^ d ≤ (Tower n d).size v := by
  induction d generalizing s with
  | zero => exact ⟨(), rfl, by simp [Tower, Ty.size]⟩
  | succ d ih =>
    obtain ⟨v, hv, hz⟩ := ih s
    refine ⟨List.replicate n v, ?_, ?_⟩
    · show (decodeLength (some n) (some n) false >>= fun k => decodeLoop (Tower n d).decode k) s = _
      have hl := decodeLength_same h2
      rw [hl, M.pure_bind']
      unfold decodeLoop
      rw [if_neg (by omega)]
      have ht : ∀ k, decodeTimes (Tower n d).decode k s = .ok (List.replicate k v) s := by
        intro k
        induction k with
        | zero => rfl
        | succ k ih =>
          show ((Tower n d).decode >>= fun x => decodeTimes (Tower n d).decode k >>= fun xs =>
            Pure.pure (x :: xs)) s = _
          rw [M.bind_apply, hv]
          dsimp only
          rw [M.bind_apply, ih]
          rfl
      exact ht n
    · show n ^ (d + 1) ≤ 1 + (List.map (Tower n d).size (List.replicate n v)).sum
      simp only [List.map_replicate, List.sum_replicate_nat]
      have : n * n ^ d ≤ n * (Tower n d).size v := Nat.mul_le_mul_left n hz
      rw [Nat.pow_succ, Nat.mul_comm]
      omega

end Hampi
