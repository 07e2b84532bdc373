import Verif.Spec.Cause
import Verif.Props.Short
import Verif.Props.Strings
import Verif.Lemmas.Canonical
/-!
# The index of an extension that makes a decoder panic, and the way to it
-/
namespace Hampi

open Spec (be alignment IntPanics IntegerPanics ReceivedLength)

variable {α β : Type}

/-! ## What was read -/

theorem Eaten.boolean {s t : Codec} {b : Bool} (h0 : s.off ≤ s.bits.length) (h : decodeBoolM s = .ok b t) :
    Eaten s t [b] := by
  unfold decodeBoolM at h
  split at h
  · cases h
  · next hne =>
    cases hb : s.bits[s.off]? with
    | none => rw [hb] at h; cases h
    | some x =>
      rw [hb] at h
      dsimp only at h
      rw [M.bind_apply] at h
      unfold advanceMaybeErr at h
      rw [if_neg (by omega)] at h
      cases h
      refine ⟨h0, rfl, rfl, ?_⟩
      unfold consumed
      dsimp only
      obtain ⟨hlt, hx⟩ := List.getElem?_eq_some_iff.mp hb
      rw [Nat.add_sub_cancel_left, List.drop_eq_getElem_cons hlt, List.take_succ_cons, List.take_zero, hx]

theorem Eaten.drop {s t : Codec} {w : List Bool} (h : Eaten s t w) : s.bits.drop s.off = w ++ t.bits.drop t.off := by
  have h1 := h.word
  unfold consumed at h1
  rw [h.bits, h.off] at *
  rw [Nat.add_sub_cancel_left] at h1
  rw [← List.take_append_drop w.length (s.bits.drop s.off), h1, List.drop_drop]

/-- A length that was read. -/
theorem Eaten.receivedLength {s t : Codec} {n : Nat} (h0 : s.off ≤ s.bits.length) (h : decodeIndefiniteLength s = .ok n t) :
    ∃ w, ReceivedLength n w ∧ Eaten s t (alignment s.off ++ w) := by
  unfold decodeIndefiniteLength at h
  obtain ⟨_, u, h1, h⟩ := bind_ok h
  have e0 := Eaten.align h0 h1
  obtain ⟨b, u1, h2, h⟩ := bind_ok h
  have e1 := Eaten.boolean e0.end_le h2
  cases b with
  | false =>
    obtain ⟨l, u2, h3, h⟩ := bind_ok h
    obtain ⟨x, rfl, hx, e2⟩ := Eaten.unsigned (by decide) h3
    cases h
    exact ⟨_, .inl ⟨by simpa using hx, rfl⟩, by
      have := e0.trans (e1.trans e2)
      rwa [← be_eq, ← alignment_eq] at this⟩
  | true =>
    obtain ⟨c, u2, h3, h⟩ := bind_ok h
    have e2 := Eaten.boolean e1.end_le h3
    cases c with
    | false =>
      obtain ⟨l, u3, h4, h⟩ := bind_ok h
      obtain ⟨x, rfl, hx, e3⟩ := Eaten.unsigned (by decide) h4
      cases h
      exact ⟨_, .inr (.inl ⟨by simpa using hx, rfl⟩), by
        have := e0.trans (e1.trans (e2.trans e3))
        rwa [← be_eq, ← alignment_eq] at this⟩
    | true =>
      obtain ⟨l, u3, h4, h⟩ := bind_ok h
      obtain ⟨x, rfl, hx, e3⟩ := Eaten.unsigned (by decide) h4
      split at h
      · cases h
      · next hm =>
        cases h
        exact ⟨_, .inr (.inr ⟨x, by omega, by omega, by omega, rfl⟩), by
          have := e0.trans (e1.trans (e2.trans e3))
          rwa [← be_eq, ← alignment_eq] at this⟩

/-- And the other way round. -/
theorem ReceivedLength.decodes {n : Nat} {w : List Bool} (h : ReceivedLength n w) (p : Nat) :
    Decodes decodeIndefiniteLength p (alignment p ++ w) n := by
  rw [alignment_eq]
  rcases h with ⟨hn, rfl⟩ | ⟨hn, rfl⟩ | ⟨m, h1, h4, rfl, rfl⟩
  · rw [be_eq]
    unfold decodeIndefiniteLength
    refine .bind (.align p) (.bind (w := [false]) (.boolM _ false) ?_)
    exact Decodes.map (Decodes.nat (p + (pad p).length + [false].length) (n := 7) (x := n)
      (by omega) (by omega) (by omega)) Int.toNat
  · rw [be_eq]
    unfold decodeIndefiniteLength
    refine .bind (.align p) (.bind (w := [true]) (.boolM _ true) (.bind (w := [false]) (.boolM _ false) ?_))
    exact Decodes.map (Decodes.nat (p + (pad p).length + [true].length + [false].length) (n := 14) (x := n)
      (by omega) (by omega) (by omega)) Int.toNat
  · rw [be_eq]
    exact Decodes.fragmentLength h1 h4 p

/-- A number in 17 octets or more, after the first bit. -/
def HugeNumber (s : Codec) : Prop :=
  ∃ n w body rest, s.bits.drop s.off = [true] ++ (alignment (s.off + 1) ++ w) ++ (body ++ rest) ∧
    ReceivedLength n w ∧ 17 ≤ n ∧ body.length = 8 * n

theorem hugeNumber_of_panic {s : Codec} (hs : OctetBuffer s) (h : decodeNormallySmallNonNegative s = .panic) :
    HugeNumber s := by
  unfold decodeNormallySmallNonNegative at h
  rw [M.bind_apply] at h
  cases hb : decodeBoolM s with
  | panic => exact absurd hb (Safe.boolM s hs)
  | err t => rw [hb] at h; cases h
  | ok b t =>
    rw [hb] at h
    dsimp only at h
    have ht := Safe.after .boolM hs hb
    have e1 := Eaten.boolean hs.1 hb
    cases b with
    | false => exact absurd h (Safe.unsigned (by omega) t ht)
    | true =>
      have h : (decodeIndefiniteLength >>= fun length => decodeBitsAsInteger (length * 8) false >>= fun val =>
        chkI128 (val + 0)) t = .panic := h
      rw [M.bind_apply] at h
      cases hi : decodeIndefiniteLength t with
      | panic => exact absurd hi (Safe.indefinite t ht)
      | err u => rw [hi] at h; cases h
      | ok l u =>
        rw [hi] at h
        dsimp only at h
        have hu := Safe.after .indefinite ht hi
        obtain ⟨w, hw, e2⟩ := Eaten.receivedLength ht.1 hi
        rw [M.bind_apply] at h
        cases hv : decodeBitsAsInteger (l * 8) false u with
        | err w => rw [hv] at h; cases h
        | panic =>
          by_cases h128 : l * 8 ≤ 128
          · exact absurd hv (Safe.unsigned h128 u hu)
          · have hrem : ¬ (u.bits.length - u.off < l * 8) := by
              intro hlt
              unfold decodeBitsAsInteger at hv
              have := hu.1
              rw [if_neg (by omega), if_pos hlt] at hv
              cases hv
            refine ⟨l, w, (u.bits.drop u.off).take (l * 8), (u.bits.drop u.off).drop (l * 8), ?_, hw, by omega, ?_⟩
            · rw [List.take_append_drop, (e1.trans e2).drop, e1.off]
              rfl
            · rw [List.length_take, List.length_drop]
              omega
        | ok v x =>
          rw [hv] at h
          have h : chkI128 (v + 0) x = .panic := h
          rw [Int.add_zero] at h
          unfold chkI128 at h
          rw [if_pos (bitsAsInteger_i128 hv)] at h
          cases h

theorem panic_of_hugeNumber {s : Codec} (h : HugeNumber s) (h0 : s.off ≤ s.bits.length) :
    decodeNormallySmallNonNegative s = .panic := by
  obtain ⟨n, w, body, rest, hd, hw, hn, hb⟩ := h
  obtain ⟨bits, off, key⟩ := s
  dsimp only at hd h0
  have hl : (bits.take off).length = off := by rw [List.length_take]; omega
  have e : bits = bits.take off ++ ([true] ++ (alignment (off + 1) ++ w)) ++ (body ++ rest) := by
    have := List.take_append_drop off bits
    rw [hd] at this
    rw [List.append_assoc]
    exact this.symm
  have hdec : Decodes (decodeBoolM >>= fun _ => decodeIndefiniteLength) off ([true] ++ (alignment (off + 1) ++ w)) n :=
    .bind (.boolM _ true) (ReceivedLength.decodes hw _)
  have hdec := hdec (bits.take off) (body ++ rest) key (by rw [hl])
  rw [← e, hl] at hdec
  obtain ⟨b, t, h1, h2⟩ := bind_ok hdec
  have hb1 : b = true := by
    have := (Eaten.boolean (s := ⟨bits, off, key⟩) h0 h1).drop
    dsimp only at this
    rw [hd] at this
    exact (List.cons.inj this).1.symm
  subst hb1
  unfold decodeNormallySmallNonNegative
  rw [M.bind_apply, h1]
  show (decodeIndefiniteLength >>= fun length => decodeBitsAsInteger (length * 8) false >>= fun val =>
        chkI128 (val + 0)) t = .panic
  rw [M.bind_apply, h2]
  dsimp only
  rw [M.bind_apply]
  have hlen := congrArg List.length e
  simp only [List.length_append, hl] at hlen
  have hp : decodeBitsAsInteger (n * 8) false ⟨bits, off + ([true] ++ (alignment (off + 1) ++ w)).length, key⟩ = .panic := by
    unfold decodeBitsAsInteger
    dsimp only
    simp only [List.length_append]
    rw [if_neg (by omega), if_neg (by omega), if_pos (by decide), if_neg (by omega), if_pos (by omega)]
  rw [hp]

theorem hugeIndex_iff {s t : Codec} (e : Eaten s t [true]) : HugeIndex s ↔ HugeNumber t := by
  have hd := e.drop
  have ho : t.off = s.off + 1 := e.off
  unfold HugeIndex HugeNumber
  rw [hd, ho]
  constructor
  · rintro ⟨n, w, body, rest, h, hw⟩
    refine ⟨n, w, body, rest, ?_, hw⟩
    simpa using h
  · rintro ⟨n, w, body, rest, h, hw⟩
    refine ⟨n, w, body, rest, ?_, hw⟩
    rw [h]
    simp

theorem hugeIndex_first {s : Codec} (h0 : s.off ≤ s.bits.length) (h : HugeIndex s) :
    ∃ t, decodeBoolM s = .ok true t ∧ Eaten s t [true] := by
  obtain ⟨n, w, body, rest, hd, -⟩ := h
  obtain ⟨bits, off, key⟩ := s
  dsimp only at hd h0
  have hl : (bits.take off).length = off := by rw [List.length_take]; omega
  have e : bits = bits.take off ++ [true] ++ (true :: (alignment (off + 2) ++ w ++ body ++ rest)) := by
    have := List.take_append_drop off bits
    rw [hd] at this
    rw [List.append_assoc]
    simpa using this.symm
  have h1 := Decodes.boolM off true (bits.take off) (true :: (alignment (off + 2) ++ w ++ body ++ rest)) key (by rw [hl])
  rw [← e, hl] at h1
  exact ⟨_, h1, Eaten.boolean h0 h1⟩

/-! ## Lists -/

theorem IsReader.octets {m : M α} (hm : IsReader m) {s t : Codec} {a : α} (hs : OctetBuffer s) (h : m s = .ok a t) :
    OctetBuffer t := by
  have hf := hm.frame s
  rw [h] at hf
  obtain ⟨h1, -, h3⟩ := hf
  refine ⟨?_, ?_⟩ <;> rw [h1]
  · exact h3 hs.1
  · exact hs.2

theorem IsReader.same {m : M α} (hm : IsReader m) {s t : Codec} {a : α} (h : m s = .ok a t) : t.bits = s.bits := by
  have hf := hm.frame s
  rw [h] at hf
  exact hf.1

theorem panics {m : M α} {g : α → M β} {s : Codec} (h : (m >>= g) s = .panic) :
    m s = .panic ∨ ∃ a t, m s = .ok a t ∧ g a t = .panic := by
  rw [M.bind_apply] at h
  cases hm : m s with
  | ok a t => rw [hm] at h; exact .inr ⟨a, t, rfl, h⟩
  | err t => rw [hm] at h; cases h
  | panic => exact .inl rfl

theorem panics_first {m : M α} {g : α → M β} {s : Codec} (h : m s = .panic) : (m >>= g) s = .panic := by
  rw [M.bind_apply, h]

theorem panics_then {m : M α} {g : α → M β} {s t : Codec} {a : α} (h : m s = .ok a t) (hg : g a t = .panic) :
    (m >>= g) s = .panic := by
  rw [M.bind_apply, h]
  exact hg

theorem times_panics {dec : M α} : (n : Nat) → {s : Codec} → decodeTimes dec n s = .panic →
    ∃ i vs t, i < n ∧ decodeTimes dec i s = .ok vs t ∧ dec t = .panic
  | 0, s, h => by cases h
  | n + 1, s, h => by
    rcases panics (m := dec) h with h | ⟨x, t, h1, h⟩
    · exact ⟨0, [], s, by omega, rfl, h⟩
    · rcases panics (m := decodeTimes dec n) h with h | ⟨_, _, -, h⟩
      · obtain ⟨i, vs, u, hi, h2, h3⟩ := times_panics n h
        refine ⟨i + 1, x :: vs, u, by omega, ?_, h3⟩
        show (dec >>= fun x => decodeTimes dec i >>= fun xs => Pure.pure (x :: xs)) s = _
        rw [M.bind_apply, h1]
        dsimp only
        rw [M.bind_apply, h2]
        rfl
      · cases h

theorem times_panic {dec : M α} : (i : Nat) → {n : Nat} → {s t : Codec} → {vs : List α} → i < n →
    decodeTimes dec i s = .ok vs t → dec t = .panic → decodeTimes dec n s = .panic
  | 0, n + 1, s, t, vs, _, h, hp => by
    cases h
    exact panics_first hp
  | i + 1, n + 1, s, t, vs, hi, h, hp => by
    obtain ⟨x, u, h1, h2⟩ := bind_ok (m := dec) h
    obtain ⟨xs, u', h3, h4⟩ := bind_ok (m := decodeTimes dec i) h2
    cases h4
    exact panics_then h1 (panics_first (times_panic i (by omega) h3 hp))

theorem loop_panics {dec : M α} {n : Nat} {s : Codec} (h : decodeLoop dec n s = .panic) :
    (n = 0 ∧ ∃ vs t, decodeTimes dec (2 ^ 64) s = .ok vs t) ∨
      ∃ i vs t, (i < n ∨ n = 0 ∧ i < 2 ^ 64) ∧ decodeTimes dec i s = .ok vs t ∧ dec t = .panic := by
  unfold decodeLoop at h
  split at h
  · next hn =>
    rcases panics h with h | ⟨vs, t, h, -⟩
    · obtain ⟨i, vs, t, hi, h1, h2⟩ := times_panics _ h
      exact .inr ⟨i, vs, t, .inr ⟨hn, hi⟩, h1, h2⟩
    · exact .inl ⟨hn, vs, t, h⟩
  · obtain ⟨i, vs, t, hi, h1, h2⟩ := times_panics _ h
    exact .inr ⟨i, vs, t, .inl hi, h1, h2⟩

theorem loop_panic {dec : M α} {n i : Nat} {s t : Codec} {vs : List α} (hi : i < n ∨ n = 0 ∧ i < 2 ^ 64)
    (h : decodeTimes dec i s = .ok vs t) (hp : dec t = .panic) : decodeLoop dec n s = .panic := by
  unfold decodeLoop
  split
  · next hn => exact panics_first (times_panic i (by omega) h hp)
  · next hn => exact times_panic i (by omega) h hp

/-! ## Types -/

theorem choiceIdx_panics {ext : Bool} {lb ub : Int} (hl : IsI128 lb) (h : ¬ IntPanics lb ub) {s : Codec}
    (hs : OctetBuffer s) (hp : decodeChoiceIdx lb ub ext s = .panic) : ext = true ∧ HugeIndex s := by
  have hroot : ∀ x : Bool, Safe (decodeInteger (some lb) (some ub) false >>= fun d => (Pure.pure (d.1, x) : M (Int × Bool))) :=
    fun x => .bind (.integer _ _ _) (.integer' (lb := some lb) (ub := some ub) (fun l e => by cases e; exact hl) h _) fun _ => .pure _
  cases ext with
  | false => exact absurd hp (hroot false s hs)
  | true =>
    refine ⟨rfl, ?_⟩
    rcases panics (m := decodeBoolM) hp with hp | ⟨x, t, hb, hp⟩
    · exact absurd hp (Safe.boolM s hs)
    · have ht := Safe.after .boolM hs hb
      cases x with
      | false => exact absurd hp (hroot false t ht)
      | true =>
        rcases panics (m := decodeNormallySmallNonNegative) hp with hp | ⟨_, _, -, hp⟩
        · exact (hugeIndex_iff (Eaten.boolean hs.1 hb)).mpr (hugeNumber_of_panic ht hp)
        · cases hp

theorem choiceIdx_panic {lb ub : Int} {s : Codec} (hs : OctetBuffer s) (h : HugeIndex s) :
    decodeChoiceIdx lb ub true s = .panic := by
  obtain ⟨t, hb, e⟩ := hugeIndex_first hs.1 h
  have ht := Safe.after .boolM hs hb
  exact panics_then (m := decodeBoolM) hb
    (panics_first (m := decodeNormallySmallNonNegative) (panic_of_hugeNumber ((hugeIndex_iff e).mp h) ht.1))

theorem enumerated_panics {ext : Bool} {lb ub : Option Int} (hl : ∀ l, lb = some l → IsI128 l) (h : ¬ IntegerPanics lb ub)
    {s : Codec} (hs : OctetBuffer s) (hp : decodeEnumerated lb ub ext s = .panic) : ext = true ∧ HugeIndex s := by
  have hroot : ∀ x : Bool, Safe ((decodeInteger lb ub false >>= fun d => (Pure.pure d.1 : M Int)) >>= fun d =>
      (Pure.pure (d, x) : M (Int × Bool))) := fun x =>
    .bind (.bind (.integer lb ub false) fun _ => .pure _) (.bind (.integer lb ub false) (.integer' hl h false) fun d => .pure d.1)
      fun d => .pure (d, x)
  cases ext with
  | false => exact absurd hp (hroot false s hs)
  | true =>
    refine ⟨rfl, ?_⟩
    rcases panics (m := decodeBoolM) hp with hp | ⟨x, t, hb, hp⟩
    · exact absurd hp (Safe.boolM s hs)
    · have ht := Safe.after .boolM hs hb
      cases x with
      | false => exact absurd hp (hroot false t ht)
      | true =>
        rcases panics (m := decodeNormallySmallNonNegative) hp with hp | ⟨_, _, -, hp⟩
        · exact (hugeIndex_iff (Eaten.boolean hs.1 hb)).mpr (hugeNumber_of_panic ht hp)
        · cases hp

theorem enumerated_panic {lb ub : Option Int} {s : Codec} (hs : OctetBuffer s) (h : HugeIndex s) :
    decodeEnumerated lb ub true s = .panic := by
  obtain ⟨t, hb, e⟩ := hugeIndex_first hs.1 h
  have ht := Safe.after .boolM hs hb
  exact panics_then (m := decodeBoolM) hb
    (panics_first (m := decodeNormallySmallNonNegative) (panic_of_hugeNumber ((hugeIndex_iff e).mp h) ht.1))

theorem setKeyFrom_returns (k : Bool) (t : Ty) (v : t.Val) (s : Codec) : ∃ s2, setKeyFrom k t v s = .ok () s2 := by
  unfold Hampi.setKeyFrom
  cases k with
  | false => exact ⟨_, rfl⟩
  | true =>
    cases t.keyValue v with
    | none => exact ⟨_, rfl⟩
    | some x => exact ⟨_, rfl⟩

theorem present_is {bm : List Bool} {i : Nat} {b : Bool} (h : bm[i]? = some b) (s : Codec) : present bm i s = .ok b s := by
  unfold Hampi.present
  rw [h]
  rfl

mutual

theorem Ty.caused : (t : Ty) → t.fit = true → ∀ s, OctetBuffer s → t.decode s = .panic →
    ∃ t' s', t.Reaches s t' s' ∧ t'.Breaks s'
  | .boolean, _, s, hs, hp => absurd hp (Safe.boolM s hs)
  | .null, _, s, hs, hp => by cases hp
  | .integer w lb ub ext, h, s, hs, hp => by
    simp only [Ty.fit, Bool.and_eq_true, decide_eq_true_eq] at h
    exact absurd hp (Safe.bind (.integer lb ub ext) (.integer' (i128Bounds_lower h.1) h.2 ext) (fun _ => .pure _) s hs)
  | .enumerated w lb ub ext, h, s, hs, hp => by
    simp only [Ty.fit, Bool.and_eq_true, decide_eq_true_eq] at h
    rcases panics (m := decodeEnumerated lb ub ext) hp with hp | ⟨_, _, -, hp⟩
    · exact ⟨_, _, .here, enumerated_panics (i128Bounds_lower h.1) h.2 hs hp⟩
    · cases hp
  | .bitstring lb ub ext, h, s, hs, hp => by
    simp only [Ty.fit, Bool.not_eq_true'] at h
    exact absurd hp (Safe.bind (.extBit ext) (.extBit ext) (fun x => .fragments
      (.stringLength x lb ub) (.stringLength' (sizePanics_iff h) x) 16 getBitvec_consumes .bitvec .bitvec) s hs)
  | .octetstring lb ub ext, h, s, hs, hp => by
    simp only [Ty.fit, Bool.not_eq_true'] at h
    exact absurd hp (Safe.bind (.extBit ext) (.extBit ext) (fun x => .fragments
      (.stringLength x lb ub) (.stringLength' (sizePanics_iff h) x) 2 getBytes_consumes .bytes .bytes) s hs)
  | .charstring k lb ub ext, h, s, hs, hp => by
    simp only [Ty.fit, Bool.not_eq_true'] at h
    have : Safe (Ty.charstring k lb ub ext).decode := by cases k <;> exact .string' (sizePanics_iff h) ext
    exact absurd hp (this s hs)
  | .objectIdentifier, _, s, hs, hp => by cases hp
  | .sequence ext n fs, h, s, hs, hp => by
    rcases panics (m := decodeSequenceHeader ext n) hp with hp | ⟨r, t, hr, hp⟩
    · exact absurd hp (Quiet.header (limit := s.bits.length + 1) ext n s hs (by omega))
    · obtain ⟨t', s', h1, h2⟩ := fs.caused n (by simpa only [Ty.fit] using h) r.1 (decodeSequenceHeader_length hr) t
        ((IsDec.sequenceHeader ext n).reader.octets hs hr) hp
      exact ⟨t', s', .sequence hr h1, h2⟩
  | .sequenceOf lb ub ext e, h, s, hs, hp => by
    simp only [Ty.fit, Bool.and_eq_true, Bool.or_eq_true, Bool.not_eq_true'] at h
    obtain ⟨h1, h2⟩ := h
    rcases panics (m := decodeLength lb ub ext) hp with hp | ⟨n, t, hn, hp⟩
    · have : Safe (decodeLength lb ub ext) := by
        cases ext with
        | true => exact .length (.inl rfl)
        | false => exact .length' (sizePanics_iff (h1.resolve_left (by decide)))
      exact absurd hp (this s hs)
    · have ht := (IsDec.length lb ub ext).reader.octets hs hn
      rcases loop_panics hp with ⟨rfl, vs, u, hl⟩ | ⟨i, vs, u, hi, hl, hp⟩
      · exact ⟨_, _, .here, t, vs, u, hn, hl⟩
      · obtain ⟨t', s', h3, h4⟩ := e.caused h2 u ((IsReader.decodeTimes e.decode_reader i).octets ht hl) hp
        exact ⟨t', s', .element hn hi hl h3, h4⟩
  | .choice lb ub ext as, h, s, hs, hp => by
    simp only [Ty.fit, Bool.and_eq_true, decide_eq_true_eq] at h
    obtain ⟨⟨h1, h2⟩, h3⟩ := h
    rcases panics (m := decodeChoiceIdx lb ub ext) hp with hp | ⟨⟨k, x⟩, t, hr, hp⟩
    · exact ⟨_, _, .here, choiceIdx_panics h1 h2 hs hp⟩
    · cases x with
      | true => cases hp
      | false =>
        obtain ⟨t', s', h4, h5⟩ := as.caused h3 k t ((IsDec.choiceIdx lb ub ext).reader.octets hs hr) hp
        exact ⟨t', s', .choice hr h4, h5⟩
  | .openType as, h, s, hs, hp => by
    rcases panics (m := decodeLength none none false) hp with hp | ⟨n, t, hn, hp⟩
    · exact absurd hp (Safe.indefinite s hs)
    · have ht := (IsDec.length none none false).reader.octets hs hn
      rcases panics (m := requireKey) hp with hp | ⟨k, u, hk, hq⟩
      · unfold Hampi.requireKey at hp
        split at hp <;> cases hp
      · have hu : u = t ∧ t.key = some k := by
          unfold Hampi.requireKey at hk
          split at hk
          · next h' => cases hk; exact ⟨rfl, h'⟩
          · cases hk
        obtain ⟨rfl, hk⟩ := hu
        obtain ⟨t', s', h4, h5⟩ := as.caused (by simpa only [Ty.fit] using h) k u ht hq
        exact ⟨t', s', .openType hn hk h4, h5⟩

theorem Fields.caused : (fs : Fields) → (n : Nat) → fs.fit n = true → (bm : List Bool) → bm.length = n →
    ∀ s, OctetBuffer s → fs.decode bm s = .panic → ∃ t' s', fs.Reaches bm s t' s' ∧ t'.Breaks s'
  | .nil, _, _, _, _, _, _, hp => by cases hp
  | .required k t rest, n, h, bm, hb, s, hs, hp => by
    simp only [Fields.fit, Bool.and_eq_true] at h
    rcases panics (m := t.decode) hp with hp | ⟨v, u, hv, hp⟩
    · obtain ⟨t', s', h1, h2⟩ := t.caused h.1 s hs hp
      exact ⟨t', s', .required h1, h2⟩
    · have hu := t.decode_reader.octets hs hv
      rcases panics (m := setKeyFrom k t v) hp with hp | ⟨_, u2, hk, hp⟩
      · obtain ⟨s2, h2⟩ := setKeyFrom_returns k t v u
        rw [h2] at hp
        cases hp
      · have hu2 := (IsReader.setKeyFrom k t v).octets hu hk
        rcases panics (m := rest.decode bm) hp with hp | ⟨_, _, -, hp⟩
        · obtain ⟨t', s', h1, h2⟩ := rest.caused n h.2 bm hb u2 hu2 hp
          exact ⟨t', s', .later hv hk h1, h2⟩
        · cases hp
  | .optional i t rest, n, h, bm, hb, s, hs, hp => by
    simp only [Fields.fit, Bool.and_eq_true, decide_eq_true_eq] at h
    obtain ⟨b, hbm⟩ : ∃ b, bm[i]? = some b := ⟨_, List.getElem?_eq_getElem (by rw [hb]; exact h.1.1)⟩
    rcases panics (m := present bm i) hp with hp | ⟨b', u, hb', hp⟩
    · rw [present_is hbm] at hp
      cases hp
    · rw [present_is hbm] at hb'
      cases hb'
      cases b with
      | true =>
        rcases panics (m := t.decode >>= fun x => Pure.pure (some x)) hp with hp | ⟨o, u, ho, hp⟩
        · rcases panics (m := t.decode) hp with hp | ⟨_, _, -, hp⟩
          · obtain ⟨t', s', h1, h2⟩ := t.caused h.1.2 s hs hp
            exact ⟨t', s', .optional hbm h1, h2⟩
          · cases hp
        · obtain ⟨x, u', hx, ho'⟩ := bind_ok ho
          cases ho'
          rcases panics (m := rest.decode bm) hp with hp | ⟨_, _, -, hp⟩
          · obtain ⟨t', s', h1, h2⟩ := rest.caused n h.2 bm hb u (t.decode_reader.octets hs hx) hp
            exact ⟨t', s', .present hbm hx h1, h2⟩
          · cases hp
      | false =>
        rcases panics (m := (Pure.pure none : M (Option t.Val))) hp with hp | ⟨o, u, ho, hp⟩
        · cases hp
        · cases ho
          rcases panics (m := rest.decode bm) hp with hp | ⟨_, _, -, hp⟩
          · obtain ⟨t', s', h1, h2⟩ := rest.caused n h.2 bm hb s hs hp
            exact ⟨t', s', .absent hbm h1, h2⟩
          · cases hp

theorem Alts.caused : (as : Alts) → as.fit = true → (key : Int) → ∀ s, OctetBuffer s → as.decode key s = .panic →
    ∃ t' s', as.Reaches key s t' s' ∧ t'.Breaks s'
  | .nil, _, _, _, _, hp => by cases hp
  | .cons k x t rest, h, key, s, hs, hp => by
    simp only [Alts.fit, Bool.and_eq_true] at h
    rw [Alts.decode] at hp
    split at hp
    · next hk =>
      subst hk
      rcases panics (m := t.decode) hp with hp | ⟨_, _, -, hp⟩
      · obtain ⟨t', s', h1, h2⟩ := t.caused h.1 s hs hp
        exact ⟨t', s', .this h1, h2⟩
      · cases hp
    · next hk =>
      rcases panics (m := rest.decode key) hp with hp | ⟨_, _, -, hp⟩
      · obtain ⟨t', s', h1, h2⟩ := rest.caused h.2 key s hs hp
        exact ⟨t', s', .other hk h1, h2⟩
      · cases hp

end

theorem Ty.Breaks.panics {t : Ty} {s : Codec} (h : t.Breaks s) (hs : OctetBuffer s) : t.decode s = .panic := by
  cases t with
  | enumerated w lb ub ext =>
    obtain ⟨rfl, h⟩ := h
    exact panics_first (enumerated_panic hs h)
  | choice lb ub ext as =>
    obtain ⟨rfl, h⟩ := h
    exact panics_first (choiceIdx_panic hs h)
  | sequenceOf lb ub ext e =>
    obtain ⟨s1, vs, s2, h1, h2⟩ := h
    refine panics_then (m := decodeLength lb ub ext) h1 ?_
    unfold decodeLoop
    rw [if_pos rfl]
    exact panics_then h2 rfl
  | _ => exact h.elim

mutual

theorem Ty.breaks : (t : Ty) → {s s' : Codec} → {t' : Ty} → OctetBuffer s → t.Reaches s t' s' → t'.Breaks s' →
    t.decode s = .panic
  | _, _, _, _, hs, .here, h => h.panics hs
  | .sequence ext n fs, _, _, _, hs, .sequence hr h1, h =>
    panics_then (m := decodeSequenceHeader ext n) hr
      (fs.breaks ((IsDec.sequenceHeader ext n).reader.octets hs hr) h1 h)
  | .sequenceOf lb ub ext e, _, _, _, hs, .element hn hi hl h1, h =>
    panics_then (m := decodeLength lb ub ext) hn (loop_panic hi hl
      (e.breaks ((IsReader.decodeTimes e.decode_reader _).octets ((IsDec.length lb ub ext).reader.octets hs hn) hl) h1 h))
  | .choice lb ub ext as, _, _, _, hs, .choice hr h1, h =>
    panics_then (m := decodeChoiceIdx lb ub ext) hr (as.breaks ((IsDec.choiceIdx lb ub ext).reader.octets hs hr) h1 h)
  | .openType as, _, _, _, hs, .openType (s1 := s1) hn hk h1, h =>
    panics_then (m := decodeLength none none false) hn (panics_then (m := requireKey) (t := s1)
      (by unfold Hampi.requireKey; rw [hk]) (as.breaks ((IsDec.length none none false).reader.octets hs hn) h1 h))

theorem Fields.breaks : (fs : Fields) → {bm : List Bool} → {s s' : Codec} → {t' : Ty} → OctetBuffer s →
    fs.Reaches bm s t' s' → t'.Breaks s' → fs.decode bm s = .panic
  | .required k t rest, _, _, _, _, hs, .required h1, h => panics_first (t.breaks hs h1 h)
  | .required k t rest, _, _, _, _, hs, .later hv hk h1, h =>
    panics_then (m := t.decode) hv (panics_then (m := setKeyFrom k t _) hk (panics_first
      (rest.breaks ((IsReader.setKeyFrom k t _).octets (t.decode_reader.octets hs hv) hk) h1 h)))
  | .optional i t rest, _, _, _, _, hs, .optional hb h1, h =>
    panics_then (m := present _ i) (present_is hb _) (panics_first (m := t.decode >>= fun x => Pure.pure (some x))
      (panics_first (t.breaks hs h1 h)))
  | .optional i t rest, _, _, _, _, hs, .present (v := v) (s1 := s1) hb hv h1, h =>
    panics_then (m := present _ i) (present_is hb _) (panics_then (m := t.decode >>= fun x => Pure.pure (some x))
      (a := some v) (t := s1) (by rw [M.bind_apply, hv]; rfl)
      (panics_first (rest.breaks (t.decode_reader.octets hs hv) h1 h)))
  | .optional i t rest, _, _, _, _, hs, .absent hb h1, h =>
    panics_then (m := present _ i) (present_is hb _) (panics_then (m := (Pure.pure none : M (Option t.Val))) rfl
      (panics_first (rest.breaks hs h1 h)))

theorem Alts.breaks : (as : Alts) → {key : Int} → {s s' : Codec} → {t' : Ty} → OctetBuffer s →
    as.Reaches key s t' s' → t'.Breaks s' → as.decode key s = .panic
  | .cons k x t rest, _, _, _, _, hs, .this h1, h => by
    rw [Alts.decode, if_pos rfl]
    exact panics_first (t.breaks hs h1 h)
  | .cons k x t rest, _, _, _, _, hs, .other hk h1, h => by
    rw [Alts.decode, if_neg hk]
    exact panics_first (rest.breaks hs h1 h)

end

/-! ## Types without lists of elements that occupy no bits -/

mutual

theorem Ty.fit_of_sane : (t : Ty) → t.sane true = true → t.fit = true
  | .boolean, _ | .null, _ | .objectIdentifier, _ => rfl
  | .integer .., h | .bitstring .., h | .octetstring .., h | .charstring .., h => h
  | .enumerated .., h => by simpa [Ty.sane, Ty.fit] using h
  | .sequence _ n fs, h => fs.fit_of_sane n h
  | .sequenceOf lb ub ext e, h => by
    simp only [Ty.sane, Bool.and_eq_true] at h
    simp only [Ty.fit, Bool.and_eq_true]
    exact ⟨h.1.1, e.fit_of_sane h.1.2⟩
  | .choice lb ub ext as, h => by
    simp only [Ty.sane, Bool.and_eq_true] at h
    simp only [Ty.fit, Bool.and_eq_true]
    exact ⟨⟨h.1.1.2, h.1.2⟩, as.fit_of_sane h.2⟩
  | .openType as, h => as.fit_of_sane h

theorem Fields.fit_of_sane (n : Nat) : (fs : Fields) → fs.sane true n = true → fs.fit n = true
  | .nil, _ => rfl
  | .required _ t rest, h => by
    simp only [Fields.sane, Bool.and_eq_true] at h
    simp only [Fields.fit, Bool.and_eq_true]
    exact ⟨t.fit_of_sane h.1, rest.fit_of_sane n h.2⟩
  | .optional _ t rest, h => by
    simp only [Fields.sane, Bool.and_eq_true] at h
    simp only [Fields.fit, Bool.and_eq_true]
    exact ⟨⟨h.1.1, t.fit_of_sane h.1.2⟩, rest.fit_of_sane n h.2⟩

theorem Alts.fit_of_sane : (as : Alts) → as.sane true = true → as.fit = true
  | .nil, _ => rfl
  | .cons _ _ t rest, h => by
    simp only [Alts.sane, Bool.and_eq_true] at h
    simp only [Alts.fit, Bool.and_eq_true]
    exact ⟨t.fit_of_sane h.1, rest.fit_of_sane h.2⟩

end

mutual

/-- A component of such a type is one, and is looked for in the same buffer. -/
theorem Ty.reached : (t : Ty) → {s s' : Codec} → {t' : Ty} → OctetBuffer s → t.Reaches s t' s' → t.sane true = true →
    t'.sane true = true ∧ OctetBuffer s' ∧ s'.bits = s.bits
  | _, _, _, _, hs, .here, h => ⟨h, hs, rfl⟩
  | .sequence ext n fs, _, _, _, hs, .sequence hr h1, h => by
    obtain ⟨a, b, c⟩ := fs.reached (n := n) ((IsDec.sequenceHeader ext n).reader.octets hs hr) h1 h
    exact ⟨a, b, c.trans ((IsDec.sequenceHeader ext n).reader.same hr)⟩
  | .sequenceOf lb ub ext e, _, _, _, hs, .element (i := i) hn hi hl h1, h => by
    simp only [Ty.sane, Bool.and_eq_true] at h
    have hd := IsReader.decodeTimes e.decode_reader i
    obtain ⟨a, b, c⟩ := e.reached (hd.octets ((IsDec.length lb ub ext).reader.octets hs hn) hl) h1 h.1.2
    exact ⟨a, b, c.trans ((hd.same hl).trans ((IsDec.length lb ub ext).reader.same hn))⟩
  | .choice lb ub ext as, _, _, _, hs, .choice hr h1, h => by
    simp only [Ty.sane, Bool.and_eq_true] at h
    obtain ⟨a, b, c⟩ := as.reached ((IsDec.choiceIdx lb ub ext).reader.octets hs hr) h1 h.2
    exact ⟨a, b, c.trans ((IsDec.choiceIdx lb ub ext).reader.same hr)⟩
  | .openType as, _, _, _, hs, .openType hn hk h1, h => by
    obtain ⟨a, b, c⟩ := as.reached ((IsDec.length none none false).reader.octets hs hn) h1 h
    exact ⟨a, b, c.trans ((IsDec.length none none false).reader.same hn)⟩

theorem Fields.reached : (fs : Fields) → {n : Nat} → {bm : List Bool} → {s s' : Codec} → {t' : Ty} → OctetBuffer s →
    fs.Reaches bm s t' s' → fs.sane true n = true → t'.sane true = true ∧ OctetBuffer s' ∧ s'.bits = s.bits
  | .required k t rest, _, _, _, _, _, hs, .required h1, h => by
    simp only [Fields.sane, Bool.and_eq_true] at h
    exact t.reached hs h1 h.1
  | .required k t rest, _, _, _, _, _, hs, .later (v := v) hv hk h1, h => by
    simp only [Fields.sane, Bool.and_eq_true] at h
    have hu := t.decode_reader.octets hs hv
    obtain ⟨a, b, c⟩ := rest.reached ((IsReader.setKeyFrom k t v).octets hu hk) h1 h.2
    exact ⟨a, b, c.trans (((IsReader.setKeyFrom k t v).same hk).trans (t.decode_reader.same hv))⟩
  | .optional i t rest, _, _, _, _, _, hs, .optional hb h1, h => by
    simp only [Fields.sane, Bool.and_eq_true] at h
    exact t.reached hs h1 h.1.2
  | .optional i t rest, _, _, _, _, _, hs, .present hb hv h1, h => by
    simp only [Fields.sane, Bool.and_eq_true] at h
    obtain ⟨a, b, c⟩ := rest.reached (t.decode_reader.octets hs hv) h1 h.2
    exact ⟨a, b, c.trans (t.decode_reader.same hv)⟩
  | .optional i t rest, _, _, _, _, _, hs, .absent hb h1, h => by
    simp only [Fields.sane, Bool.and_eq_true] at h
    exact rest.reached hs h1 h.2

theorem Alts.reached : (as : Alts) → {key : Int} → {s s' : Codec} → {t' : Ty} → OctetBuffer s →
    as.Reaches key s t' s' → as.sane true = true → t'.sane true = true ∧ OctetBuffer s' ∧ s'.bits = s.bits
  | .cons k x t rest, _, _, _, _, hs, .this h1, h => by
    simp only [Alts.sane, Bool.and_eq_true] at h
    exact t.reached hs h1 h.1
  | .cons k x t rest, _, _, _, _, hs, .other hk h1, h => by
    simp only [Alts.sane, Bool.and_eq_true] at h
    exact rest.reached hs h1 h.2

end

/-- There the index of an extension is the only thing that breaks a decoder. -/
theorem Ty.Breaks.indexed {t : Ty} {s : Codec} (h : t.Breaks s) (ht : t.sane true = true) (hs : OctetBuffer s)
    (hl : s.bits.length < 2 ^ 64) : t.Indexed ∧ HugeIndex s := by
  cases t with
  | enumerated w lb ub ext => exact h
  | choice lb ub ext as => exact h
  | sequenceOf lb ub ext e =>
    exfalso
    obtain ⟨s1, vs, s2, h1, h2⟩ := h
    simp only [Ty.sane, Bool.and_eq_true, Bool.or_eq_true, Bool.not_eq_true'] at ht
    obtain ⟨⟨h3, h4⟩, h5⟩ := ht
    rcases h5 with h5 | h5
    · have ho : s1.off + 2 ^ 64 ≤ s2.off := decodeTimes_takes (e.takes h5) _ _ _ _ h2
      have hs1 := (IsDec.length lb ub ext).reader.octets hs h1
      have h6 := (IsReader.decodeTimes e.decode_reader (2 ^ 64)).octets hs1 h2
      have h7 := (IsReader.decodeTimes e.decode_reader (2 ^ 64)).same h2
      have h8 := (IsDec.length lb ub ext).reader.same h1
      have h9 := h6.1
      rw [h7, h8] at h9
      omega
    · exact neverEmpty_length h5 h3 h1 rfl
  | _ => exact h.elim

theorem Ty.Indexed.breaks {t : Ty} {s : Codec} (h : t.Indexed) (hh : HugeIndex s) : t.Breaks s := by
  cases t with
  | enumerated w lb ub ext => exact ⟨h, hh⟩
  | choice lb ub ext as => exact ⟨h, hh⟩
  | _ => exact h.elim

end Hampi
