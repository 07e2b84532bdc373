import Verif.Props.Hostile
import Verif.Props.PanicsExact
import Verif.Spec.Short
/-!
# C105 and C111: messages that are too short to make a decoder panic
-/
namespace Hampi

open Spec (IntPanics IntegerPanics SizePanics NotUsize)

variable {α β : Type}

/-- The decoder does not panic on octet buffers of less than `limit` bits. -/
def Quiet (limit : Nat) (m : M α) : Prop := ∀ s, OctetBuffer s → s.bits.length < limit → m s ≠ .panic

theorem Quiet.of {limit : Nat} {m : M α} (h : Safe m) : Quiet limit m := fun s hs _ => h s hs

theorem Quiet.bind' {limit : Nat} {m : M α} {g : α → M β} (hd : IsReader m) (hm : Quiet limit m)
    (hg : ∀ a s s', m s = .ok a s' → Quiet limit (g a)) : Quiet limit (m >>= g) := by
  intro s hs hl h
  rw [M.bind_apply] at h
  cases hr : m s with
  | ok a t =>
    rw [hr] at h
    have hf := hd.frame s
    rw [hr] at hf
    obtain ⟨h1, -, h3⟩ := hf
    refine hg a _ _ hr t ⟨?_, ?_⟩ ?_ h <;> rw [h1]
    · exact h3 hs.1
    · exact hs.2
    · exact hl
  | err t => rw [hr] at h; cases h
  | panic => exact hm s hs hl hr

theorem Quiet.bind {limit : Nat} {m : M α} {g : α → M β} (hd : IsReader m) (hm : Quiet limit m)
    (hg : ∀ a, Quiet limit (g a)) : Quiet limit (m >>= g) := Quiet.bind' hd hm fun a _ _ _ => hg a

theorem Quiet.pure {limit : Nat} (a : α) : Quiet limit (Pure.pure a : M α) := .of (.pure a)

theorem Quiet.ite {limit : Nat} {c : Prop} [Decidable c] {a b : M α} (ha : c → Quiet limit a)
    (hb : ¬ c → Quiet limit b) : Quiet limit (if c then a else b) := by
  split
  · next h => exact ha h
  · next h => exact hb h

theorem Quiet.times {limit : Nat} {dec : M α} (hd : IsReader dec) (h : Quiet limit dec) :
    (n : Nat) → Quiet limit (decodeTimes dec n)
  | 0 => .pure _
  | n + 1 => .bind hd h fun _ => .bind (.decodeTimes hd n) (Quiet.times hd h n) fun _ => .pure _

theorem Quiet.loop {limit : Nat} (hlim : limit ≤ 2 ^ 64) {dec : M α} (hd : IsReader dec) (h : Quiet limit dec) {n : Nat}
    (hc : Takes dec 1 ∨ n ≠ 0) : Quiet limit (decodeLoop dec n) := by
  unfold decodeLoop
  by_cases hn : n = 0
  · rw [if_pos hn]
    have ht := hc.resolve_right (fun h => h hn)
    intro s hs hl hp
    rw [M.bind_apply] at hp
    cases hr : decodeTimes dec (2 ^ 64) s with
    | ok v t =>
      have h1 : s.off + 2 ^ 64 ≤ t.off := decodeTimes_takes ht _ _ _ _ hr
      have h2 := (IsReader.decodeTimes hd (2 ^ 64)).frame s
      rw [hr] at h2
      have := h2.2.2 hs.1
      omega
    | err t => rw [hr] at hp; cases hp
    | panic => exact Quiet.times hd h _ s hs hl hr
  · rw [if_neg hn]
    exact Quiet.times hd h n

/-! ## The extension index -/

/-- A length read after at least one bit ends after the second octet. -/
theorem indefinite_off {s t : Codec} {n : Nat} (hs : 1 ≤ s.off) (h : decodeIndefiniteLength s = .ok n t) : 16 ≤ t.off := by
  unfold decodeIndefiniteLength at h
  obtain ⟨_, u, h1, h⟩ := bind_ok h
  have hu : 8 ≤ u.off := by
    unfold decodeAlign at h1
    split at h1
    · cases h1; omega
    · dsimp only at h1
      split at h1
      · cases h1
      · split at h1
        · cases h1; dsimp only; omega
        · cases h1
  obtain ⟨b, u1, h2, h⟩ := bind_ok h
  have e1 : u.off + 1 ≤ u1.off := Costs.boolM _ _ _ h2
  split at h
  · obtain ⟨l, u2, h3, h⟩ := bind_ok h
    have e2 : u1.off + 7 ≤ u2.off := Costs.unsigned 7 _ _ _ h3
    cases h
    omega
  · obtain ⟨c, u2, h3, h⟩ := bind_ok h
    have e2 : u1.off + 1 ≤ u2.off := Costs.boolM _ _ _ h3
    split at h
    · obtain ⟨l, u3, h4, h⟩ := bind_ok h
      have e3 : u2.off + 14 ≤ u3.off := Costs.unsigned 14 _ _ _ h4
      cases h
      omega
    · obtain ⟨l, u3, h4, h⟩ := bind_ok h
      have e3 : u2.off + 6 ≤ u3.off := Costs.unsigned 6 _ _ _ h4
      split at h
      · cases h
      · cases h
        omega

/-- After the first bit, an extension index in a buffer of up to 18 octets does not panic. -/
theorem extension_index_quiet {s : Codec} (hs : OctetBuffer s) (hl : s.bits.length < 145) (ho : 1 ≤ s.off) :
    decodeNormallySmallNonNegative s ≠ .panic := by
  intro h
  unfold decodeNormallySmallNonNegative at h
  rw [M.bind_apply] at h
  cases hb : decodeBoolM s with
  | panic => exact Safe.boolM s hs hb
  | err t => rw [hb] at h; cases h
  | ok b t =>
    rw [hb] at h
    dsimp only at h
    have ht := Safe.after .boolM hs hb
    have e1 : s.off + 1 ≤ t.off := Costs.boolM _ _ _ hb
    have hbits : t.bits = s.bits := by
      have := (IsDec.boolM).reader.frame s
      rw [hb] at this
      exact this.1
    cases b with
    | false => exact Safe.unsigned (by omega) t ht h
    | true =>
      have h : (decodeIndefiniteLength >>= fun length => decodeBitsAsInteger (length * 8) false >>= fun val =>
        chkI128 (val + 0)) t = .panic := h
      rw [M.bind_apply] at h
      cases hi : decodeIndefiniteLength t with
      | panic => exact Safe.indefinite t ht hi
      | err u => rw [hi] at h; cases h
      | ok l u =>
        rw [hi] at h
        dsimp only at h
        have hu := Safe.after .indefinite ht hi
        have e2 := indefinite_off (by omega) hi
        have hbu : u.bits = t.bits := by
          have := (IsDec.indefinite).reader.frame t
          rw [hi] at this
          exact this.1
        rw [M.bind_apply] at h
        cases hv : decodeBitsAsInteger (l * 8) false u with
        | err w => rw [hv] at h; cases h
        | panic =>
          by_cases h128 : l * 8 ≤ 128
          · exact Safe.unsigned h128 u hu hv
          · have h1 := hu.1
            rw [hbu, hbits] at h1
            unfold decodeBitsAsInteger at hv
            rw [if_neg (by rw [hbu, hbits]; omega), if_pos (by rw [hbu, hbits]; omega)] at hv
            cases hv
        | ok v w =>
          rw [hv] at h
          have h : chkI128 (v + 0) w = .panic := h
          rw [Int.add_zero] at h
          unfold chkI128 at h
          rw [if_pos (bitsAsInteger_i128 hv)] at h
          cases h

/-- The extension index after the extension bit. -/
theorem after_bit {limit : Nat} (hlim : limit ≤ 145) {g : Bool → M α} (hf : Quiet limit (g false))
    (ht : ∀ s, OctetBuffer s → s.bits.length < 145 → 1 ≤ s.off → g true s ≠ .panic) : Quiet limit (decodeBoolM >>= g) := by
  intro s hs hl h
  rw [M.bind_apply] at h
  cases hb : decodeBoolM s with
  | panic => exact Safe.boolM s hs hb
  | err t => rw [hb] at h; cases h
  | ok b t =>
    rw [hb] at h
    dsimp only at h
    have h1 := Safe.after .boolM hs hb
    have e1 : s.off + 1 ≤ t.off := Costs.boolM _ _ _ hb
    have hbits : t.bits = s.bits := by
      have := (IsDec.boolM).reader.frame s
      rw [hb] at this
      exact this.1
    cases b with
    | false => exact hf t h1 (by rw [hbits]; exact hl) h
    | true => exact ht t h1 (by rw [hbits]; omega) (by omega) h

theorem then_pure {m : M α} {f : α → β} {s : Codec} (h : m s ≠ .panic) : (m >>= fun a => (Pure.pure (f a) : M β)) s ≠ .panic := by
  intro hp
  rw [M.bind_apply] at hp
  cases hm : m s with
  | ok a t => rw [hm] at hp; cases hp
  | err t => rw [hm] at hp; cases hp
  | panic => exact h hm

/-! ## Types -/

/-- The number of bits below which a message is short, or the address space. -/
def limitOf (short : Bool) : Nat := if short then 145 else 2 ^ 64

theorem limitOf_le (short : Bool) : limitOf short ≤ 2 ^ 64 := by cases short <;> decide

theorem sizePanics_iff {lb ub : Option Int} (h : sizePanics lb ub = false) : ¬ SizePanics lb ub := by
  rintro (⟨l, rfl, h'⟩ | ⟨u, rfl, h'⟩ | ⟨l, u, rfl, rfl, h1, h2⟩)
  · simp only [sizePanics, Option.any_some, Bool.or_eq_false_iff, decide_eq_false_iff_not] at h
    exact h.1.1 h'
  · simp only [sizePanics, Option.any_some, Bool.or_eq_false_iff, decide_eq_false_iff_not] at h
    exact h.1.2 h'
  · simp only [sizePanics, Bool.or_eq_false_iff, decide_eq_false_iff_not] at h
    exact h.2 ⟨h1, h2⟩

theorem i128Bounds_lower {lb ub : Option Int} (h : i128Bounds lb ub = true) : ∀ l, lb = some l → IsI128 l := by
  rintro l rfl
  simp only [i128Bounds, Option.all_some, Bool.and_eq_true, decide_eq_true_eq] at h
  exact h.1

theorem neverEmpty_length {lb ub : Option Int} {ext : Bool} (h : neverEmpty lb ub ext = true)
    (hs : ext = true ∨ sizePanics lb ub = false) {s t : Codec} {n : Nat} (hd : decodeLength lb ub ext s = .ok n t) : n ≠ 0 := by
  cases lb with
  | none => cases h
  | some l =>
    cases ub with
    | none => cases h
    | some u =>
      simp only [neverEmpty, Bool.and_eq_true, Bool.not_eq_true', decide_eq_true_eq] at h
      obtain ⟨rfl, h1, h2⟩ := h
      have hp := sizePanics_iff (hs.resolve_left (by decide))
      refine decodeLength_pos ⟨⟨?_, ?_⟩, ?_⟩ h1 h2 hd
      · rintro l' e; cases e
        apply Decidable.byContradiction
        intro hn
        exact hp (.inl ⟨l, rfl, by unfold NotUsize; omega⟩)
      · rintro l' e; cases e
        apply Decidable.byContradiction
        intro hn
        exact hp (.inr (.inl ⟨u, rfl, by unfold NotUsize; omega⟩))
      · rintro l' u' e e'; cases e; cases e'
        apply Decidable.byContradiction
        intro hn
        exact hp (.inr (.inr ⟨l, u, rfl, rfl, h2, by omega⟩))

theorem Quiet.of_firm_present {limit : Nat} {bm : List Bool} {i : Nat} (h : i < bm.length) : Quiet limit (present bm i) := by
  unfold Hampi.present
  rw [List.getElem?_eq_getElem h]
  exact .pure _

theorem Quiet.setKeyFrom {limit : Nat} (k : Bool) (t : Ty) (v : t.Val) : Quiet limit (setKeyFrom k t v) := by
  unfold Hampi.setKeyFrom
  split
  · intro s _ _ h; cases h
  · exact .pure _

theorem Quiet.requireKey {limit : Nat} : Quiet limit requireKey := by
  intro s _ _ h
  unfold Hampi.requireKey at h
  split at h <;> cases h

theorem Quiet.header {limit : Nat} (e : Bool) (n : Nat) : Quiet limit (decodeSequenceHeader e n) := by
  refine .of (.bind (.extBit e) (.extBit e) fun _ => .bind ?_ ?_ fun _ => .pure _)
  · unfold decodeBitmap; exact .ite (.bitvec _) (.pure _)
  · unfold decodeBitmap; exact .ite (fun _ => .bitvec _) fun _ => .pure _

theorem Quiet.enumerated {short ext : Bool} {lb ub : Option Int} (he : short = true ∨ ext = false)
    (hl : ∀ l, lb = some l → IsI128 l) (h : ¬ IntegerPanics lb ub) : Quiet (limitOf short) (decodeEnumerated lb ub ext) := by
  have hroot : ∀ x : Bool, Safe ((decodeInteger lb ub false >>= fun d => (Pure.pure d.1 : M Int)) >>= fun d =>
      (Pure.pure (d, x) : M (Int × Bool))) := fun x =>
    .bind (.bind (.integer lb ub false) fun _ => .pure _) (.bind (.integer lb ub false) (.integer' hl h false) fun d => .pure d.1)
      fun d => .pure (d, x)
  cases ext with
  | false => exact .of (hroot false)
  | true =>
    have hshort : short = true := he.resolve_right (by decide)
    subst hshort
    refine after_bit (g := fun x => decodeEnumeratedValue lb ub x >>= fun v => (Pure.pure (v, x) : M (Int × Bool)))
      (Nat.le_refl _) (.of (hroot false)) fun s hs hl ho => ?_
    exact then_pure (m := decodeNormallySmallNonNegative) (extension_index_quiet hs hl ho)

theorem Quiet.choiceIdx {short ext : Bool} {lb ub : Int} (he : short = true ∨ ext = false)
    (hl : IsI128 lb) (h : ¬ IntPanics lb ub) : Quiet (limitOf short) (decodeChoiceIdx lb ub ext) := by
  have hroot : ∀ x : Bool, Safe (decodeInteger (some lb) (some ub) false >>= fun d => (Pure.pure (d.1, x) : M (Int × Bool))) :=
    fun x => .bind (.integer _ _ _) (.integer' (lb := some lb) (ub := some ub) (fun l e => by cases e; exact hl) h _) fun _ => .pure _
  cases ext with
  | false => exact .of (hroot false)
  | true =>
    have hshort : short = true := he.resolve_right (by decide)
    subst hshort
    refine after_bit (g := fun x => if !x then (decodeInteger (some lb) (some ub) false >>= fun r =>
      (Pure.pure (r.1, x) : M (Int × Bool))) else (decodeNormallySmallNonNegative >>= fun idx => Pure.pure (idx, x)))
      (Nat.le_refl _) (.of (hroot false)) fun s hs hl ho => ?_
    exact then_pure (m := decodeNormallySmallNonNegative) (extension_index_quiet hs hl ho)

mutual

theorem Ty.quiet (short : Bool) : (t : Ty) → t.sane short = true → Quiet (limitOf short) t.decode
  | .boolean, _ => .of .boolM
  | .null, _ => .pure _
  | .integer w lb ub ext, h => by
    simp only [Ty.sane, Bool.and_eq_true, decide_eq_true_eq] at h
    exact .bind (IsDec.integer lb ub ext).reader (.of (.integer' (i128Bounds_lower h.1) h.2 ext)) fun _ => .pure _
  | .enumerated w lb ub ext, h => by
    simp only [Ty.sane, Bool.and_eq_true, Bool.or_eq_true, Bool.not_eq_true', decide_eq_true_eq] at h
    exact .bind (IsDec.enumerated lb ub ext).reader (.enumerated h.1.1 (i128Bounds_lower h.1.2) h.2) fun _ => .pure _
  | .bitstring lb ub ext, h => by
    simp only [Ty.sane, Bool.not_eq_true'] at h
    exact .of (.bind (.extBit ext) (.extBit ext) fun x => .fragments
      (.stringLength x lb ub) (.stringLength' (sizePanics_iff h) x) 16 getBitvec_consumes .bitvec .bitvec)
  | .octetstring lb ub ext, h => by
    simp only [Ty.sane, Bool.not_eq_true'] at h
    exact .of (.bind (.extBit ext) (.extBit ext) fun x => .fragments
      (.stringLength x lb ub) (.stringLength' (sizePanics_iff h) x) 2 getBytes_consumes .bytes .bytes)
  | .charstring k lb ub ext, h => by
    simp only [Ty.sane, Bool.not_eq_true'] at h
    exact .of (by cases k <;> exact .string' (sizePanics_iff h) ext)
  | .objectIdentifier, _ => .of .fail
  | .sequence ext n fs, h =>
    .bind' (IsDec.sequenceHeader ext n).reader (.header ext n) fun r _ _ hr =>
      fs.quiet short n (by simpa only [Ty.sane] using h) r.1 (decodeSequenceHeader_length hr)
  | .sequenceOf lb ub ext e, h => by
    simp only [Ty.sane, Bool.and_eq_true, Bool.or_eq_true, Bool.not_eq_true'] at h
    obtain ⟨⟨h1, h2⟩, h3⟩ := h
    refine .bind' (IsDec.length lb ub ext).reader (.of ?_) fun n s s' hr => ?_
    · rcases h1 with rfl | h1
      · exact .length (.inl rfl)
      · cases ext with
        | true => exact .length (.inl rfl)
        | false => exact .length' (sizePanics_iff h1)
    · refine .loop (limitOf_le short) e.decode_reader (e.quiet short h2) ?_
      rcases h3 with h3 | h3
      · exact .inl (e.takes h3)
      · exact .inr (neverEmpty_length h3 h1 hr)
  | .choice lb ub ext as, h => by
    simp only [Ty.sane, Bool.and_eq_true, Bool.or_eq_true, Bool.not_eq_true', decide_eq_true_eq] at h
    obtain ⟨⟨⟨h1, h2⟩, h3⟩, h4⟩ := h
    exact .bind (IsDec.choiceIdx lb ub ext).reader (.choiceIdx h1 h2 h3) fun r =>
      .ite (fun _ => as.quiet short h4 r.1) fun _ => .of .fail
  | .openType as, h =>
    .bind (IsDec.length none none false).reader (.of (.length (.inr (by
      refine ⟨⟨?_, ?_⟩, ?_⟩
      · intro l h; cases h
      · intro l h; cases h
      · intro l u h; cases h)))) fun _ =>
      .bind .requireKey .requireKey fun k => as.quiet short (by simpa only [Ty.sane] using h) k

theorem Fields.quiet (short : Bool) : (fs : Fields) → (n : Nat) → fs.sane short n = true → (bm : List Bool) →
    bm.length = n → Quiet (limitOf short) (fs.decode bm)
  | .nil, _, _, _, _ => .pure _
  | .required k t rest, n, h, bm, hb => by
    simp only [Fields.sane, Bool.and_eq_true] at h
    exact .bind t.decode_reader (t.quiet short h.1) fun v => .bind (.setKeyFrom k t v) (.setKeyFrom k t v) fun _ =>
      .bind (rest.decode_reader bm) (rest.quiet short n h.2 bm hb) fun _ => .pure _
  | .optional i t rest, n, h, bm, hb => by
    simp only [Fields.sane, Bool.and_eq_true, decide_eq_true_eq] at h
    exact .bind (.present bm i) (.of_firm_present (by rw [hb]; exact h.1.1)) fun _ =>
      .bind (.ite (.bind t.decode_reader fun _ => .pure _) (.pure _))
        (.ite (fun _ => .bind t.decode_reader (t.quiet short h.1.2) fun _ => .pure _) fun _ => .pure _) fun _ =>
          .bind (rest.decode_reader bm) (rest.quiet short n h.2 bm hb) fun _ => .pure _

theorem Alts.quiet (short : Bool) : (as : Alts) → as.sane short = true → (key : Int) → Quiet (limitOf short) (as.decode key)
  | .nil, _, _ => .of .fail
  | .cons k x t rest, h, key => by
    simp only [Alts.sane, Bool.and_eq_true] at h
    exact .ite (fun _ => .bind t.decode_reader (t.quiet short h.1) fun _ => .pure _)
      fun _ => .bind (rest.decode_reader key) (rest.quiet short h.2 key) fun _ => .pure _

end

/-- **C105 (partial).** As `C105_no_panic_partial`, with the exact conditions on bounds: an INTEGER only has to keep clear
of the bounds of C24. -/
theorem C105_exact_bounds_partial (t : Ty) (ht : t.sane false = true) (octets : List UInt8)
    (hlen : 8 * octets.length < 2 ^ 64) (position : Nat) (hp : position ≤ 8 * octets.length)
    (key : Option Int) : t.decode ⟨bytesBits octets, position, key⟩ ≠ .panic :=
  t.quiet false ht _ (by unfold OctetBuffer; simp; exact hp) (by simpa [limitOf] using hlen)

/-- **C105 (partial).** Messages of at most 18 octets do not make a derived decoder panic, extensible CHOICE and
ENUMERATED types included; with 19 octets these do panic (`C105_extension_violated`). Excluded are still lists whose
elements occupy no bits, and the bounds of C24. -/
theorem C105_short_partial (t : Ty) (ht : t.sane true = true) (octets : List UInt8) (hlen : octets.length ≤ 18)
    (position : Nat) (hp : position ≤ 8 * octets.length) (key : Option Int) :
    t.decode ⟨bytesBits octets, position, key⟩ ≠ .panic :=
  t.quiet true ht _ (by unfold OctetBuffer; simp; exact hp) (by simp [limitOf]; omega)

example : (Ty.choice 0 1 true (.cons 0 false (.enumerated .u8 (some 0) (some 3) true)
    (.cons 1 false (.sequenceOf (some 0) (some 65535) false .boolean) .nil))).sane true = true := by decide
end Hampi
