import Verif.Lemmas.Work
import Verif.Props.Cause
/-!
# C137: decoding does no more than the message warrants, accepted or not
-/
namespace Hampi

variable {α β : Type} {st : Bool}

/-! ## What the count means -/

theorem after_ok {m : M α} {w : α → Codec → Nat} {s s1 : Codec} {a : α} (h : m s = .ok a s1) : after m w s = w a s1 := by
  unfold after
  rw [h]

theorem workTimes_ok {dec : M α} {work : Codec → Nat} {parts : α → Nat}
    (h : ∀ s s' v, dec s = .ok v s' → work s = parts v) :
    (n : Nat) → (s s' : Codec) → (v : List α) → decodeTimes dec n s = .ok v s' →
      workTimes dec work n s = (v.map parts).sum
  | 0, s, s', v, hv => by cases hv; rfl
  | n + 1, s, s', v, hv => by
    obtain ⟨x, t, h1, hv⟩ := bind_ok hv
    obtain ⟨xs, t2, h2, hv⟩ := bind_ok hv
    cases hv
    show work s + after dec _ s = _
    rw [after_ok h1, h s t x h1, workTimes_ok h n t _ xs h2]
    simp

mutual

theorem Ty.work_parts : (t : Ty) → (s s' : Codec) → (v : t.Val) → t.decode s = .ok v s' → t.work s = t.parts v
  | .boolean, _, _, _, _ => rfl
  | .null, _, _, _, _ => rfl
  | .integer .., _, _, _, _ => rfl
  | .enumerated .., _, _, _, _ => rfl
  | .bitstring .., _, _, _, _ => rfl
  | .octetstring .., _, _, _, _ => rfl
  | .charstring .., _, _, _, _ => rfl
  | .objectIdentifier, _, _, _, _ => rfl
  | .sequence ext n fs, s, s', v, h => by
    obtain ⟨r, t, h1, h2⟩ := bind_ok h
    show 1 + after (decodeSequenceHeader ext n) _ s = 1 + fs.parts v
    rw [after_ok h1, fs.work_parts r.1 t s' v h2]
  | .sequenceOf lb ub ext e, s, s', v, h => by
    obtain ⟨n, t, h1, h2⟩ := bind_ok h
    obtain ⟨hn, h2⟩ := decodeLoop_ok h2
    show 1 + after (decodeLength lb ub ext) _ s = 1 + (List.map e.parts v).sum
    rw [after_ok h1, if_neg (by omega), workTimes_ok e.work_parts n t s' v h2]
  | .choice lb ub ext as, s, s', v, h => by
    obtain ⟨r, t, h1, h2⟩ := bind_ok h
    obtain ⟨k, x⟩ := r
    show 1 + after (decodeChoiceIdx lb ub ext) _ s = 1 + as.parts v
    rw [after_ok h1]
    cases x with
    | false =>
      show 1 + as.work k t = _
      rw [as.work_parts k t s' v h2]
    | true => cases h2
  | .openType as, s, s', v, h => by
    obtain ⟨r, t, h1, h2⟩ := bind_ok h
    obtain ⟨k, t2, h3, h4⟩ := bind_ok h2
    show 1 + after (decodeLength none none false) _ s = 1 + as.parts v
    rw [after_ok h1, after_ok h3, as.work_parts k t2 s' v h4]

theorem Fields.work_parts : (fs : Fields) → (bm : List Bool) → (s s' : Codec) → (v : fs.Val) →
    fs.decode bm s = .ok v s' → fs.work bm s = fs.parts v
  | .nil, _, _, _, _, _ => rfl
  | .required k t rest, bm, s, s', v, h => by
    obtain ⟨x, t1, h1, h⟩ := bind_ok h
    obtain ⟨_, t2, h2, h⟩ := bind_ok h
    obtain ⟨xs, t3, h3, h⟩ := bind_ok h
    cases h
    show t.work s + after t.decode _ s = t.parts x + rest.parts xs
    rw [after_ok h1, after_ok h2, t.work_parts s t1 x h1, rest.work_parts bm t2 _ xs h3]
  | .optional i t rest, bm, s, s', v, h => by
    obtain ⟨b, t0, h0, h⟩ := bind_ok h
    obtain ⟨x, t1, h1, h⟩ := bind_ok h
    obtain ⟨xs, t3, h3, h⟩ := bind_ok h
    cases h
    have hb : bm[i]? = some b ∧ t0 = s := by
      unfold present at h0
      cases hb : bm[i]? with
      | none => rw [hb] at h0; cases h0
      | some c => rw [hb] at h0; cases h0; exact ⟨rfl, rfl⟩
    obtain ⟨hb, rfl⟩ := hb
    unfold Fields.work
    rw [hb]
    cases b with
    | true =>
      obtain ⟨y, t4, h5, h6⟩ := bind_ok h1
      cases h6
      show 1 + t.work _ + after t.decode _ _ = 1 + t.parts y + rest.parts xs
      rw [after_ok h5, t.work_parts _ _ y h5, rest.work_parts bm _ _ xs h3]
    | false =>
      cases h1
      show 1 + rest.work bm _ = 1 + 0 + rest.parts xs
      rw [rest.work_parts bm _ _ xs h3]

theorem Alts.work_parts : (as : Alts) → (key : Int) → (s s' : Codec) → (v : as.Val) →
    as.decode key s = .ok v s' → as.work key s = as.parts v
  | .nil, _, _, _, _, h => by cases h
  | .cons k x t rest, key, s, s', v, h => by
    simp only [Alts.decode] at h
    unfold Alts.work
    rw [M.ite_apply] at h
    split at h
    · next hk =>
      obtain ⟨y, t1, h1, h⟩ := bind_ok h
      cases h
      rw [if_pos hk, t.work_parts s _ y h1]
      rfl
    · next hk =>
      obtain ⟨y, t1, h1, h⟩ := bind_ok h
      cases h
      rw [if_neg hk, rest.work_parts key s _ y h1]
      rfl

end

/-- **C137, accepted messages.** What is done to decode a value is one call for each value in it (and one step for each
optional component). -/
theorem C137_accepted (t : Ty) (s s' : Codec) (v : t.Val) (h : t.decode s = .ok v s') : t.work s = t.parts v :=
  t.work_parts s s' v h

/-- A SEQUENCE with two components, one of them absent: the SEQUENCE, the BOOLEAN, the absent one. -/
example : (Ty.sequence false 1 (.required false .boolean (.optional 0 .null .nil))).work ⟨[false, true], 0, none⟩ = 3 :=
  C137_accepted (Ty.sequence false 1 (.required false .boolean (.optional 0 .null .nil))) ⟨[false, true], 0, none⟩
    ⟨[false, true], 2, none⟩ (show Bool × Option Unit × Unit from (true, none, ())) rfl

/-! ## The bound -/

mutual

theorem Ty.Limited.more {K : Nat} : {t : Ty} → {r r' : Nat} → t.Limited st K r → r ≤ r' → t.Limited st K r'
  | .boolean, _, _, _, _ => trivial
  | .null, _, _, _, _ => trivial
  | .integer .., _, _, _, _ => trivial
  | .enumerated .., _, _, _, _ => trivial
  | .bitstring .., _, _, _, _ => trivial
  | .octetstring .., _, _, _, _ => trivial
  | .charstring .., _, _, _, _ => trivial
  | .objectIdentifier, _, _, _, _ => trivial
  | .sequence _ _ fs, _, _, h, hr => Fields.Limited.more (fs := fs) h hr
  | .sequenceOf .., _, _, ⟨q, r1, h1, h2⟩, hr => ⟨q, r1, Nat.le_trans h1 hr, h2⟩
  | .choice _ _ _ as, _, _, h, hr => Alts.Limited.more (as := as) h hr
  | .openType as, _, _, h, hr => Alts.Limited.more (as := as) h hr

theorem Fields.Limited.more {K : Nat} : {fs : Fields} → {r r' : Nat} → fs.Limited st K r → r ≤ r' → fs.Limited st K r'
  | .nil, _, _, _, _ => trivial
  | .required _ t rest, _, _, h, hr => ⟨Ty.Limited.more (t := t) h.1 hr, Fields.Limited.more (fs := rest) h.2 hr⟩
  | .optional _ t rest, _, _, h, hr => ⟨Ty.Limited.more (t := t) h.1 hr, Fields.Limited.more (fs := rest) h.2 hr⟩

theorem Alts.Limited.more {K : Nat} : {as : Alts} → {r r' : Nat} → as.Limited st K r → r ≤ r' → as.Limited st K r'
  | .nil, _, _, _, _ => trivial
  | .cons _ _ t rest, _, _, h, hr => ⟨Ty.Limited.more (t := t) h.1 hr, Alts.Limited.more (as := rest) h.2 hr⟩

end

mutual

theorem Ty.limited : (t : Ty) → t.SolidLists → t.Limited true 1 t.rate
  | .boolean, _ => trivial
  | .null, _ => trivial
  | .integer .., _ => trivial
  | .enumerated .., _ => trivial
  | .bitstring .., _ => trivial
  | .octetstring .., _ => trivial
  | .charstring .., _ => trivial
  | .objectIdentifier, _ => trivial
  | .sequence _ _ fs, h => fs.limited h
  | .sequenceOf _ _ _ e, h => ⟨e.base, e.rate, Nat.le_refl _, e.limited h.2, .inl ⟨1, e.takes h.1, by omega⟩⟩
  | .choice _ _ _ as, h => as.limited h
  | .openType as, h => as.limited h

theorem Fields.limited : (fs : Fields) → fs.SolidLists → fs.Limited true 1 fs.rate
  | .nil, _ => trivial
  | .required _ t rest, h =>
    ⟨Ty.Limited.more (t.limited h.1) (Nat.le_max_left _ _), Fields.Limited.more (rest.limited h.2) (Nat.le_max_right _ _)⟩
  | .optional _ t rest, h =>
    ⟨Ty.Limited.more (t.limited h.1) (Nat.le_max_left _ _), Fields.Limited.more (rest.limited h.2) (Nat.le_max_right _ _)⟩

theorem Alts.limited : (as : Alts) → as.SolidLists → as.Limited true 1 as.rate
  | .nil, _ => trivial
  | .cons _ _ t rest, h =>
    ⟨Ty.Limited.more (t.limited h.1) (Nat.le_max_left _ _), Alts.Limited.more (rest.limited h.2) (Nat.le_max_right _ _)⟩

end

mutual

theorem Ty.most_le : (t : Ty) → t.most ≤ t.nodes
  | .boolean | .null | .integer .. | .enumerated .. | .bitstring .. | .octetstring ..
  | .charstring .. | .objectIdentifier => by simp [Ty.most, Ty.nodes]
  | .sequence _ _ fs => by have := fs.most_le; simp only [Ty.most, Ty.nodes]; omega
  | .sequenceOf _ _ _ e => by have := e.most_le; simp only [Ty.most, Ty.nodes]; omega
  | .choice _ _ _ as | .openType as => by have := as.most_le; simp only [Ty.most, Ty.nodes]; omega

theorem Fields.most_le : (fs : Fields) → fs.most ≤ fs.nodes
  | .nil => Nat.le_refl _
  | .required _ t rest => by
    have := t.most_le; have := rest.most_le; have := t.nodes_ge
    simp only [Fields.most, Fields.nodes]; omega
  | .optional _ t rest => by
    have := t.most_le; have := rest.most_le; have := t.nodes_ge
    simp only [Fields.most, Fields.nodes]; omega

theorem Alts.most_le : (as : Alts) → as.most ≤ as.nodes
  | .nil => Nat.le_refl _
  | .cons _ _ t rest => by
    have := t.most_le; have := rest.most_le
    simp only [Alts.most, Alts.nodes]; omega

end

/-- Accepted or not. -/
theorem Working.either {dec : M α} {work : Codec → Nat} {K b f r : Nat} (hd : IsReader dec)
    (h : Working st dec work K b f r) (s : Codec) (hs : s.off ≤ s.bits.length) (hc : Counts st (dec s)) :
    K * work s ≤ K * max b f + r * (s.bits.length - s.off) := by
  have a := h s hs hc
  have h1 := Nat.mul_le_mul_left K (Nat.le_max_left b f)
  have h2 := Nat.mul_le_mul_left K (Nat.le_max_right b f)
  cases hx : dec s with
  | ok v s' =>
    rw [hx] at a
    simp only [Spent] at a
    have := (Working.steps hd hx).2.2 hs
    have : r * (s'.off - s.off) ≤ r * (s.bits.length - s.off) := Nat.mul_le_mul_left r (by omega)
    omega
  | err s' => rw [hx] at a; simp only [Spent] at a; omega
  | panic => rw [hx] at a; simp only [Spent] at a; omega

/-- **C137 (partial).** Full statement: what a derived decoder does, whether it accepts the message or not, is at most
proportional to the octets received, with a factor that depends on the type only. Proved: for every type in which the
elements of lists occupy at least one bit; the factor is the size of the type. Missing, because false: lists of elements
without bits, see `C137_panic_violated` and `C137_empty_message_violated`. -/
theorem C137_work_partial (t : Ty) (ht : t.SolidLists) (octets : List UInt8) :
    t.work (Codec.fromSlice octets) ≤ t.nodes * (1 + 8 * octets.length) := by
  have h := (t.working 1 t.rate (t.limited ht)).either t.decode_reader (Codec.fromSlice octets) (Nat.zero_le _) (.inl rfl)
  have hl : (Codec.fromSlice octets).bits.length - (Codec.fromSlice octets).off = 8 * octets.length := by
    show (bytesBits octets).length - 0 = _
    simp [bytesBits_length]
  rw [hl] at h
  have h1 := t.most_le
  have h2 := t.nodes_ge
  have h3 : max t.base t.most ≤ t.nodes := Nat.max_le.mpr ⟨by omega, h1⟩
  have h4 : t.rate * (8 * octets.length) ≤ t.nodes * (8 * octets.length) := Nat.mul_le_mul_right _ (by omega)
  rw [Nat.mul_add]
  omega

example : Hostile.SolidLists := ⟨trivial, trivial, ⟨rfl, trivial, ⟨trivial, ⟨trivial, trivial, trivial⟩, trivial⟩,
  trivial⟩, trivial⟩

/-! ## The messages -/

/-- A type whose values take no bits and are always there. -/
def Ty.blankItem : Ty → Bool
  | .null => true
  | .sequence false 0 .nil => true
  | _ => false

theorem Ty.blankItem_ok : (t : Ty) → t.blankItem = true → ∀ s, ∃ v, t.decode s = .ok v s
  | .null, _, _ => ⟨(), rfl⟩
  | .sequence false 0 .nil, _, _ => ⟨(), rfl⟩

mutual

/-- What a bit can stand for, in units of `1 / K`, if there is a limit. -/
def Ty.limit (strict : Bool) (K : Nat) : Ty → Option Nat
  | .sequenceOf lb ub ext e =>
    match e.limit strict K with
    | none => none
    | some r =>
      if 0 < e.least then some ((K * e.base + e.least - 1) / e.least + r)
      else if wide lb ub ext && (decide (1 ≤ lb.getD 0) || (!strict && e.blankItem)) then
        some ((K * ((65535 + (lb.getD 0).toNat) * e.base) + 16 - 1) / 16 + r)
      else none
  | .sequence _ _ fs => fs.limit strict K
  | .choice _ _ _ as | .openType as => as.limit strict K
  | .boolean | .null | .integer .. | .enumerated .. | .bitstring .. | .octetstring ..
  | .charstring .. | .objectIdentifier => some 0

/-- The maximum. -/
def Fields.limit (strict : Bool) (K : Nat) : Fields → Option Nat
  | .nil => some 0
  | .required _ t rest | .optional _ t rest =>
    match t.limit strict K, rest.limit strict K with
    | some r, some r' => some (max r r')
    | _, _ => none

/-- The maximum. -/
def Alts.limit (strict : Bool) (K : Nat) : Alts → Option Nat
  | .nil => some 0
  | .cons _ _ t rest =>
    match t.limit strict K, rest.limit strict K with
    | some r, some r' => some (max r r')
    | _, _ => none

end

mutual

theorem Ty.limit_limited {K : Nat} : (t : Ty) → (r : Nat) → t.limit st K = some r → t.Limited st K r
  | .boolean, _, _ => trivial
  | .null, _, _ => trivial
  | .integer .., _, _ => trivial
  | .enumerated .., _, _ => trivial
  | .bitstring .., _, _ => trivial
  | .octetstring .., _, _ => trivial
  | .charstring .., _, _ => trivial
  | .objectIdentifier, _, _ => trivial
  | .sequence _ _ fs, r, h => fs.limit_limited r h
  | .choice _ _ _ as, r, h => as.limit_limited r h
  | .openType as, r, h => as.limit_limited r h
  | .sequenceOf lb ub ext e, r, h => by
    unfold Ty.limit at h
    cases he : e.limit st K with
    | none => rw [he] at h; cases h
    | some r' =>
      rw [he] at h
      dsimp only at h
      have ih := e.limit_limited r' he
      split at h
      · next hm =>
        cases h
        exact ⟨_, r', Nat.le_refl _, ih, .inl ⟨e.least, e.takes_least, ceil_mul hm⟩⟩
      · split at h
        · next hw =>
          cases h
          simp only [Bool.and_eq_true, Bool.or_eq_true, decide_eq_true_eq, Bool.not_eq_true'] at hw
          refine ⟨_, r', Nat.le_refl _, ih, .inr ⟨hw.1, ?_, ceil_mul (by omega)⟩⟩
          exact hw.2.imp id fun h => ⟨h.1, e.blankItem_ok h.2⟩
        · cases h

theorem Fields.limit_limited {K : Nat} : (fs : Fields) → (r : Nat) → fs.limit st K = some r → fs.Limited st K r
  | .nil, _, _ => trivial
  | .required _ t rest, r, h => by
    unfold Fields.limit at h
    split at h
    · next a b ha hb =>
      cases h
      exact ⟨(t.limit_limited a ha).more (Nat.le_max_left _ _), (rest.limit_limited b hb).more (Nat.le_max_right _ _)⟩
    · cases h
  | .optional _ t rest, r, h => by
    unfold Fields.limit at h
    split at h
    · next a b ha hb =>
      cases h
      exact ⟨(t.limit_limited a ha).more (Nat.le_max_left _ _), (rest.limit_limited b hb).more (Nat.le_max_right _ _)⟩
    · cases h

theorem Alts.limit_limited {K : Nat} : (as : Alts) → (r : Nat) → as.limit st K = some r → as.Limited st K r
  | .nil, _, _ => trivial
  | .cons _ _ t rest, r, h => by
    unfold Alts.limit at h
    split at h
    · next a b ha hb =>
      cases h
      exact ⟨(t.limit_limited a ha).more (Nat.le_max_left _ _), (rest.limit_limited b hb).more (Nat.le_max_right _ _)⟩
    · cases h

end

theorem Ty.work_octets (t : Ty) {d f : Nat} (h1 : (t.limit st 1000).any (fun r => 8 * r ≤ 1000 * d) = true)
    (h2 : max t.base t.most ≤ f) {octets : List UInt8} (hc : Counts st (t.decode (Codec.fromSlice octets))) :
    t.work (Codec.fromSlice octets) ≤ f + d * octets.length := by
  obtain ⟨r, hr, h3⟩ := (Option.any_eq_true _ _).mp h1
  have h := (t.working 1000 r (t.limit_limited r hr)).either t.decode_reader (Codec.fromSlice octets) (Nat.zero_le _) hc
  have hl : (Codec.fromSlice octets).bits.length - (Codec.fromSlice octets).off = 8 * octets.length := by
    show (bytesBits octets).length - 0 = _
    simp [bytesBits_length]
  rw [hl] at h
  have h3 : 8 * r ≤ 1000 * d := by simpa using h3
  have h4 : r * (8 * octets.length) ≤ 1000 * (d * octets.length) := by
    rw [← Nat.mul_assoc, Nat.mul_comm _ 8, ← Nat.mul_assoc]
    exact Nat.mul_le_mul_right _ h3
  omega

/-- **C137 for S1AP.** A message of `n` octets, accepted or not, takes at most `100 + 32814 * n` calls. -/
theorem C137_s1ap_partial (octets : List UInt8) :
    S1ap.S1AP_PDU.work (Codec.fromSlice octets) ≤ 100 + 32814 * octets.length :=
  Ty.work_octets (st := true) _ (by decide +kernel) (by decide +kernel) (.inl rfl)

/-- **C137 for NGAP.** The same, unless the decoder panics (C111 says on which octets). -/
theorem C137_ngap_partial (octets : List UInt8) (h : Ngap.NGAP_PDU.decode (Codec.fromSlice octets) ≠ .panic) :
    Ngap.NGAP_PDU.work (Codec.fromSlice octets) ≤ 129 + 32830 * octets.length :=
  Ty.work_octets (st := false) _ (by decide +kernel) (by decide +kernel) (.inr h)

/-- **C137 for RANAP.** The same. -/
theorem C137_ranap_partial (octets : List UInt8) (h : Ranap.RANAP_PDU.decode (Codec.fromSlice octets) ≠ .panic) :
    Ranap.RANAP_PDU.work (Codec.fromSlice octets) ≤ 137 + 32830 * octets.length :=
  Ty.work_octets (st := false) _ (by decide +kernel) (by decide +kernel) (.inr h)

/-- The hypothesis is met by octets that are not accepted. -/
example : Ngap.NGAP_PDU.decode (Codec.fromSlice [0x00]) ≠ .panic ∧
    Ranap.RANAP_PDU.decode (Codec.fromSlice [0x00]) ≠ .panic := by
  constructor <;> exact fun h => absurd ((Cause.isPanic_iff _).mpr h) (by decide +kernel)

/-! ## Violations -/

theorem Ty.work_pos (t : Ty) (s : Codec) : 1 ≤ t.work s := by
  cases t <;> simp only [Ty.work] <;> omega

theorem workTimes_ge {dec : M α} {work : Codec → Nat} (h : ∀ s, 1 ≤ work s) :
    (n : Nat) → (s s' : Codec) → (v : List α) → decodeTimes dec n s = .ok v s' → n ≤ workTimes dec work n s
  | 0, _, _, _, _ => Nat.zero_le _
  | n + 1, s, s', v, hv => by
    obtain ⟨x, t, h1, hv⟩ := bind_ok hv
    obtain ⟨xs, t2, h2, hv⟩ := bind_ok hv
    show n + 1 ≤ work s + after dec _ s
    rw [after_ok h1]
    have := h s
    have := workTimes_ge h n t _ xs h2
    omega

/-- The turn at hand is one of those counted. -/
theorem workTimes_turn {dec : M α} {work : Codec → Nat} :
    (i n : Nat) → (s s' : Codec) → (v : List α) → i < n → decodeTimes dec i s = .ok v s' → work s' ≤ workTimes dec work n s
  | 0, n + 1, s, s', v, _, h => by
    cases h
    show work s ≤ work s + _
    omega
  | i + 1, n + 1, s, s', v, hi, h => by
    obtain ⟨x, t, h1, h⟩ := bind_ok h
    obtain ⟨xs, t2, h2, h⟩ := bind_ok h
    cases h
    show _ ≤ work s + after dec _ s
    rw [after_ok h1]
    have := workTimes_turn (work := work) i n t _ xs (by omega) h2
    omega

mutual

theorem Ty.reaches_work : (t : Ty) → {s : Codec} → {t' : Ty} → {s' : Codec} → t.Reaches s t' s' →
    t'.work s' ≤ t.work s ∧ s'.bits = s.bits
  | _, _, _, _, .here => ⟨Nat.le_refl _, rfl⟩
  | .sequence ext n fs, s, t', s', .sequence h1 h2 => by
    obtain ⟨a, b⟩ := fs.reaches_work h2
    refine ⟨?_, b.trans ((IsDec.sequenceHeader ext n).reader.same h1)⟩
    show _ ≤ 1 + after (decodeSequenceHeader ext n) _ s
    rw [after_ok h1]
    omega
  | .sequenceOf lb ub ext e, s, t', s', .element (n := n) (s1 := s1) (i := i) (vs := vs) (s2 := s2) h1 hi h2 h3 => by
    obtain ⟨a, b⟩ := e.reaches_work h3
    refine ⟨?_, (b.trans ((IsReader.decodeTimes e.decode_reader i).same h2)).trans
      ((IsDec.length lb ub ext).reader.same h1)⟩
    show _ ≤ 1 + after (decodeLength lb ub ext) _ s
    rw [after_ok h1]
    have := workTimes_turn (work := e.work) i (if n = 0 then 2 ^ 64 else n) s1 s2 vs
      (by
        rcases hi with hi | ⟨hn, hi⟩
        · rw [if_neg (by omega)]; exact hi
        · rw [if_pos hn]; exact hi) h2
    omega
  | .choice lb ub ext as, s, t', s', .choice h1 h2 => by
    obtain ⟨a, b⟩ := as.reaches_work h2
    refine ⟨?_, b.trans ((IsDec.choiceIdx lb ub ext).reader.same h1)⟩
    show _ ≤ 1 + after (decodeChoiceIdx lb ub ext) _ s
    rw [after_ok h1]
    exact Nat.le_trans a (Nat.le_add_left _ _)
  | .openType as, s, t', s', .openType (s1 := s1) (k := k) h1 hk h2 => by
    obtain ⟨a, b⟩ := as.reaches_work h2
    refine ⟨?_, b.trans ((IsDec.length none none false).reader.same h1)⟩
    show _ ≤ 1 + after (decodeLength none none false) _ s
    rw [after_ok h1]
    have e : requireKey s1 = .ok k s1 := by
      unfold requireKey
      rw [hk]
    rw [after_ok e]
    omega

theorem Fields.reaches_work : (fs : Fields) → {bm : List Bool} → {s : Codec} → {t' : Ty} → {s' : Codec} →
    fs.Reaches bm s t' s' → t'.work s' ≤ fs.work bm s ∧ s'.bits = s.bits
  | .required k t rest, bm, s, t', s', .required h => by
    obtain ⟨a, b⟩ := t.reaches_work h
    refine ⟨?_, b⟩
    show _ ≤ t.work s + _
    omega
  | .required k t rest, bm, s, t', s', .later (v := v) h1 h2 h3 => by
    obtain ⟨a, b⟩ := rest.reaches_work h3
    refine ⟨?_, (b.trans ((IsReader.setKeyFrom k t v).same h2)).trans (t.decode_reader.same h1)⟩
    show _ ≤ t.work s + after t.decode _ s
    rw [after_ok h1, after_ok h2]
    omega
  | .optional i t rest, bm, s, t', s', .optional hb h => by
    obtain ⟨a, b⟩ := t.reaches_work h
    refine ⟨?_, b⟩
    unfold Fields.work
    rw [hb]
    show _ ≤ 1 + t.work s + _
    omega
  | .optional i t rest, bm, s, t', s', .present hb h1 h2 => by
    obtain ⟨a, b⟩ := rest.reaches_work h2
    refine ⟨?_, b.trans (t.decode_reader.same h1)⟩
    unfold Fields.work
    rw [hb]
    show _ ≤ 1 + t.work s + after t.decode _ s
    rw [after_ok h1]
    omega
  | .optional i t rest, bm, s, t', s', .absent hb h => by
    obtain ⟨a, b⟩ := rest.reaches_work h
    refine ⟨?_, b⟩
    unfold Fields.work
    rw [hb]
    show _ ≤ 1 + rest.work bm s
    omega

theorem Alts.reaches_work : (as : Alts) → {key : Int} → {s : Codec} → {t' : Ty} → {s' : Codec} →
    as.Reaches key s t' s' → t'.work s' ≤ as.work key s ∧ s'.bits = s.bits
  | .cons k x t rest, _, s, t', s', .this h => by
    obtain ⟨a, b⟩ := t.reaches_work h
    refine ⟨?_, b⟩
    unfold Alts.work
    rw [if_pos rfl]
    exact a
  | .cons k x t rest, key, s, t', s', .other hk h => by
    obtain ⟨a, b⟩ := rest.reaches_work h
    refine ⟨?_, b⟩
    unfold Alts.work
    rw [if_neg hk]
    exact a

end

/-- **C137 is violated**, for every type with sound bounds (`Ty.fit`), by every message of at most 18 octets on which the
decoder panics: it does 2^64 calls first. -/
theorem C137_panic_violated (t : Ty) (ht : t.fit = true) (octets : List UInt8) (hlen : octets.length ≤ 18)
    (h : t.decode (Codec.fromSlice octets) = .panic) : 2 ^ 64 < t.work (Codec.fromSlice octets) := by
  obtain ⟨t', s', hr, hb⟩ := (C105_panics_iff t ht octets 0 (by omega) none).mp h
  obtain ⟨hw, hbits⟩ := t.reaches_work hr
  refine Nat.lt_of_lt_of_le ?_ hw
  have hshort : ¬ HugeIndex s' := by
    rintro ⟨n, w, body, rest, hd, hn, h17, hbody⟩
    have hl := congrArg List.length hd
    have h3 : s'.bits.length = 8 * octets.length := by
      rw [hbits]
      exact bytesBits_length octets
    have hwl : 8 ≤ w.length := by
      rcases hn with ⟨-, rfl⟩ | ⟨-, rfl⟩ | ⟨m, -, -, -, rfl⟩ <;> simp [Spec.be]
    simp only [List.length_drop, List.length_append, List.length_cons, List.length_nil] at hl
    omega
  cases t' with
  | enumerated w lb ub ext => exact absurd hb.2 hshort
  | choice lb ub ext as => exact absurd hb.2 hshort
  | sequenceOf lb ub ext e =>
    obtain ⟨s1, vs, s2, h1, h2⟩ := hb
    show _ < 1 + after (decodeLength lb ub ext) _ s'
    rw [after_ok h1, if_pos rfl]
    have := workTimes_ge e.work_pos (2 ^ 64) s1 s2 vs h2
    omega
  | _ => exact absurd hb id

/-- **C137 is violated by messages of NGAP and RANAP.** The seven octets of OVERLOAD STOP, of RELOCATION DETECT and of
RELOCATION COMPLETE make the decoder do more than 2^64 calls. -/
theorem C137_empty_message_violated :
    2 ^ 64 < Ngap.NGAP_PDU.work (Codec.fromSlice (emptyMessage 23)) ∧
    2 ^ 64 < Ranap.RANAP_PDU.work (Codec.fromSlice (emptyMessage 12)) ∧
    2 ^ 64 < Ranap.RANAP_PDU.work (Codec.fromSlice (emptyMessage 13)) :=
  ⟨C137_panic_violated _ (by decide +kernel) _ (by decide) C111_empty_message_violated.1,
    C137_panic_violated _ (by decide +kernel) _ (by decide) C111_empty_message_violated.2.1,
    C137_panic_violated _ (by decide +kernel) _ (by decide) C111_empty_message_violated.2.2⟩

end Hampi
