import Verif.Props.Derived
import Verif.Props.Outcome
import Verif.Spec.Sender
/-!
# Encoders that write at least one bit, and encoders that do not panic
-/
namespace Hampi

open Spec (SizeBounds)

/-- Whatever it encodes takes at least one bit. -/
def Inks (m : M Unit) : Prop := ∀ s s', m s = .ok () s' → s.bits.length < s'.bits.length

namespace Inks

theorem grows {m : M Unit} (h : IsWriter m) {s s' : Codec} (hm : m s = .ok () s') : s.bits.length ≤ s'.bits.length := by
  obtain ⟨w, hw, -⟩ := (h.frame s).1 () s' hm
  rw [hw]; simp

theorem left {m : M Unit} {g : Unit → M Unit} (h : Inks m) (hg : IsWriter (g ())) : Inks (m >>= g) := by
  intro s s' e
  rw [M.bind_apply] at e
  split at e
  · rename_i hm
    have := h _ _ hm
    have := grows hg e
    omega
  · cases e
  · cases e

theorem right {m : M Unit} {g : Unit → M Unit} (hm : IsWriter m) (h : Inks (g ())) : Inks (m >>= g) := by
  intro s s' e
  rw [M.bind_apply] at e
  split at e
  · rename_i hm'
    have := grows hm hm'
    have := h _ _ e
    omega
  · cases e
  · cases e

theorem fail : Inks M.fail := fun _ _ h => nomatch h
theorem panic : Inks M.panic := fun _ _ h => nomatch h

theorem ite {c : Prop} [Decidable c] {a b : M Unit} (ha : c → Inks a) (hb : ¬ c → Inks b) : Inks (if c then a else b) := by
  split <;> rename_i h
  · exact ha h
  · exact hb h

theorem append {w : List Bool} (h : w ≠ []) : Inks (appendBits w) := by
  intro s s' e
  cases e
  have : 0 < w.length := List.length_pos_iff.mpr h
  simp [this]

theorem push (b : Bool) : Inks (pushBit b) := by
  intro s s' e
  cases e
  simp

theorem chk {x : Int} {g : Int → M Unit} (h : Inks (g x)) : Inks (chkI128 x >>= g) := by
  unfold chkI128
  split
  · exact h
  · intro s s' e; cases e

theorem indefinite (n : Nat) : Inks (encodeIndefiniteLength n) := by
  unfold encodeIndefiniteLength
  refine right .align (ite (fun _ => append ?_) fun _ => ite (fun _ => append ?_) fun _ => fail)
  · intro h; have := congrArg List.length h; simp [natToBits_length] at this
  · intro h; have := congrArg List.length h; simp [natToBits_length] at this

theorem constrainedWith {large : Int → Int → M Unit} {lb ub v : Int} (hne : lb ≠ ub)
    (hl : ∀ a b, Inks (large a b)) : Inks (encodeConstrainedWith large lb ub v) := by
  unfold encodeConstrainedWith
  refine ite (fun _ => fail) fun h1 => ite (fun _ => fail) fun h2 => chk (chk (chk ?_))
  refine ite (fun h3 => ite (fun _ => right .align (append ?_)) fun h4 => ?_)
    fun _ => ite (fun _ => right .align (append ?_)) fun _ => hl _ _
  · intro h; have := congrArg List.length h; simp [natToBits_length] at this
  · cases hf : encFieldBits (ub - lb + 1) with
    | none => exact panic
    | some n =>
      have hn : 0 < n ∧ n ≤ 8 := by
        unfold encFieldBits at hf
        have hr : ub - lb + 1 ≠ 1 := by omega
        rw [if_neg hr] at hf
        repeat' split at hf
        all_goals first | (cases hf; decide) | cases hf
      refine append ?_
      intro h; have := congrArg List.length h
      simp [natToBits_length] at this
      omega
  · intro h; have := congrArg List.length h; simp [natToBits_length] at this

theorem constrained {lb ub v : Int} (hne : lb ≠ ub) : Inks (encodeConstrained lb ub v) := by
  unfold encodeConstrained
  refine constrainedWith hne fun range x => ?_
  intro s s' e
  rw [M.bind_apply] at e
  split at e
  · rename_i u hs
    have h1 := grows (.constrainedSmall _ _ _) hs
    have hlt : (i128Bytes x).findIdx (fun x => x ≠ 0) < 16 := by
      unfold encodeConstrainedSmall encodeConstrainedWith at hs
      rw [M.ite_apply] at hs
      split at hs
      · cases hs
      · omega
    have h2 := right (m := align) (g := fun _ => appendBits (((i128Bytes x).drop
      ((i128Bytes x).findIdx (fun x => x ≠ 0))).flatMap (natToBits 8))) .align (append ?_) _ _ e
    · omega
    · intro h
      have := congrArg List.length h
      have hlen : (i128Bytes x).length = 16 := by simp [i128Bytes]
      cases hd : (i128Bytes x).drop ((i128Bytes x).findIdx (fun x => x ≠ 0)) with
      | nil =>
        have := congrArg List.length hd
        rw [List.length_drop, hlen, List.length_nil] at this
        omega
      | cons a b =>
        rw [hd] at this
        simp [natToBits_length] at this
  · cases e
  · cases e

theorem length {lb ub : Option Int} (h : lengthSolid lb ub = true) (n : Nat) : Inks (encodeLength lb ub false n) := by
  unfold encodeLength
  rw [if_neg (by decide)]
  have hi : Inks (if ub.any (fun u => decide (n > asUsize u)) then M.fail
      else if lb.any (fun l => decide (n < asUsize l)) then M.fail
      else encodeIndefiniteLength n) := ite (fun _ => fail) fun _ => ite (fun _ => fail) fun _ => indefinite n
  cases ub with
  | none => exact hi
  | some u =>
    refine ite (fun hu => constrained ?_) fun _ => hi
    simp only [lengthSolid, Bool.or_eq_true, decide_eq_true_eq] at h
    rcases h with h | h
    · omega
    · exact h

theorem normallySmall (n : Nat) : Inks (encodeNormallySmallLength n) := by
  unfold encodeNormallySmallLength
  exact ite (fun _ => ite (fun _ => panic) fun _ => left (push _) (.appendBits _)) fun _ => left (push _) (.indefinite _)

/-- A length of one size that is not 0 is followed by something. -/
theorem fixed {lb ub : Option Int} (h : lengthSolid lb ub = false) {n : Nat} {s s' : Codec}
    (e : encodeLength lb ub false n s = .ok () s') : ub = some (n : Int) := by
  cases ub with
  | none => cases h
  | some u =>
    simp only [lengthSolid, Bool.or_eq_false_iff, decide_eq_false_iff_not, Decidable.not_not] at h
    unfold encodeLength at e
    rw [if_neg (by decide)] at e
    simp only at e
    rw [if_pos (by omega)] at e
    unfold encodeConstrained encodeConstrainedWith at e
    rw [M.ite_apply] at e
    split at e
    · cases e
    · rw [M.ite_apply] at e
      split at e
      · cases e
      · congr 1; omega

theorem sized {lb ub : Option Int} (h : stringSolid lb ub = true) {n : Nat} {g : Unit → M Unit} (hw : IsWriter (g ()))
    (hg : 0 < n → Inks (g ())) : Inks (encodeLength lb ub false n >>= g) := by
  cases hl : lengthSolid lb ub with
  | true => exact left (length hl n) hw
  | false =>
    intro s s' e
    have e' := e
    rw [M.bind_apply] at e
    split at e
    · rename_i hm
      have hu := fixed hl hm
      simp only [stringSolid, hl, Bool.false_or, decide_eq_true_eq] at h
      have hn : 0 < n := by
        rcases Nat.eq_zero_or_pos n with h0 | h0
        · subst h0; exact absurd hu h
        · exact h0
      exact right (.length _ _ _ _) (hg hn) s s' e'
    · cases e
    · cases e

theorem extBit {b : Bool} {g : Unit → M Unit} (h : b = true → IsWriter (g ())) (h' : b = false → Inks (g ())) (x : Bool) :
    Inks (encodeExtBit b x >>= g) := by
  cases b with
  | true => exact left (push _) (h rfl)
  | false => exact h' rfl

theorem unconstrained (v : Int) : Inks (encodeUnconstrained v) := by
  unfold encodeUnconstrained
  exact left (length rfl _) (.ite .panic (.appendBits _))

theorem integer {lb ub : Option Int} {ext : Bool} (h : (ext || intSolid lb ub) = true) (v : Int) (x : Bool) :
    Inks (encodeInteger lb ub ext v x) := by
  unfold encodeInteger
  cases lb with
  | none => exact ite (fun _ => fail) fun _ => extBit (fun _ => .unconstrained _) (fun _ => unconstrained v) _
  | some l =>
    cases ub with
    | none =>
      exact ite (fun _ => fail) fun _ => extBit (fun _ => .semiConstrained _ _)
        (fun _ => ite (fun _ => fail) fun _ => chk (unconstrained _)) _
    | some u =>
      exact ite (fun _ => fail) fun _ => extBit (fun _ => .constrained _ _ _)
        (fun he => constrained (by simpa [he, intSolid] using h)) _

theorem enumerated {lb ub : Option Int} {ext : Bool} (h : (ext || intSolid lb ub) = true) (v : Int) (x : Bool) :
    Inks (encodeEnumerated lb ub ext v x) := by
  unfold encodeEnumerated
  exact ite (fun _ => fail) fun _ => extBit (fun _ => .integer _ _ _ _ _)
    (fun he => integer (by simpa [he] using h) v _) _

theorem choiceIdx {lb ub : Int} {ext : Bool} (h : (ext || decide (lb ≠ ub)) = true) (v : Int) (x : Bool) :
    Inks (encodeChoiceIdx lb ub ext v x) := by
  unfold encodeChoiceIdx
  exact ite (fun _ => fail) fun _ => extBit (fun _ => .integer _ _ _ _ _)
    (fun he => integer (by simpa [he, intSolid] using h) v _) _

theorem bitstring {lb ub : Option Int} {ext : Bool} (h : (ext || stringSolid lb ub) = true) (v : List Bool) (x : Bool) :
    Inks (encodeBitstring lb ub ext v x) := by
  have hw := IsWriter.bitstring lb ub false v false
  unfold encodeBitstring at hw ⊢
  refine ite (fun _ => fail) fun _ => extBit (fun _ => ?_) (fun he => ite (fun _ => fail) fun _ => ?_) _
  · exact hw
  · refine sized (by simpa [he] using h) (.ite (.bind (.alignIf _) fun _ => .appendBits _) (.pure _)) fun hn => ?_
    rw [if_pos hn]
    exact right (.alignIf _) (append (by intro h; rw [h] at hn; cases hn))

theorem bytesBits_ne {l : List UInt8} (h : 0 < l.length) : bytesBits l ≠ [] := by
  cases l with
  | nil => cases h
  | cons a l =>
    intro e
    have := congrArg List.length e
    simp [bytesBits, byteBits, natToBits_length] at this

theorem octetstring {lb ub : Option Int} {ext : Bool} (h : (ext || stringSolid lb ub) = true) (v : List UInt8)
    (x : Bool) : Inks (encodeOctetstring lb ub ext v x) := by
  have hw := IsWriter.octetstring lb ub false v false
  unfold encodeOctetstring at hw ⊢
  refine ite (fun _ => fail) fun _ => extBit (fun _ => ?_) (fun he => ite (fun _ => fail) fun _ => ?_) _
  · exact hw
  · refine sized (by simpa [he] using h) (.ite (.bind (.alignIf _) fun _ => .appendBits _) (.pure _)) fun hn => ?_
    rw [if_pos hn]
    exact right (.alignIf _) (append (bytesBits_ne hn))

theorem string {lb ub : Option Int} {ext : Bool} (h : (ext || stringSolid lb ub) = true) (v : String) (x : Bool) :
    Inks (encodeString lb ub ext v x) := by
  have hw := IsWriter.string lb ub false v false
  unfold encodeString at hw ⊢
  refine ite (fun _ => fail) fun _ => extBit (fun _ => ?_) (fun he => ?_) _
  · exact hw
  · exact sized (by simpa [he] using h) (.bind (.alignIf _) fun _ => .appendBits _) fun hn =>
      right (.alignIf _) (append (bytesBits_ne hn))

theorem «open» (p : M Unit) : Inks (encodeOpen p) := by
  intro s s' e
  unfold encodeOpen at e
  split at e
  · cases e
  · cases e
  · split at e
    · rename_i inner _ _
      refine left (length rfl _) ?_ s s' e
      unfold appendAligned
      refine .bind .align fun _ => ?_
      split
      · exact .appendBits _
      · exact .fail
      · exact .panic
    · cases e
    · cases e

theorem sizeBounds {lb ub : Option Int} (h : sizeFine lb ub = true) : SizeBounds lb ub := by
  simp only [sizeFine, Bool.and_eq_true] at h
  constructor
  · intro l hl; subst hl; exact of_decide_eq_true h.1
  · intro u hu; subst hu; exact of_decide_eq_true h.2

/-- An empty list whose length is in the message. -/
theorem noElements {lb ub : Option Int} (hs : SizeBounds lb ub) (h : lengthSolid lb ub = true)
    (hlb : ∀ l, lb = some l → l ≤ 0) : Inks (encodeLength lb ub false 0).ignoreErr := by
  intro s s' e
  obtain ⟨t, ht⟩ := encodeLength_ok hs (n := 0) ⟨fun l hl => hlb l hl, fun u hu => (hs.2 u hu).1⟩
    (.inr (by decide)) s
  unfold M.ignoreErr at e
  rw [ht] at e
  cases e
  exact length h 0 _ _ ht

theorem ignored {m : M Unit} (h : ∀ s s', m s ≠ .err s') (hm : Inks m) : Inks m.ignoreErr := by
  intro s s' e
  unfold M.ignoreErr at e
  split at e
  · rename_i he; cases e; exact hm _ _ he
  · rename_i he; exact absurd he (h _ _)
  · cases e

theorem element {α : Type} {enc : α → M Unit} {x : α} {xs : List α} (hx : Inks (enc x)) (hw : ∀ a, IsWriter (enc a)) :
    Inks (encodeAll enc (x :: xs)) := left hx (.encodeAll hw xs)

theorem header {fs : Fields} {v : fs.Val} {ext : Bool} {n : Nat} (h : (ext || decide (0 < n)) = true) :
    Inks (encodeHeader fs v ext n) := by
  unfold encodeHeader
  split
  · rename_i bm hm
    have hl := Fields.mark_length fs v _ bm hm
    unfold encodeSequenceHeader
    refine ite (fun _ => fail) fun _ => extBit (fun _ => .appendBits _) (fun he => append ?_) _
    intro hb
    rw [hb] at hl
    simp [he] at h hl
    omega
  · exact panic

end Inks

mutual

theorem Ty.inks (not : List Int) : (t : Ty) → t.writes = true → t.sendable not = true → (v : t.Val) → t.Manned v →
    Inks (t.encode v)
  | .boolean, _, _, v, _ => .push v
  | .null, h, _, _, _ => nomatch h
  | .integer _ _ _ _, h, _, v, _ => .integer (by simpa [Ty.writes] using h) v _
  | .enumerated _ _ _ _, h, _, v, _ => .enumerated (by simpa [Ty.writes] using h) v _
  | .bitstring _ _ _, h, _, v, _ => .bitstring (by simpa [Ty.writes] using h) v _
  | .octetstring _ _ _, h, _, v, _ => .octetstring (by simpa [Ty.writes] using h) v _
  | .charstring k _ _ _, h, _, v, _ => by
      have := Inks.string (by simpa [Ty.writes] using h) v false
      cases k <;> exact this
  | .objectIdentifier, _, _, _, _ => .fail
  | .sequence ext n fs, h, hs, v, hv => by
      show Inks (encodeHeader fs v ext n >>= fun _ => fs.encode v)
      have hf : IsWriter (encodeHeader fs v ext n) := .encodeHeader fs v ext n
      simp only [Ty.writes, Bool.or_eq_true] at h
      rcases h with h | h
      · exact .left (.header (by simpa using h)) (fs.encode_writer v)
      · exact .right hf (fs.inks not n h hs v hv)
  | .sequenceOf lb ub ext e, h, hs, v, hv => by
      change List e.Val at v
      show Inks (M.ignoreErr (encodeLength lb ub ext v.length) >>= fun _ => encodeAll e.encode v)
      obtain ⟨h1, h2, h3⟩ := hv
      simp only [Ty.writes, Bool.and_eq_true, Bool.or_eq_true] at h
      simp only [Ty.sendable, Bool.and_eq_true] at hs
      cases v with
      | nil =>
        rcases h.1 with (h' | h') | h'
        · exact absurd rfl (h2 h')
        · exfalso
          cases lb with
          | none => cases h'
          | some l => have := h1 l rfl; simp at h' this; omega
        · cases ext with
          | true => exact absurd rfl (h2 rfl)
          | false => exact .left (.noElements (Inks.sizeBounds hs.1) h' (fun l hl => by simpa using h1 l hl)) (.pure _)
      | cons x xs =>
        exact .right (.ignoreErr (.length lb ub ext _))
          (.element (e.inks not h.2 hs.2 x (h3 x List.mem_cons_self)) fun a => e.encode_writer a)
  | .choice lb ub ext as, h, hs, v, hv => by
      show Inks (encodeChoiceIdx lb ub ext (as.keyOf v) (as.extendedOf v) >>= fun _ => as.encode v)
      simp only [Ty.writes, Bool.or_eq_true] at h
      simp only [Ty.sendable, Bool.and_eq_true] at hs
      rcases h with h | h
      · exact .left (.choiceIdx (by simpa using h) _ _) (as.encode_writer v)
      · exact .right (.choiceIdx _ _ _ _ _) (as.inks not false h hs.2 v hv)
  | .openType as, _, _, v, _ => .open _

theorem Fields.inks (not : List Int) (n : Nat) : (fs : Fields) → fs.writes = true → fs.sendable not n = true →
    (v : fs.Val) → fs.Manned v → Inks (fs.encode v)
  | .nil, h, _, _, _ => nomatch h
  | .required _ t rest, h, hs, v, hv => by
      simp only [Fields.writes, Bool.or_eq_true] at h
      simp only [Fields.sendable, Bool.and_eq_true] at hs
      rcases h with h | h
      · exact .left (t.inks not h hs.1 v.1 hv.1) (rest.encode_writer v.2)
      · exact .right (t.encode_writer v.1) (rest.inks not n h hs.2 v.2 hv.2)
  | .optional _ t rest, h, hs, v, hv => by
      simp only [Fields.sendable, Bool.and_eq_true] at hs
      refine .right ?_ (rest.inks not n h hs.2 v.2 hv.2)
      split
      · exact t.encode_writer _
      · exact .pure _

theorem Alts.inks (not : List Int) (isOpen : Bool) : (as : Alts) → as.writes = true → as.sendable not isOpen = true →
    (v : as.Val) → as.Manned v → Inks (as.encode v)
  | .cons _ _ t _, h, hs, .inl v, hv => by
      simp only [Alts.writes, Bool.and_eq_true] at h
      simp only [Alts.sendable, Bool.and_eq_true] at hs
      exact t.inks not h.1 hs.1.2 v hv
  | .cons _ _ _ rest, h, hs, .inr v, hv => by
      simp only [Alts.writes, Bool.and_eq_true] at h
      simp only [Alts.sendable, Bool.and_eq_true] at hs
      exact rest.inks not isOpen h.2 hs.2 v hv

end

/-- The variant of an open type that is not one of the excepted. -/
theorem Alts.inksOpen (not : List Int) : (as : Alts) → as.sendable not true = true → (v : as.Val) → as.Manned v →
    as.keyOf v ∉ not → Inks (as.encode v)
  | .cons k _ t _, hs, .inl v, hv, hk => by
      simp only [Alts.sendable, Bool.and_eq_true, Bool.or_eq_true] at hs
      rcases hs.1.1.2 with (h | h) | h
      · cases h
      · exact absurd (List.contains_iff_mem.mp h) hk
      · exact t.inks not h hs.1.2 v hv
  | .cons _ _ _ rest, hs, .inr v, hv, hk => by
      simp only [Alts.sendable, Bool.and_eq_true] at hs
      exact rest.inksOpen not hs.2 v hv hk

/-! ## No panic -/

theorem fits_small {w : Width} {v : Int} (h : w.Fits v) : -(2 ^ 63) ≤ v ∧ v < 2 ^ 64 := by
  revert h
  cases w <;> simp only [Width.Fits, Width.signed, Width.bits, if_true, Bool.false_eq_true, if_false] <;> omega

theorem intOutcome_fine {lb ub : Option Int} (h : intFine lb ub = true) {v : Int} (hv : v < 2 ^ 64) :
    Spec.intOutcome lb ub v ≠ .panic := by
  cases lb with
  | none => simp [Spec.intOutcome]
  | some l =>
    cases ub with
    | none =>
      simp only [intFine, decide_eq_true_eq] at h
      simp only [Spec.intOutcome]
      rw [if_neg (c := 2 ^ 127 ≤ v - l) (by omega)]
      split <;> simp
    | some u =>
      simp only [intFine, decide_eq_true_eq] at h
      simp only [Spec.intOutcome]
      rw [if_neg (c := 2 ^ 127 ≤ u - l + 1) (by omega)]
      repeat' split
      all_goals simp

theorem choiceOutcome_fine {lb ub : Int} (h : intFine (some lb) (some ub) = true) (v : Int) :
    Spec.intOutcome (some lb) (some ub) v ≠ .panic := by
  simp only [intFine, decide_eq_true_eq] at h
  simp only [Spec.intOutcome]
  rw [if_neg (c := 2 ^ 127 ≤ ub - lb + 1) (by omega)]
  repeat' split
  all_goals simp

theorem andThen_fine {o o' : Outcome} (h : o ≠ .panic) (h' : o' ≠ .panic) : o.andThen o' ≠ .panic := by
  cases o <;> simp_all [Outcome.andThen]

theorem allOutcome_fine {α : Type} {f : α → Outcome} : (l : List α) → (∀ x ∈ l, f x ≠ .panic) →
    Spec.allOutcome f l ≠ .panic
  | [], _ => by simp [Spec.allOutcome]
  | x :: xs, h => andThen_fine (h x List.mem_cons_self) (allOutcome_fine xs fun y hy => h y (List.mem_cons_of_mem _ hy))

theorem sizeOutcome_fine (lb ub : Option Int) (n : Nat) : Spec.sizeOutcome lb ub n ≠ .panic := by
  unfold Spec.sizeOutcome; split <;> simp

theorem lower {lb ub : Option Int} (h : intFine lb ub = true) : ∀ l, lb = some l → IsI128 l := by
  intro l hl; subst hl
  cases ub <;> simp only [intFine, decide_eq_true_eq] at h <;> exact ⟨by omega, by omega⟩

mutual

theorem Ty.held (not : List Int) : (t : Ty) → t.sendable not = true → (v : t.Val) → t.Typed v → t.Held v
  | .boolean, _, _, _ => trivial
  | .null, _, _, _ => trivial
  | .integer _ _ _ _, h, _, hv => ⟨hv, lower (by simpa [Ty.sendable] using h)⟩
  | .enumerated _ _ _ _, h, _, hv => ⟨hv, lower (by simpa [Ty.sendable] using h)⟩
  | .bitstring _ _ _, h, _, _ => Inks.sizeBounds (by simpa [Ty.sendable] using h)
  | .octetstring _ _ _, h, _, _ => Inks.sizeBounds (by simpa [Ty.sendable] using h)
  | .charstring _ _ _ _, h, _, _ => Inks.sizeBounds (by simpa [Ty.sendable] using h)
  | .objectIdentifier, _, _, _ => trivial
  | .sequence _ n fs, h, v, hv => fs.held not n h v hv
  | .sequenceOf _ _ _ e, h, v, hv => by
      simp only [Ty.sendable, Bool.and_eq_true] at h
      exact ⟨Inks.sizeBounds h.1, fun x hx => e.held not h.2 x (hv x hx)⟩
  | .choice _ _ _ as, h, v, hv => by
      simp only [Ty.sendable, Bool.and_eq_true] at h
      have := as.held not false h.2 v hv
      exact ⟨lower h.1 _ rfl, this.1, this.2⟩
  | .openType as, h, v, hv => (as.held not true h v hv).2

theorem Fields.held (not : List Int) (n : Nat) : (fs : Fields) → fs.sendable not n = true → (v : fs.Val) → fs.Typed v →
    fs.Held v
  | .nil, _, _, _ => trivial
  | .required _ t rest, h, v, hv => by
      simp only [Fields.sendable, Bool.and_eq_true] at h
      exact ⟨t.held not h.1 v.1 hv.1, rest.held not n h.2 v.2 hv.2⟩
  | .optional _ t rest, h, (some x, v), hv => by
      simp only [Fields.sendable, Bool.and_eq_true] at h
      exact ⟨t.held not h.1.2 x hv.1, rest.held not n h.2 v hv.2⟩
  | .optional _ t rest, h, (none, v), hv => by
      simp only [Fields.sendable, Bool.and_eq_true] at h
      exact ⟨trivial, rest.held not n h.2 v hv.2⟩

theorem Alts.held (not : List Int) (isOpen : Bool) : (as : Alts) → as.sendable not isOpen = true → (v : as.Val) →
    as.Typed v → IsI128 (as.keyOf v) ∧ as.Held v
  | .cons _ _ t _, h, .inl v, hv => by
      simp only [Alts.sendable, Bool.and_eq_true] at h
      exact ⟨of_decide_eq_true h.1.1.1, t.held not h.1.2 v hv⟩
  | .cons _ _ _ rest, h, .inr v, hv => by
      simp only [Alts.sendable, Bool.and_eq_true] at h
      exact rest.held not isOpen h.2 v hv

end

theorem Fields.hasBits_fine (not : List Int) (n : Nat) : (fs : Fields) → fs.sendable not n = true → (v : fs.Val) →
    fs.hasBits n v = true
  | .nil, _, _ => rfl
  | .required _ _ rest, h, v => by
      simp only [Fields.sendable, Bool.and_eq_true] at h
      exact rest.hasBits_fine not n h.2 v.2
  | .optional _ _ rest, h, v => by
      simp only [Fields.sendable, Bool.and_eq_true] at h
      simp only [Fields.hasBits, h.1.1, Bool.or_true, Bool.true_and]
      exact rest.hasBits_fine not n h.2 v.2

mutual

theorem Ty.fine (not : List Int) : (t : Ty) → t.sendable not = true → (v : t.Val) → t.Typed v → t.Manned v →
    t.Without not v → t.outcome v ≠ .panic
  | .boolean, _, _, _, _, _ => by simp [Ty.outcome]
  | .null, _, _, _, _, _ => by simp [Ty.outcome]
  | .integer _ _ _ _, h, v, hv, _, _ => intOutcome_fine (by simpa [Ty.sendable] using h) (fits_small hv).2
  | .enumerated _ _ _ _, h, v, hv, _, _ => intOutcome_fine (by simpa [Ty.sendable] using h) (fits_small hv).2
  | .bitstring _ _ _, _, _, _, _, _ => by
      rw [Ty.outcome]; split
      · simp
      · exact sizeOutcome_fine _ _ _
  | .octetstring _ _ _, _, _, _, _, _ => by
      rw [Ty.outcome]; split
      · simp
      · exact sizeOutcome_fine _ _ _
  | .charstring _ _ _ _, _, _, _, _, _ => sizeOutcome_fine _ _ _
  | .objectIdentifier, _, _, _, _, _ => by simp [Ty.outcome]
  | .sequence _ n fs, h, v, hv, hm, hw => by
      show (if fs.hasBits n v then fs.outcome v else .panic) ≠ .panic
      rw [fs.hasBits_fine not n h v, if_pos rfl]
      exact fs.fine not n h v hv hm hw
  | .sequenceOf _ _ ext e, h, v, hv, hm, hw => by
      simp only [Ty.sendable, Bool.and_eq_true] at h
      show (if ext && List.isEmpty (show List e.Val from v) then .panic else Spec.allOutcome e.outcome v) ≠ .panic
      split
      · rename_i hx
        simp only [Bool.and_eq_true] at hx
        exact absurd (List.isEmpty_iff.mp hx.2) (hm.2.1 hx.1)
      · exact allOutcome_fine _ fun x hx => e.fine not h.2 x (hv x hx) (hm.2.2 x hx) (hw x hx)
  | .choice lb ub _ as, h, v, hv, hm, hw => by
      simp only [Ty.sendable, Bool.and_eq_true] at h
      show (if as.extendedOf v then .err
        else (Spec.intOutcome (some lb) (some ub) (as.keyOf v)).andThen (as.outcome v)) ≠ .panic
      split
      · simp
      · exact andThen_fine (choiceOutcome_fine h.1 _) (as.fine not false h.2 v hv hm hw)
  | .openType as, h, v, hv, hm, hw => by
      show (match as.encode v Codec.new with
        | .ok _ content => Spec.openOutcome content.bits.length
        | _ => as.outcome v) ≠ .panic
      split
      · rename_i c hc
        have := as.inksOpen not h v hm hw.1 _ _ hc
        unfold Spec.openOutcome
        rw [if_neg (by omega)]
        split <;> simp
      · exact as.fine not true h v hv hm hw.2

theorem Fields.fine (not : List Int) (n : Nat) : (fs : Fields) → fs.sendable not n = true → (v : fs.Val) → fs.Typed v →
    fs.Manned v → fs.Without not v → fs.outcome v ≠ .panic
  | .nil, _, _, _, _, _ => by simp [Fields.outcome]
  | .required _ t rest, h, v, hv, hm, hw => by
      simp only [Fields.sendable, Bool.and_eq_true] at h
      exact andThen_fine (t.fine not h.1 v.1 hv.1 hm.1 hw.1) (rest.fine not n h.2 v.2 hv.2 hm.2 hw.2)
  | .optional _ t rest, h, (some x, v), hv, hm, hw => by
      simp only [Fields.sendable, Bool.and_eq_true] at h
      exact andThen_fine (t.fine not h.1.2 x hv.1 hm.1 hw.1) (rest.fine not n h.2 v hv.2 hm.2 hw.2)
  | .optional _ t rest, h, (none, v), hv, hm, hw => by
      simp only [Fields.sendable, Bool.and_eq_true] at h
      exact andThen_fine (by simp) (rest.fine not n h.2 v hv.2 hm.2 hw.2)

theorem Alts.fine (not : List Int) (isOpen : Bool) : (as : Alts) → as.sendable not isOpen = true → (v : as.Val) →
    as.Typed v → as.Manned v → as.Without not v → as.outcome v ≠ .panic
  | .cons _ _ t _, h, .inl v, hv, hm, hw => by
      simp only [Alts.sendable, Bool.and_eq_true] at h
      exact t.fine not h.1.2 v hv hm hw
  | .cons _ _ _ rest, h, .inr v, hv, hm, hw => by
      simp only [Alts.sendable, Bool.and_eq_true] at h
      exact rest.fine not isOpen h.2 v hv hm hw

end

/-! ## What is never encoded -/

/-- It encodes nothing. -/
def Stuck (m : M Unit) : Prop := ∀ s s', m s ≠ .ok () s'

namespace Stuck

theorem left {m : M Unit} {g : Unit → M Unit} (h : Stuck m) : Stuck (m >>= g) := by
  intro s s' e
  rw [M.bind_apply] at e
  split at e
  · rename_i hm; exact h _ _ hm
  · cases e
  · cases e

theorem right {m : M Unit} {g : Unit → M Unit} (h : Stuck (g ())) : Stuck (m >>= g) := by
  intro s s' e
  rw [M.bind_apply] at e
  split at e
  · exact h _ _ e
  · cases e
  · cases e

theorem all {α : Type} {enc : α → M Unit} {x : α} (hx : Stuck (enc x)) : (l : List α) → x ∈ l → Stuck (encodeAll enc l)
  | y :: ys, h => by
      cases h with
      | head => exact left hx
      | tail _ h => exact right (all hx ys h)

theorem «open» {p : M Unit} (h : Stuck p) : Stuck (encodeOpen p) := by
  intro s s' e
  unfold encodeOpen at e
  split at e
  · cases e
  · cases e
  · rename_i hp; exact h _ _ hp

theorem nothing {p : M Unit} (h : ∀ s s', p s = .ok () s' → s' = s) : Stuck (encodeOpen p) := by
  intro s s' e
  unfold encodeOpen at e
  split at e
  · cases e
  · cases e
  · rename_i hp
    rw [h _ _ hp] at e
    split at e
    · rename_i hl; cases hl
    · cases e
    · cases e

end Stuck

theorem single {l v : Int} {s s' : Codec} (e : encodeConstrained l l v s = .ok () s') : s' = s := by
  unfold encodeConstrained encodeConstrainedWith at e
  rw [M.ite_apply] at e
  split at e
  · cases e
  · rw [M.ite_apply] at e
    split at e
    · cases e
    · have h1 : l - l = 0 := by omega
      have h2 : v - l = 0 := by omega
      rw [h1, h2] at e
      have : encFieldBits (0 + 1) = some 0 := by decide
      simp only [M.bind_apply, chkI128, this] at e
      cases e
      simp [natToBits]

theorem Ty.blank_same : (t : Ty) → t.blank = true → (v : t.Val) → ∀ s s', t.encode v s = .ok () s' → s' = s
  | .null, _, _, s, s', e => by cases e; rfl
  | .integer _ lb ub ext, h, v, s, s', e => by
      simp only [Ty.blank, Bool.and_eq_true, Bool.not_eq_true'] at h
      obtain ⟨⟨rfl, h2⟩, h3⟩ := h
      have h3 := eq_of_beq h3
      subst h3
      cases lb with
      | none => cases h2
      | some l => exact single (v := v) e
  | .enumerated _ lb ub ext, h, v, s, s', e => by
      simp only [Ty.blank, Bool.and_eq_true, Bool.not_eq_true'] at h
      obtain ⟨⟨rfl, h2⟩, h3⟩ := h
      have h3 := eq_of_beq h3
      subst h3
      cases lb with
      | none => cases h2
      | some l => exact single (v := v) e

theorem Alts.stuckOpen (keys : List Int) : (as : Alts) → as.blanks keys true = true → (v : as.Val) → as.keyOf v ∈ keys →
    ∀ s s', as.encode v s = .ok () s' → s' = s
  | .cons k _ t _, h, .inl v, hk => by
      simp only [Alts.blanks, Bool.and_eq_true, Bool.or_eq_true] at h
      rcases h.1.1 with (h' | h') | h'
      · cases h'
      · simp only [Bool.not_eq_true', List.contains_eq_mem, decide_eq_false_iff_not] at h'
        exact absurd hk h'
      · exact t.blank_same h' v
  | .cons _ _ _ rest, h, .inr v, hk => by
      simp only [Alts.blanks, Bool.and_eq_true] at h
      exact rest.stuckOpen keys h.2 v hk

mutual

theorem Ty.stuck (keys : List Int) : (t : Ty) → t.blanks keys = true → (v : t.Val) → ¬ t.Without keys v →
    Stuck (t.encode v)
  | .boolean, _, _, h => absurd trivial h
  | .null, _, _, h => absurd trivial h
  | .integer _ _ _ _, _, _, h => absurd trivial h
  | .enumerated _ _ _ _, _, _, h => absurd trivial h
  | .bitstring _ _ _, _, _, h => absurd trivial h
  | .octetstring _ _ _, _, _, h => absurd trivial h
  | .charstring _ _ _ _, _, _, h => absurd trivial h
  | .objectIdentifier, _, _, h => absurd trivial h
  | .sequence _ _ fs, hb, v, h => .right (fs.stuck keys hb v h)
  | .sequenceOf _ _ _ e, hb, v, h => by
      change List e.Val at v
      have : ∃ x ∈ v, ¬ e.Without keys x := by
        refine Classical.byContradiction fun hn => h fun x hx => Classical.byContradiction fun hw => hn ⟨x, hx, hw⟩
      obtain ⟨x, hx, hw⟩ := this
      exact .right (.all (e.stuck keys hb x hw) v hx)
  | .choice _ _ _ as, hb, v, h => .right (as.stuck keys false hb v h)
  | .openType as, hb, v, h => by
      show Stuck (encodeOpen (as.encode v))
      by_cases hk : as.keyOf v ∈ keys
      · exact .nothing (as.stuckOpen keys hb v hk)
      · exact .open (as.stuck keys true hb v fun hw => h ⟨hk, hw⟩)

theorem Fields.stuck (keys : List Int) : (fs : Fields) → fs.blanks keys = true → (v : fs.Val) → ¬ fs.Without keys v →
    Stuck (fs.encode v)
  | .nil, _, _, h => absurd trivial h
  | .required _ t rest, hb, v, h => by
      simp only [Fields.blanks, Bool.and_eq_true] at hb
      show Stuck (t.encode v.1 >>= fun _ => rest.encode v.2)
      by_cases ht : t.Without keys v.1
      · exact .right (rest.stuck keys hb.2 v.2 fun hr => h ⟨ht, hr⟩)
      · exact .left (t.stuck keys hb.1 v.1 ht)
  | .optional _ t rest, hb, (some x, v), h => by
      simp only [Fields.blanks, Bool.and_eq_true] at hb
      show Stuck (t.encode x >>= fun _ => rest.encode v)
      by_cases ht : t.Without keys x
      · exact .right (rest.stuck keys hb.2 v fun hr => h ⟨ht, hr⟩)
      · exact .left (t.stuck keys hb.1 x ht)
  | .optional _ t rest, hb, (none, v), h => by
      simp only [Fields.blanks, Bool.and_eq_true] at hb
      exact .right (rest.stuck keys hb.2 v fun hr => h ⟨trivial, hr⟩)

theorem Alts.stuck (keys : List Int) (isOpen : Bool) : (as : Alts) → as.blanks keys isOpen = true → (v : as.Val) →
    ¬ as.Without keys v → Stuck (as.encode v)
  | .cons _ _ t _, hb, .inl v, h => by
      simp only [Alts.blanks, Bool.and_eq_true] at hb
      exact t.stuck keys hb.1.2 v h
  | .cons _ _ _ rest, hb, .inr v, h => by
      simp only [Alts.blanks, Bool.and_eq_true] at hb
      exact rest.stuck keys isOpen hb.2 v h

end

mutual

theorem Ty.without_nil : (t : Ty) → (v : t.Val) → t.Without [] v
  | .boolean, _ => trivial
  | .null, _ => trivial
  | .integer _ _ _ _, _ => trivial
  | .enumerated _ _ _ _, _ => trivial
  | .bitstring _ _ _, _ => trivial
  | .octetstring _ _ _, _ => trivial
  | .charstring _ _ _ _, _ => trivial
  | .objectIdentifier, _ => trivial
  | .sequence _ _ fs, v => fs.without_nil v
  | .sequenceOf _ _ _ e, _ => fun x _ => e.without_nil x
  | .choice _ _ _ as, v => as.without_nil v
  | .openType as, v => ⟨List.not_mem_nil, as.without_nil v⟩

theorem Fields.without_nil : (fs : Fields) → (v : fs.Val) → fs.Without [] v
  | .nil, _ => trivial
  | .required _ t rest, v => ⟨t.without_nil v.1, rest.without_nil v.2⟩
  | .optional _ t rest, (some x, v) => ⟨t.without_nil x, rest.without_nil v⟩
  | .optional _ _ rest, (none, v) => ⟨trivial, rest.without_nil v⟩

theorem Alts.without_nil : (as : Alts) → (v : as.Val) → as.Without [] v
  | .cons _ _ t _, .inl v => t.without_nil v
  | .cons _ _ _ rest, .inr v => rest.without_nil v

end

end Hampi
