import Verif.Spec.Outcome
import Verif.Lemmas.Tells
import Verif.Props.EncodePanics
/-!
# C121: how encoding ends is a matter of type and value alone
-/
namespace Hampi
open Spec

/-- The call ends so in every buffer. -/
def Ends {α : Type} (m : M α) (o : Outcome) : Prop := ∀ s, (m s).outcome = o

namespace Ends

theorem fail {α : Type} : Ends (M.fail : M α) .err := fun _ => rfl
theorem panic {α : Type} : Ends (M.panic : M α) .panic := fun _ => rfl
theorem pure {α : Type} (a : α) : Ends (Pure.pure a : M α) .ok := fun _ => rfl
theorem append (l : List Bool) : Ends (appendBits l) .ok := fun _ => rfl
theorem push (b : Bool) : Ends (pushBit b) .ok := fun _ => rfl

theorem bind {m : M Unit} {g : Unit → M Unit} {o o' : Outcome} (h : Ends m o) (h' : Ends (g ()) o') :
    Ends (m >>= g) (o.andThen o') := by
  intro s
  have h1 := h s
  rw [M.bind_apply]
  cases hm : m s with
  | ok a t => rw [hm] at h1; subst h1; exact h' t
  | err t => rw [hm] at h1; subst h1; rfl
  | panic => rw [hm] at h1; subst h1; rfl

theorem okBind {m : M Unit} {g : Unit → M Unit} {o : Outcome} (h : Ends m .ok) (h' : Ends (g ()) o) :
    Ends (m >>= g) o := Ends.bind h h'

theorem extBit (e x : Bool) : Ends (encodeExtBit e x) .ok := by
  unfold encodeExtBit; cases e
  · exact .pure ()
  · exact .push x

theorem align : Ends Hampi.align .ok := by
  intro s
  rw [Writes.align s.bits.length s rfl]; rfl

theorem alignIf (c : Bool) : Ends (Hampi.alignIf c) .ok := by
  unfold Hampi.alignIf; cases c
  · exact .pure ()
  · exact .align

theorem of_writes {m : M Unit} (h : ∀ p, ∃ w, Writes m p w) : Ends m .ok := by
  intro s
  obtain ⟨w, hw⟩ := h s.bits.length
  rw [hw s rfl]; rfl

theorem of_fails {m : M Unit} (h : ∀ p, ∃ w, Fails m p w) : Ends m .err := by
  intro s
  obtain ⟨w, hw⟩ := h s.bits.length
  rw [hw s rfl]; rfl

theorem indefinite (n : Nat) : Ends (encodeIndefiniteLength n) (if n < 16384 then .ok else .err) := by
  by_cases h : n < 16384
  · rw [if_pos h]; exact .of_writes fun p => ⟨_, encodeIndefinite_writes h p⟩
  · rw [if_neg h]; exact .of_fails fun p => ⟨_, encodeIndefinite_fails (by omega) p⟩

theorem unconstrained {v : Int} (h : IsI128 v) : Ends (encodeUnconstrained v) .ok := by
  rw [encodeUnconstrained_eq h]
  obtain ⟨h1, h2, -⟩ := unconstrainedBytes_spec h
  have := Ends.indefinite (unconstrainedBytes v)
  rw [if_pos (by omega)] at this
  exact .okBind this (.append _)

theorem constrained (l u v : Int) : Ends (encodeConstrained l u v) (intOutcome (some l) (some u) v) := by
  unfold intOutcome
  by_cases h1 : v < l ∨ u < v
  · simp only [if_pos h1]
    exact .of_fails fun p => ⟨_, encodeConstrainedWith_outside _ (by omega) p⟩
  · simp only [if_neg h1]
    by_cases h2 : 2 ^ 127 ≤ u - l + 1
    · rw [if_pos h2]
      unfold encodeConstrained
      rw [encodeConstrainedWith_overflow _ (by omega) (by omega) h2]
      exact .panic
    · rw [if_neg h2]
      have hi := InRange.of (lb := l) (ub := u) (v := v) (by omega) (by omega) (by omega)
      by_cases h3 : 65536 < u - l + 1 ∧ v = l
      · rw [if_pos h3]
        exact .of_fails fun p => ⟨_, encodeConstrained_lower hi (by omega) (by omega) p⟩
      · rw [if_neg h3]
        exact .of_writes fun p => ⟨_, encodeConstrained_writes hi (by omega) p⟩

theorem integer {lb ub : Option Int} {v : Int} (hv : IsI128 v) (hl : ∀ l, lb = some l → IsI128 l) (e : Bool) :
    Ends (encodeInteger lb ub e v false) (intOutcome lb ub v) := by
  unfold encodeInteger
  refine .okBind (.extBit e false) ?_
  cases lb with
  | none => exact .unconstrained hv
  | some l =>
    cases ub with
    | some u => exact .constrained l u v
    | none =>
      have hl := hl l rfl
      show Ends (encodeSemiConstrained l v) _
      unfold encodeSemiConstrained intOutcome
      by_cases h1 : v < l
      · simp only [if_pos h1]; exact .fail
      · simp only [if_neg h1]
        unfold IsI128 at hv hl
        by_cases h2 : 2 ^ 127 ≤ v - l
        · rw [if_pos h2, chkI128_bind_panic (by unfold IsI128; omega)]
          exact .panic
        · rw [if_neg h2, chkI128_bind (by unfold IsI128; omega)]
          exact .unconstrained (by unfold IsI128; omega)

theorem size {lb ub : Option Int} (h : SizeBounds lb ub) (n : Nat) :
    Ends (encodeLength lb ub false n) (sizeOutcome lb ub n) := by
  intro s
  obtain ⟨h1, h2⟩ := C10_accepted_lengths lb ub h n s
  have hc : (lb.all (· ≤ (n : Int)) && ub.all ((n : Int) ≤ ·) && (ub.any (· < 65536) || decide (n < 16384))) = true ↔
      Within lb ub n ∧ Expressible ub n := by
    unfold Within Expressible
    cases lb <;> cases ub <;> simp
  unfold sizeOutcome
  by_cases hw : Within lb ub n ∧ Expressible ub n
  · rw [if_pos (hc.2 hw)]
    obtain ⟨a, t, e⟩ := h1 hw
    rw [e]; rfl
  · rw [if_neg (fun h => hw (hc.1 h))]
    obtain ⟨t, e⟩ := h2 hw
    rw [e]; rfl

theorem string {lb ub : Option Int} (h : SizeBounds lb ub) (e : Bool) (v : String) :
    Ends (encodeString lb ub e v false) (sizeOutcome lb ub (utf8 v).length) := by
  unfold encodeString
  refine .okBind (.extBit e false) ?_
  have := Ends.bind (g := fun _ => Hampi.alignIf (2 < (utf8 v).length) >>= fun _ => appendBits (bytesBits (utf8 v)))
    (Ends.size h (utf8 v).length) (.okBind (.alignIf _) (.append _))
  cases ho : sizeOutcome lb ub (utf8 v).length <;> (rw [ho] at this; exact this)

theorem andOk (o : Outcome) : o.andThen .ok = o := by cases o <;> rfl

theorem bitstring {lb ub : Option Int} (h : SizeBounds lb ub) (e : Bool) (v : List Bool) :
    Ends (encodeBitstring lb ub e v false) (if 16384 ≤ v.length then .err else sizeOutcome lb ub v.length) := by
  unfold encodeBitstring
  refine .okBind (.extBit e false) ?_
  by_cases h1 : 16384 ≤ v.length
  · rw [if_pos h1, if_pos h1]; exact .fail
  · rw [if_neg h1, if_neg h1, ← andOk (sizeOutcome lb ub v.length)]
    refine .bind (.size h _) ?_
    by_cases h2 : 0 < v.length
    · rw [if_pos h2]; exact .okBind (.alignIf _) (.append _)
    · rw [if_neg h2]; exact .pure ()

theorem octetstring {lb ub : Option Int} (h : SizeBounds lb ub) (e : Bool) (v : List UInt8) :
    Ends (encodeOctetstring lb ub e v false) (if 16384 ≤ v.length then .err else sizeOutcome lb ub v.length) := by
  unfold encodeOctetstring
  refine .okBind (.extBit e false) ?_
  by_cases h1 : 16384 ≤ v.length
  · rw [if_pos h1, if_pos h1]; exact .fail
  · rw [if_neg h1, if_neg h1, ← andOk (sizeOutcome lb ub v.length)]
    refine .bind (.size h _) ?_
    by_cases h2 : 0 < v.length
    · rw [if_pos h2]; exact .okBind (.alignIf _) (.append _)
    · rw [if_neg h2]; exact .pure ()

theorem listLength {lb ub : Option Int} (h : SizeBounds lb ub) (ext : Bool) (n : Nat) :
    Ends (M.ignoreErr (encodeLength lb ub ext n)) (if ext && n == 0 then .panic else .ok) := by
  intro s
  unfold M.ignoreErr
  cases hm : encodeLength lb ub ext n s with
  | panic =>
    obtain ⟨rfl, rfl⟩ := (C25_length_panics_iff lb ub h ext n s).1 hm
    rfl
  | ok a t =>
    rw [if_neg]; rfl
    intro hc
    have := (C25_length_panics_iff lb ub h ext n s).2 (by simpa using hc)
    rw [hm] at this; cases this
  | err t =>
    rw [if_neg]; rfl
    intro hc
    have := (C25_length_panics_iff lb ub h ext n s).2 (by simpa using hc)
    rw [hm] at this; cases this

theorem all {α : Type} {enc : α → M Unit} {f : α → Outcome} : (l : List α) → (∀ x ∈ l, Ends (enc x) (f x)) →
    Ends (encodeAll enc l) (allOutcome f l)
  | [], _ => .pure ()
  | x :: l, h => .bind (h x List.mem_cons_self) (all l fun y hy => h y (List.mem_cons_of_mem _ hy))

theorem mark_hasBits : (fs : Fields) → (v : fs.Val) → (bm : List Bool) →
    ((fs.mark v bm).isSome = fs.hasBits bm.length v)
  | .nil, _, _ => rfl
  | .required _ _ rest, v, bm => mark_hasBits rest v.2 bm
  | .optional i _ rest, (none, v), bm => mark_hasBits rest v bm
  | .optional i _ rest, (some _, v), bm => by
    simp only [Fields.mark, Fields.hasBits]
    by_cases h : i < bm.length
    · rw [if_pos h, mark_hasBits rest v]; simp [h]
    · rw [if_neg h]; simp [h]

theorem header (fs : Fields) (v : fs.Val) (ext : Bool) (n : Nat) :
    Ends (encodeHeader fs v ext n) (if fs.hasBits n v then .ok else .panic) := by
  have h := mark_hasBits fs v (List.replicate n false)
  rw [List.length_replicate] at h
  unfold encodeHeader
  cases hm : fs.mark v (List.replicate n false) with
  | none => rw [hm] at h; rw [← h]; exact .panic
  | some bm => rw [hm] at h; rw [← h]; exact .okBind (.extBit ext false) (.append bm)

theorem appendAligned (o : Codec) : Ends (Hampi.appendAligned o) .ok := by
  unfold Hampi.appendAligned
  refine .okBind .align ?_
  rw [Writes.align o.bits.length o rfl]
  exact .append _

theorem «open» {p : M Unit} {o : Outcome} (h : Ends p o) :
    Ends (encodeOpen p) (match p Codec.new with
      | .ok _ content => openOutcome content.bits.length
      | _ => o) := by
  intro s
  unfold encodeOpen
  have h1 := h Codec.new
  cases hp : p Codec.new with
  | err t => rw [hp] at h1; subst h1; rfl
  | panic => rw [hp] at h1; subst h1; rfl
  | ok a t =>
    dsimp only
    unfold lengthInBytes openOutcome
    by_cases h0 : t.bits.length = 0
    · rw [if_pos h0, if_pos h0]; rfl
    · rw [if_neg h0, if_neg h0]
      dsimp only
      have h2 : Ends (encodeLength none none false ((t.bits.length - 1) / 8 + 1))
          (if (t.bits.length - 1) / 8 + 1 < 16384 then .ok else .err) := .indefinite _
      have h3 := Ends.bind (g := fun _ => Hampi.appendAligned t) h2 (.appendAligned t) s
      rw [h3, andOk]
      by_cases hc : 8 * 16383 < t.bits.length
      · rw [if_pos hc, if_neg (by omega)]
      · rw [if_neg hc, if_pos (by omega)]

end Ends

mutual

theorem Ty.ends : (t : Ty) → (v : t.Val) → t.Held v → Ends (t.encode v) (t.outcome v)
  | .boolean, v, _ => .push v
  | .null, _, _ => .pure ()
  | .integer _ lb ub e, v, h => .integer (fits_i128 h.1) h.2 e
  | .enumerated _ lb ub e, v, h => .okBind (.extBit e false) (.integer (fits_i128 h.1) h.2 false)
  | .bitstring lb ub e, v, h => .bitstring h e v
  | .octetstring lb ub e, v, h => .octetstring h e v
  | .charstring k lb ub e, v, h => by cases k <;> exact .string h e v
  | .objectIdentifier, _, _ => .fail
  | .sequence ext n fs, v, h => by
    have := Ends.bind (g := fun _ => fs.encode v) (.header fs v ext n) (fs.ends v h)
    unfold Ty.outcome
    cases hb : fs.hasBits n v <;> (rw [hb] at this; exact this)
  | .sequenceOf lb ub ext e, v, h => by
    have := Ends.bind (g := fun _ => encodeAll e.encode v) (.listLength h.1 ext (List.length v))
      (.all v fun x hx => e.ends x (h.2 x hx))
    unfold Ty.outcome
    cases ext with
    | false => exact this
    | true =>
      cases v with
      | nil => exact this
      | cons x l => exact this
  | .choice lb ub ext as, v, h => by
    show Ends (encodeChoiceIdx lb ub ext (as.keyOf v) (as.extendedOf v) >>= fun _ => as.encode v) _
    unfold Ty.outcome encodeChoiceIdx
    cases as.extendedOf v with
    | true => exact .bind (o := .err) (o' := as.outcome v) .fail (as.ends v h.2.2)
    | false =>
      refine .bind (.okBind (.extBit ext false) (.integer h.2.1 ?_ false)) (as.ends v h.2.2)
      intro l hl
      cases hl
      exact h.1
  | .openType as, v, h => .open (as.ends v h)

theorem Fields.ends : (fs : Fields) → (v : fs.Val) → fs.Held v → Ends (fs.encode v) (fs.outcome v)
  | .nil, _, _ => .pure ()
  | .required _ t rest, v, h => .bind (t.ends v.1 h.1) (rest.ends v.2 h.2)
  | .optional _ t rest, (some x, v), h => .bind (t.ends x h.1) (rest.ends v h.2)
  | .optional _ _ rest, (none, v), h => .bind (.pure ()) (rest.ends v h.2)

theorem Alts.ends : (as : Alts) → (v : as.Val) → as.Held v → Ends (as.encode v) (as.outcome v)
  | .cons _ _ t _, .inl v, h => t.ends v h
  | .cons _ _ _ rest, .inr v, h => rest.ends v h

end

/-! ## In every buffer alike, without any proviso -/

/-- What a call returns, without the buffer it leaves. -/
def Res.returned {α : Type} : Res α → Option (Option α)
  | .ok a _ => some (some a)
  | .err _ => some none
  | .panic => none

/-- The call returns the same in every buffer. -/
def Steady {α : Type} (m : M α) : Prop := ∀ s s', (m s).returned = (m s').returned

namespace Steady
variable {α β : Type}

theorem fail : Steady (M.fail : M α) := fun _ _ => rfl
theorem panic : Steady (M.panic : M α) := fun _ _ => rfl
theorem pure (a : α) : Steady (Pure.pure a : M α) := fun _ _ => rfl
theorem append (l : List Bool) : Steady (appendBits l) := fun _ _ => rfl
theorem push (b : Bool) : Steady (pushBit b) := fun _ _ => rfl

theorem bind {m : M α} {g : α → M β} (h : Steady m) (h' : ∀ a, Steady (g a)) : Steady (m >>= g) := by
  intro s s'
  have h1 := h s s'
  rw [M.bind_apply, M.bind_apply]
  cases hm : m s <;> cases hm' : m s' <;> rw [hm, hm'] at h1 <;> simp only [Res.returned] at h1 ⊢
  case ok.ok a t b u => cases h1; exact h' a t u
  all_goals cases h1

theorem ite {c : Prop} [Decidable c] {a b : M α} (ha : Steady a) (hb : Steady b) : Steady (if c then a else b) := by
  split
  · exact ha
  · exact hb

theorem extBit (e x : Bool) : Steady (encodeExtBit e x) := .ite (.push x) (.pure ())

theorem align : Steady Hampi.align := by
  intro s s'
  rw [Writes.align s.bits.length s rfl, Writes.align s'.bits.length s' rfl]; rfl

theorem alignIf (c : Bool) : Steady (Hampi.alignIf c) := .ite .align (.pure ())

theorem chk (v : Int) : Steady (chkI128 v) := .ite (.pure v) .panic

theorem indefinite (n : Nat) : Steady (encodeIndefiniteLength n) := by
  by_cases h : n < 16384
  · intro s s'
    rw [encodeIndefinite_writes h _ s rfl, encodeIndefinite_writes h _ s' rfl]; rfl
  · intro s s'
    rw [encodeIndefinite_fails (by omega) _ s rfl, encodeIndefinite_fails (by omega) _ s' rfl]; rfl

theorem constrainedWith {large : Int → Int → M Unit} (h : ∀ a b, Steady (large a b)) (l u v : Int) :
    Steady (encodeConstrainedWith large l u v) := by
  refine .ite .fail (.ite .fail (.bind (.chk _) fun _ => .bind (.chk _) fun _ => .bind (.chk _) fun _ =>
    .ite (.ite (.bind .align fun _ => .append _) ?_) (.ite (.bind .align fun _ => .append _) (h _ _))))
  split
  · exact .append _
  · exact .panic

theorem constrained (l u v : Int) : Steady (encodeConstrained l u v) :=
  .constrainedWith (fun _ _ => .bind (.constrainedWith (fun _ _ => .panic) _ _ _) fun _ =>
    .bind .align fun _ => .append _) l u v

theorem length (lb ub : Option Int) (ns : Bool) (n : Nat) : Steady (encodeLength lb ub ns n) := by
  unfold encodeLength encodeNormallySmallLength
  refine .ite (.ite (.ite .panic (.bind (.push _) fun _ => .append _)) (.bind (.push _) fun _ => .indefinite _)) ?_
  have h : Steady (if ub.any (fun u => decide (n > asUsize u)) then (M.fail : M Unit)
      else if lb.any (fun l => decide (n < asUsize l)) then M.fail else encodeIndefiniteLength n) :=
    .ite .fail (.ite .fail (.indefinite n))
  cases ub with
  | none => exact h
  | some u => exact .ite (.constrained _ _ _) h

theorem unconstrained (v : Int) : Steady (encodeUnconstrained v) :=
  .bind (.length _ _ _ _) fun _ => .ite .panic (.append _)

theorem integer (lb ub : Option Int) (e : Bool) (v : Int) (x : Bool) : Steady (encodeInteger lb ub e v x) := by
  refine .ite .fail (.bind (.extBit _ _) fun _ => ?_)
  split
  · exact .unconstrained v
  · exact .ite .fail (.bind (.chk _) fun _ => .unconstrained _)
  · exact .constrained _ _ v

theorem string (lb ub : Option Int) (e : Bool) (v : String) (x : Bool) : Steady (encodeString lb ub e v x) :=
  .ite .fail (.bind (.extBit _ _) fun _ => .bind (.length _ _ _ _) fun _ => .bind (.alignIf _) fun _ => .append _)

theorem enumerated (lb ub : Option Int) (e : Bool) (v : Int) (x : Bool) : Steady (encodeEnumerated lb ub e v x) :=
  .ite .fail (.bind (.extBit _ _) fun _ => .integer lb ub false v false)

theorem bitstring (lb ub : Option Int) (e : Bool) (v : List Bool) (x : Bool) : Steady (encodeBitstring lb ub e v x) :=
  .ite .fail (.bind (.extBit _ _) fun _ => .ite .fail (.bind (.length _ _ _ _) fun _ =>
    .ite (.bind (.alignIf _) fun _ => .append _) (.pure ())))

theorem octetstring (lb ub : Option Int) (e : Bool) (v : List UInt8) (x : Bool) :
    Steady (encodeOctetstring lb ub e v x) :=
  .ite .fail (.bind (.extBit _ _) fun _ => .ite .fail (.bind (.length _ _ _ _) fun _ =>
    .ite (.bind (.alignIf _) fun _ => .append _) (.pure ())))

theorem choiceIdx (lb ub : Int) (e : Bool) (v : Int) (x : Bool) : Steady (encodeChoiceIdx lb ub e v x) :=
  .ite .fail (.bind (.extBit _ _) fun _ => .integer _ _ false v false)

theorem ignoreErr {m : M Unit} (h : Steady m) : Steady m.ignoreErr := by
  intro s s'
  have h1 := h s s'
  unfold M.ignoreErr
  cases hm : m s <;> cases hm' : m s' <;> rw [hm, hm'] at h1 <;> simp only [Res.returned] at h1 ⊢ <;> cases h1

theorem all {enc : α → M Unit} (h : ∀ x, Steady (enc x)) : (l : List α) → Steady (encodeAll enc l)
  | [] => .pure ()
  | x :: l => .bind (h x) fun _ => all h l

theorem header (fs : Fields) (v : fs.Val) (e : Bool) (n : Nat) : Steady (encodeHeader fs v e n) := by
  unfold encodeHeader
  split
  · exact .ite .fail (.bind (.extBit _ _) fun _ => .append _)
  · exact .panic

theorem «open» (p : M Unit) : Steady (encodeOpen p) := by
  intro s s'
  unfold encodeOpen
  cases p Codec.new with
  | err t => rfl
  | panic => rfl
  | ok a t =>
    dsimp only
    cases lengthInBytes t with
    | err u => rfl
    | panic => rfl
    | ok n u =>
      have h : Steady (encodeLength none none false n >>= fun _ => appendAligned u) := by
        refine .bind (.length _ _ _ _) fun _ => .bind .align fun _ => ?_
        rw [Writes.align u.bits.length u rfl]
        exact .append _
      exact h s s'

end Steady

mutual

theorem Ty.steady : (t : Ty) → (v : t.Val) → Steady (t.encode v)
  | .boolean, v => .push v
  | .null, _ => .pure ()
  | .integer _ lb ub e, v => .integer lb ub e v false
  | .enumerated _ lb ub e, v => .enumerated lb ub e v false
  | .bitstring lb ub e, v => .bitstring lb ub e v false
  | .octetstring lb ub e, v => .octetstring lb ub e v false
  | .charstring k lb ub e, v => by cases k <;> exact .string lb ub e v false
  | .objectIdentifier, _ => .fail
  | .sequence e n fs, v => .bind (.header fs v e n) fun _ => fs.steady v
  | .sequenceOf lb ub ext e, v => .bind (.ignoreErr (.length _ _ _ _)) fun _ => .all (fun x => e.steady x) v
  | .choice lb ub e as, v => .bind (.choiceIdx lb ub e _ _) fun _ => as.steady v
  | .openType as, v => .open _

theorem Fields.steady : (fs : Fields) → (v : fs.Val) → Steady (fs.encode v)
  | .nil, _ => .pure ()
  | .required _ t rest, v => .bind (t.steady v.1) fun _ => rest.steady v.2
  | .optional _ t rest, (some x, v) => .bind (t.steady x) fun _ => rest.steady v
  | .optional _ _ rest, (none, v) => .bind (.pure ()) fun _ => rest.steady v

theorem Alts.steady : (as : Alts) → (v : as.Val) → Steady (as.encode v)
  | .cons _ _ t _, .inl v => t.steady v
  | .cons _ _ _ rest, .inr v => rest.steady v

end

/-- Whether a value is encoded, refused or makes the encoder panic does not depend on the buffer: not on what is in
it, how long it is, or where it ends within an octet. For every type and every value. -/
theorem C121_any_buffer (t : Ty) (v : t.Val) (s s' : Codec) : (t.encode v s).outcome = (t.encode v s').outcome := by
  have h := t.steady v s s'
  cases hm : t.encode v s <;> cases hm' : t.encode v s' <;> rw [hm, hm'] at h <;> first | rfl | cases h

/-- Which it is: `Ty.outcome` computes it from the attributes and the value. -/
theorem C121_outcome (t : Ty) (v : t.Val) (h : t.Held v) (s : Codec) : (t.encode v s).outcome = t.outcome v :=
  t.ends v h s

/-- **C114**, exactly: the values on which the encoder panics. -/
theorem C114_panics_iff (t : Ty) (v : t.Val) (h : t.Held v) (s : Codec) :
    t.encode v s = .panic ↔ t.outcome v = .panic := by
  rw [← C121_outcome t v h s]
  cases t.encode v s <;> simp [Res.outcome]

/-- The values that are encoded. -/
theorem C121_encoded_iff (t : Ty) (v : t.Val) (h : t.Held v) (s : Codec) :
    (∃ s', t.encode v s = .ok () s') ↔ t.outcome v = .ok := by
  rw [← C121_outcome t v h s]
  cases t.encode v s <;> simp [Res.outcome]

/-! ## The hypotheses, and all three outcomes -/

/-- A list of open types after a number. -/
def outcomeExample : Ty :=
  .sequence true 1 (.required true (.integer .u32 (some 0) (some 100000) false)
    (.optional 0 (.octetstring (some 1) (some 3) true)
      (.required false (.sequenceOf (some 1) (some 4) false
        (.openType (.cons 0 false .null (.cons 1 false .boolean .nil)))) .nil)))

/-- The values of the example. -/
def outcomeValue (n : Int) (o : Option (List UInt8)) (l : List (Unit ⊕ Bool ⊕ Empty)) : outcomeExample.Val :=
  (n, o, l, ())

example (n : Int) (h : 0 ≤ n ∧ n < 2 ^ 32) (o : Option (List UInt8)) (l : List (Unit ⊕ Bool ⊕ Empty)) :
    outcomeExample.Held (outcomeValue n o l) := by
  refine ⟨⟨h, fun l h => by cases h; decide⟩, ?_, ⟨⟨fun l h => by cases h; decide, fun u h => by cases h; decide⟩, ?_⟩, trivial⟩
  · cases o with
    | none => trivial
    | some _ => exact ⟨fun l h => by cases h; decide, fun u h => by cases h; decide⟩
  · intro x _
    rcases x with x | x | x
    · trivial
    · trivial
    · exact x.elim

example : outcomeExample.outcome (outcomeValue 7 (some [1, 2]) [.inr (.inl true)]) = .ok ∧
    outcomeExample.outcome (outcomeValue 0 (some [1, 2]) [.inr (.inl true)]) = .err ∧
    outcomeExample.outcome (outcomeValue 7 (some [1, 2, 3, 4]) [.inl ()]) = .err ∧
    outcomeExample.outcome (outcomeValue 7 none [.inr (.inl true), .inl ()]) = .panic := by decide +kernel

end Hampi
