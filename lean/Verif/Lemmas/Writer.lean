import Verif.Codec.Encode
import Verif.Lemmas.Bits
/-!
# Encoders as writers

An encoder's whole effect is to append bits; which bits, and the outcome, depend only on its
arguments and on the length of the buffer modulo 8.
-/
namespace Hampi

theorem M.bind_apply {α β} (m : M α) (f : α → M β) (s : Codec) :
    (m >>= f) s = match m s with
      | .ok a s' => f a s'
      | .err s' => .err s'
      | .panic => .panic := rfl

theorem M.pure_apply {α} (a : α) (s : Codec) : (pure a : M α) s = .ok a s := rfl

@[simp] theorem M.fail_apply {α} (s : Codec) : (M.fail : M α) s = .err s := rfl
@[simp] theorem M.panic_apply {α} (s : Codec) : (M.panic : M α) s = .panic := rfl

theorem M.ite_apply {α} (c : Prop) [Decidable c] (a b : M α) (s : Codec) :
    (if c then a else b) s = if c then a s else b s := by split <;> rfl

instance : LawfulMonad M := LawfulMonad.mk'
  (id_map := by
    intro α x; funext s
    show (x >>= fun a => pure (id a)) s = x s
    rw [M.bind_apply]; cases x s <;> rfl)
  (pure_bind := by intros; rfl)
  (bind_assoc := by
    intro α β γ x f g; funext s
    simp only [M.bind_apply]; cases x s <;> rfl)

/-- What an encoder does, seen from a buffer of known length. -/
inductive W (α : Type) where
  | ok (a : α) (w : List Bool)
  | err (w : List Bool)
  | panic

/-- Carry out a writer's effect on a buffer. -/
def W.run {α} (x : W α) (s : Codec) : Res α :=
  match x with
  | .ok a w => .ok a { s with bits := s.bits ++ w }
  | .err w => .err { s with bits := s.bits ++ w }
  | .panic => .panic

/-- `m` is a writer: its effect is to append bits determined by the buffer length modulo 8. -/
def IsWriter {α} (m : M α) : Prop :=
  ∃ f : Nat → W α, (∀ p q, p % 8 = q % 8 → f p = f q) ∧ ∀ s : Codec, m s = (f s.bits.length).run s

namespace IsWriter
variable {α β : Type}

theorem pure (a : α) : IsWriter (pure a : M α) :=
  ⟨fun _ => .ok a [], fun _ _ _ => rfl, fun s => by simp [W.run, M.pure_apply]⟩

theorem fail : IsWriter (M.fail : M α) :=
  ⟨fun _ => .err [], fun _ _ _ => rfl, fun s => by simp [W.run]⟩

theorem panic : IsWriter (M.panic : M α) :=
  ⟨fun _ => .panic, fun _ _ _ => rfl, fun s => by simp [W.run]⟩

theorem appendBits (w : List Bool) : IsWriter (appendBits w) :=
  ⟨fun _ => .ok () w, fun _ _ _ => rfl, fun _ => rfl⟩

theorem pushBit (b : Bool) : IsWriter (pushBit b) :=
  ⟨fun _ => .ok () [b], fun _ _ _ => rfl, fun _ => rfl⟩

theorem align_eq (s : Codec) :
    align s = .ok () { s with bits := s.bits ++ List.replicate (padLen s.bits.length) false } := by
  unfold Hampi.align padLen
  by_cases h : s.bits.length % 8 = 0
  · simp [h]
  · have h1 : 8 - s.bits.length % 8 < 8 := by omega
    have h2 : (8 - s.bits.length % 8) % 8 = 8 - s.bits.length % 8 := Nat.mod_eq_of_lt h1
    simp [h2, h1]

theorem align : IsWriter align :=
  ⟨fun p => .ok () (List.replicate (padLen p) false), fun p q h => by simp only [padLen_congr h],
    fun s => by rw [align_eq]; rfl⟩

theorem bind {m : M α} {g : α → M β} (hm : IsWriter m) (hg : ∀ a, IsWriter (g a)) :
    IsWriter (m >>= g) := by
  obtain ⟨f, hf, hm⟩ := hm
  obtain ⟨k, hkg⟩ := Classical.axiomOfChoice hg
  have hk := fun a => (hkg a).1
  have hg := fun a => (hkg a).2
  refine ⟨fun p => match f p with
    | .ok a w => match k a (p + w.length) with
      | .ok b w' => .ok b (w ++ w')
      | .err w' => .err (w ++ w')
      | .panic => .panic
    | .err w => .err w
    | .panic => .panic, ?_, ?_⟩
  · intro p q h
    simp only [hf p q h]
    cases f q with
    | ok a w => simp only []; rw [hk a (p + w.length) (q + w.length) (by omega)]
    | err w => rfl
    | panic => rfl
  · intro s
    rw [M.bind_apply, hm s]
    dsimp only
    cases f s.bits.length with
    | ok a w =>
      simp only [W.run]
      rw [hg a]
      simp only [List.length_append]
      cases k a (s.bits.length + w.length) <;> simp [W.run]
    | err w => rfl
    | panic => rfl

theorem ite {c : Prop} [Decidable c] {a b : M α} (ha : IsWriter a) (hb : IsWriter b) :
    IsWriter (if c then a else b) := by split <;> assumption

theorem chkI128 (v : Int) : IsWriter (chkI128 v) := by
  unfold Hampi.chkI128; exact ite (pure _) panic

theorem alignIf (c : Bool) : IsWriter (alignIf c) := by
  unfold Hampi.alignIf; exact ite align (pure _)

theorem extBit (a b : Bool) : IsWriter (encodeExtBit a b) := by
  unfold encodeExtBit; exact ite (pushBit _) (pure _)

theorem indefinite (n : Nat) : IsWriter (encodeIndefiniteLength n) := by
  unfold encodeIndefiniteLength
  exact bind align fun _ => ite (appendBits _) (ite (appendBits _) fail)

theorem constrainedWith {large : Int → Int → M Unit} (h : ∀ a b, IsWriter (large a b))
    (lb ub v : Int) : IsWriter (encodeConstrainedWith large lb ub v) := by
  unfold encodeConstrainedWith
  refine ite fail (ite fail (bind (chkI128 _) fun d => bind (chkI128 _) fun r =>
    bind (chkI128 _) fun v => ite (ite (bind align fun _ => appendBits _) ?_)
      (ite (bind align fun _ => appendBits _) (h _ _))))
  split
  · exact appendBits _
  · exact panic

theorem constrainedSmall (lb ub v : Int) : IsWriter (encodeConstrainedSmall lb ub v) :=
  constrainedWith (fun _ _ => panic) lb ub v

theorem constrained (lb ub v : Int) : IsWriter (encodeConstrained lb ub v) :=
  constrainedWith (fun _ _ => bind (constrainedSmall _ _ _) fun _ => bind align fun _ =>
    appendBits _) lb ub v

theorem normallySmall (n : Nat) : IsWriter (encodeNormallySmallLength n) := by
  unfold encodeNormallySmallLength
  exact ite (ite panic (bind (pushBit _) fun _ => appendBits _))
    (bind (pushBit _) fun _ => indefinite _)

theorem length (lb ub : Option Int) (ns : Bool) (n : Nat) : IsWriter (encodeLength lb ub ns n) := by
  unfold encodeLength
  refine ite (normallySmall n) ?_
  cases ub with
  | none => exact ite fail (ite fail (indefinite n))
  | some u => exact ite (constrained _ _ _) (ite fail (ite fail (indefinite n)))

theorem unconstrained (v : Int) : IsWriter (encodeUnconstrained v) := by
  unfold encodeUnconstrained
  exact bind (length _ _ _ _) fun _ => ite panic (appendBits _)

theorem semiConstrained (lb v : Int) : IsWriter (encodeSemiConstrained lb v) := by
  unfold encodeSemiConstrained
  exact ite fail (bind (chkI128 _) fun _ => unconstrained _)

theorem integer (lb ub : Option Int) (e : Bool) (v : Int) (x : Bool) :
    IsWriter (encodeInteger lb ub e v x) := by
  unfold encodeInteger
  refine ite fail (bind (extBit _ _) fun _ => ?_)
  split
  · exact unconstrained v
  · exact semiConstrained _ v
  · exact constrained _ _ v

theorem choiceIdx (lb ub : Int) (e : Bool) (v : Int) (x : Bool) :
    IsWriter (encodeChoiceIdx lb ub e v x) := by
  unfold encodeChoiceIdx
  exact ite fail (bind (extBit _ _) fun _ => integer _ _ _ _ _)

theorem sequenceHeader (e : Bool) (o : List Bool) (x : Bool) :
    IsWriter (encodeSequenceHeader e o x) := by
  unfold encodeSequenceHeader
  exact ite fail (bind (extBit _ _) fun _ => appendBits _)

theorem bool (b : Bool) : IsWriter (encodeBool b) := pushBit b

theorem enumerated (lb ub : Option Int) (e : Bool) (v : Int) (x : Bool) :
    IsWriter (encodeEnumerated lb ub e v x) := by
  unfold encodeEnumerated
  exact ite fail (bind (extBit _ _) fun _ => integer _ _ _ _ _)

theorem bitstring (lb ub : Option Int) (e : Bool) (v : List Bool) (x : Bool) :
    IsWriter (encodeBitstring lb ub e v x) := by
  unfold encodeBitstring
  exact ite fail (bind (extBit _ _) fun _ => ite fail (bind (length _ _ _ _) fun _ =>
    ite (bind (alignIf _) fun _ => appendBits _) (pure _)))

theorem octetstring (lb ub : Option Int) (e : Bool) (v : List UInt8) (x : Bool) :
    IsWriter (encodeOctetstring lb ub e v x) := by
  unfold encodeOctetstring
  exact ite fail (bind (extBit _ _) fun _ => ite fail (bind (length _ _ _ _) fun _ =>
    ite (bind (alignIf _) fun _ => appendBits _) (pure _)))

theorem string (lb ub : Option Int) (e : Bool) (v : String) (x : Bool) :
    IsWriter (encodeString lb ub e v x) := by
  unfold encodeString
  exact ite fail (bind (extBit _ _) fun _ => bind (length _ _ _ _) fun _ =>
    bind (alignIf _) fun _ => appendBits _)



end IsWriter

/-- What `IsWriter` says, unfolded: the bits before stay first, position and key are untouched. -/
theorem IsWriter.frame {α} {m : M α} (h : IsWriter m) (s : Codec) :
    (∀ a s', m s = .ok a s' → ∃ w, s'.bits = s.bits ++ w ∧ s'.off = s.off ∧ s'.key = s.key) ∧
    (∀ s', m s = .err s' → ∃ w, s'.bits = s.bits ++ w ∧ s'.off = s.off ∧ s'.key = s.key) := by
  obtain ⟨f, -, hm⟩ := h
  rw [hm]
  cases f s.bits.length with
  | ok a w => simp [W.run]
  | err w => simp [W.run]
  | panic => simp [W.run]

end Hampi
