import Verif.Lemmas.DeriveRT
import Verif.Props.Headers
/-!
# When derived encoders succeed, and what derived decoders return
-/
namespace Hampi

open Spec (SizeBounds Within)

variable {α β : Type}

/-- The encoder succeeds from every state. -/
def Ok (m : M Unit) : Prop := ∀ s, ∃ s', m s = .ok () s'

theorem Ok.pure : Ok (pure ()) := fun s => ⟨s, rfl⟩

theorem Ok.bind {m : M Unit} {g : Unit → M Unit} (h1 : Ok m) (h2 : Ok (g ())) : Ok (m >>= g) := by
  intro s
  obtain ⟨t, ht⟩ := h1 s
  obtain ⟨u, hu⟩ := h2 t
  exact ⟨u, by rw [M.bind_apply, ht]; exact hu⟩

theorem Ok.integer {lb ub : Option Int} {v : Int} (h : IntPermitted lb ub v) (ext : Bool) :
    Ok (encodeInteger lb ub ext v false) := by
  intro s
  cases lb with
  | none =>
    obtain ⟨_, t, ht⟩ := C04_unconstrained_accepted ub v ext h s
    exact ⟨t, ht⟩
  | some l =>
    cases ub with
    | none =>
      obtain ⟨_, t, ht⟩ := C05_semi_constrained_accepted l v ext h.1 h.2 s
      exact ⟨t, ht⟩
    | some u =>
      obtain ⟨_, t, ht⟩ := C02_in_bounds_accepted_partial l u v ext s h.1 h.2.1 h.2.2.1 h.2.2.2
      exact ⟨t, ht⟩

theorem Ok.extBit (e : Bool) : Ok (encodeExtBit e false) := fun s => encodeExtBit_ok e false s

theorem Ok.enumerated {lb ub : Option Int} {v : Int} (h : IntPermitted lb ub v) (ext : Bool) :
    Ok (encodeEnumerated lb ub ext v false) := by
  unfold encodeEnumerated
  simp only [Bool.false_eq_true, if_false]
  cases ext
  · exact .integer h false
  · exact .bind (fun s => ⟨_, rfl⟩) (.integer h false)

theorem Fields.mark_ok : (fs : Fields) → (v : fs.Val) → (bm : List Bool) →
    (∀ i ∈ fs.indexes, i < bm.length) → ∃ bm', fs.mark v bm = some bm'
  | .nil, _, bm, _ => ⟨bm, rfl⟩
  | .required _ _ rest, v, bm, h => Fields.mark_ok rest v.2 bm h
  | .optional i _ rest, (some _, v), bm, h => by
    simp only [Fields.mark]
    rw [if_pos (h i List.mem_cons_self)]
    exact Fields.mark_ok rest v _ fun j hj => by
      rw [List.length_set]; exact h j (List.mem_cons_of_mem _ hj)
  | .optional i _ rest, (none, v), bm, h =>
    Fields.mark_ok rest v bm fun j hj => h j (List.mem_cons_of_mem _ hj)

theorem Ok.header {fs : Fields} {v : fs.Val} {n : Nat} (h : ∀ i ∈ fs.indexes, i < n) (ext : Bool) :
    Ok (encodeHeader fs v ext n) := by
  intro s
  obtain ⟨bm, hb⟩ := Fields.mark_ok fs v (List.replicate n false) (by simpa using h)
  unfold encodeHeader
  rw [hb]
  exact ⟨_, C18_header_layout ext bm s⟩

theorem Ok.ignoreErr {m : M Unit} (h : Ok m) : Ok (M.ignoreErr m) := by
  intro s
  obtain ⟨t, ht⟩ := h s
  exact ⟨t, by unfold M.ignoreErr; rw [ht]⟩

theorem Ok.encodeAll {enc : α → M Unit} : (l : List α) → (∀ x ∈ l, Ok (enc x)) → Ok (encodeAll enc l)
  | [], _ => .pure
  | x :: xs, h => .bind (h x List.mem_cons_self)
      (Ok.encodeAll xs fun y hy => h y (List.mem_cons_of_mem _ hy))

theorem Ok.open {payload : M Unit} (h : Ok payload) (hs : ∀ s', payload Codec.new = .ok () s' →
    0 < s'.bits.length ∧ s'.bits.length ≤ 8 * 16383) : Ok (encodeOpen payload) := by
  intro s
  obtain ⟨t, ht⟩ := h Codec.new
  obtain ⟨h1, h2⟩ := hs t ht
  unfold encodeOpen
  rw [ht]
  have hl : lengthInBytes t = .ok ((t.bits.length - 1) / 8 + 1) t := by
    unfold lengthInBytes; exact if_neg (by omega)
  dsimp only
  rw [hl]
  dsimp only
  refine Ok.bind (m := encodeLength none none false ((t.bits.length - 1) / 8 + 1))
    (g := fun _ => appendAligned t) (fun s => ⟨_, encodeIndefinite_writes (by omega) s.bits.length s rfl⟩)
    ?_ s
  unfold appendAligned
  refine .bind (fun s => ⟨_, Writes.align s.bits.length s rfl⟩) ?_
  rw [Writes.align t.bits.length t rfl]
  exact fun s => ⟨_, rfl⟩

mutual

theorem Ty.encode_ok : (t : Ty) → (v : t.Val) → t.Permitted v → Ok (t.encode v)
  | .boolean, v, _ => fun s => ⟨_, rfl⟩
  | .null, _, _ => .pure
  | .integer _ lb ub ext, v, h => .integer h ext
  | .enumerated _ lb ub ext, v, h => .enumerated h ext
  | .bitstring lb ub ext, v, h => fun s => by
    obtain ⟨_, t, ht⟩ := C11_bitstring_accepted lb ub h.1 ext v h.2.1 h.2.2 s
    exact ⟨t, ht⟩
  | .octetstring lb ub ext, v, h => fun s => by
    obtain ⟨_, t, ht⟩ := C12_octetstring_accepted lb ub h.1 ext v h.2.1 h.2.2 s
    exact ⟨t, ht⟩
  | .charstring kind lb ub ext, v, h => fun s => by
    obtain ⟨_, t, ht⟩ := C13_string_accepted lb ub h.1 ext v h.2.1 h.2.2 s
    cases kind <;> exact ⟨t, ht⟩
  | .objectIdentifier, _, h => absurd h id
  | .sequence ext n fs, v, h => .bind (.header h.1 ext) (Fields.encode_ok fs v h.2)
  | .sequenceOf lb ub ext e, v, h => by
    refine .bind ?_ (.encodeAll v fun x hx => Ty.encode_ok e x (h.2 x hx))
    cases ext with
    | true =>
      obtain ⟨hne, hl⟩ := (show v ≠ [] ∧ List.length v < 16384 from h.1)
      have hpos : 1 ≤ List.length v := List.length_pos_iff.mpr hne
      exact .ignoreErr fun s => normallySmall_ok hpos hl s
    | false => exact .ignoreErr fun s => encodeLength_sizeOk h.1 s
  | .choice lb ub ext as, v, h => by
    obtain ⟨h1, h2, h3, h4, h5⟩ := h
    refine .bind (fun s => ?_) (Alts.encode_ok as v h5)
    obtain ⟨_, t, ht⟩ := C17_choice_accepted lb ub _ h1 h2 h3 ext s
    rw [h4]
    exact ⟨t, ht⟩
  | .openType as, v, h => .open (Alts.encode_ok as v h.1) h.2

theorem Fields.encode_ok : (fs : Fields) → (v : fs.Val) → fs.Permitted v → Ok (fs.encode v)
  | .nil, _, _ => .pure
  | .required _ t rest, v, h => .bind (Ty.encode_ok t v.1 h.1) (Fields.encode_ok rest v.2 h.2)
  | .optional _ t rest, (some x, vs), h => .bind (Ty.encode_ok t x h.1) (Fields.encode_ok rest vs h.2)
  | .optional _ t rest, (none, vs), h => .bind .pure (Fields.encode_ok rest vs h.2)

theorem Alts.encode_ok : (as : Alts) → (v : as.Val) → as.Permitted v → Ok (as.encode v)
  | .cons _ _ t _, .inl v, h => Ty.encode_ok t v h
  | .cons _ _ _ rest, .inr v, h => Alts.encode_ok rest v h

end

/-! ## Keys seen by the decoder -/

/-- The decoder returns a value of which `P` holds, and the key becomes `f v key`. -/
def Keyed (dec : M α) (P : α → Option Int → Prop) (f : α → Option Int → Option Int) : Prop :=
  ∀ s v s', dec s = .ok v s' → P v s.key ∧ s'.key = f v s.key

theorem IsDec.keyed {dec : M α} (h : IsDec dec) : Keyed dec (fun _ _ => True) (fun _ k => k) := by
  intro s v s' hs
  have := h.key s
  rw [hs] at this
  exact ⟨trivial, this⟩

theorem decodeTimes_keyed {dec : M α} {P : α → Option Int → Prop} {f : α → Option Int → Option Int}
    (h : Keyed dec P f) : (n : Nat) → Keyed (decodeTimes dec n) (keysOkAll P f) (keyAfterAll f)
  | 0 => by intro s v s' hs; cases hs; exact ⟨trivial, rfl⟩
  | n + 1 => by
    intro s v s' hs
    obtain ⟨x, s1, h1, hs⟩ := bind_ok hs
    obtain ⟨xs, s2, h2, hs⟩ := bind_ok hs
    cases hs
    obtain ⟨a1, a2⟩ := h s x s1 h1
    obtain ⟨b1, b2⟩ := decodeTimes_keyed h n s1 xs _ h2
    rw [a2] at b1 b2
    exact ⟨⟨a1, b1⟩, b2⟩

theorem decodeTimes_length {dec : M α} : (n : Nat) → (s : Codec) → (v : List α) → (s' : Codec) →
    decodeTimes dec n s = .ok v s' → v.length = n
  | 0, s, v, s', h => by cases h; rfl
  | n + 1, s, v, s', h => by
    obtain ⟨x, s1, h1, h⟩ := bind_ok h
    obtain ⟨xs, s2, h2, h⟩ := bind_ok h
    cases h
    simp [decodeTimes_length n _ _ _ h2]

theorem decodeLoop_ok {dec : M α} {n : Nat} {s s' : Codec} {v : List α}
    (h : decodeLoop dec n s = .ok v s') : n ≠ 0 ∧ decodeTimes dec n s = .ok v s' := by
  unfold decodeLoop at h
  split at h
  · obtain ⟨_, _, -, h⟩ := bind_ok h
    cases h
  · next hn => exact ⟨hn, h⟩

theorem IsDec.key_eq {dec : M α} (h : IsDec dec) {s s' : Codec} {v : α} (hs : dec s = .ok v s') :
    s'.key = s.key := by
  have := h.key s
  rw [hs] at this
  exact this

theorem present_ok {bm : List Bool} {i : Nat} {s s' : Codec} {b : Bool}
    (h : present bm i s = .ok b s') : bm[i]? = some b ∧ s' = s := by
  unfold present at h
  cases hb : bm[i]? with
  | some x => rw [hb] at h; cases h; exact ⟨rfl, rfl⟩
  | none => rw [hb] at h; cases h

theorem requireKey_ok {s s' : Codec} {k : Int} (h : requireKey s = .ok k s') :
    s.key = some k ∧ s' = s := by
  unfold requireKey at h
  cases hb : s.key with
  | some x => rw [hb] at h; cases h; exact ⟨rfl, rfl⟩
  | none => rw [hb] at h; cases h

mutual

theorem Ty.decode_keyed : (t : Ty) → Keyed t.decode t.KeysOk t.keyAfter
  | .boolean => fun s v s' h => ⟨trivial, IsDec.bool.key_eq h⟩
  | .null => fun s v s' h => by cases h; exact ⟨trivial, rfl⟩
  | .integer w lb ub ext => fun s v s' h => by
    obtain ⟨x, s1, h1, h⟩ := bind_ok h
    cases h
    exact ⟨trivial, (IsDec.integer lb ub ext).key_eq h1⟩
  | .enumerated w lb ub ext => fun s v s' h => by
    obtain ⟨x, s1, h1, h⟩ := bind_ok h
    cases h
    exact ⟨trivial, (IsDec.enumerated lb ub ext).key_eq h1⟩
  | .bitstring lb ub ext => fun s v s' h => ⟨trivial, (IsDec.bitstring lb ub ext).key_eq h⟩
  | .octetstring lb ub ext => fun s v s' h => ⟨trivial, (IsDec.octetstring lb ub ext).key_eq h⟩
  | .charstring kind lb ub ext => fun s v s' h =>
    ⟨trivial, (IsDec.charstring kind lb ub ext).key_eq h⟩
  | .objectIdentifier => fun s v s' h => by cases h
  | .sequence ext n fs => fun s v s' h => by
    obtain ⟨x, s1, h1, h⟩ := bind_ok h
    have hk := (IsDec.sequenceHeader ext n).key_eq h1
    obtain ⟨a1, a2, -⟩ := Fields.decode_keyed fs x.1 s1 v s' h
    rw [hk] at a1 a2
    exact ⟨a1, a2⟩
  | .sequenceOf lb ub ext e => fun s v s' h => by
    obtain ⟨n, s1, h1, h⟩ := bind_ok h
    have hk := (IsDec.length lb ub ext).key_eq h1
    obtain ⟨-, h⟩ := decodeLoop_ok h
    have := decodeTimes_keyed (Ty.decode_keyed e) n s1 v s' h
    rw [hk] at this
    exact this
  | .choice lb ub ext as => fun s v s' h => by
    obtain ⟨r, s1, h1, h⟩ := bind_ok h
    have hk := (IsDec.choiceIdx lb ub ext).key_eq h1
    have h : (if (!r.2) = true then as.decode r.1 else (M.fail : M as.Val)) s1 = .ok v s' := h
    by_cases hr : (!r.2) = true
    · rw [if_pos hr] at h
      obtain ⟨a1, a2, -⟩ := Alts.decode_keyed as r.1 s1 v s' h
      rw [hk] at a1 a2
      exact ⟨a1, a2⟩
    · rw [if_neg hr] at h
      cases h
  | .openType as => fun s v s' h => by
    obtain ⟨n, s1, h1, h⟩ := bind_ok h
    have hk := (IsDec.length none none false).key_eq h1
    obtain ⟨k, s2, h2, h'⟩ := bind_ok h
    obtain ⟨hk2, rfl⟩ := requireKey_ok h2
    obtain ⟨a1, a2, a3⟩ := Alts.decode_keyed as k s2 v s' h'
    rw [hk] at a1 a2 hk2
    exact ⟨⟨⟨k, hk2, a3⟩, a1⟩, a2⟩

theorem Fields.decode_keyed : (fs : Fields) → (bm : List Bool) → (s : Codec) → (v : fs.Val) →
    (s' : Codec) → fs.decode bm s = .ok v s' →
    fs.KeysOk v s.key ∧ s'.key = fs.keyAfter v s.key ∧ fs.Marked v bm
  | .nil, bm, s, v, s', h => by cases h; exact ⟨trivial, rfl, trivial⟩
  | .required kf t rest, bm, s, v, s', h => by
    obtain ⟨x, s1, h1, h⟩ := bind_ok h
    obtain ⟨u, s2, h2, h⟩ := bind_ok h
    obtain ⟨xs, s3, h3, h⟩ := bind_ok h
    cases h
    obtain ⟨a1, a2⟩ := Ty.decode_keyed t s x s1 h1
    have e : s2.key = keyAfterField kf t x s1.key := by
      have := setKeyFrom_run kf t x s1.bits s1.off s1.key
      rw [show (⟨s1.bits, s1.off, s1.key⟩ : Codec) = s1 from rfl, h2] at this
      cases this
      rfl
    obtain ⟨b1, b2, b3⟩ := Fields.decode_keyed rest bm s2 xs _ h3
    rw [e, a2] at b1 b2
    exact ⟨⟨a1, b1⟩, b2, b3⟩
  | .optional i t rest, bm, s, v, s', h => by
    obtain ⟨b, s1, h1, h'⟩ := bind_ok h
    obtain ⟨hb, rfl⟩ := present_ok h1
    obtain ⟨x, s2, h2, h''⟩ := bind_ok h'
    obtain ⟨xs, s3, h3, h4⟩ := bind_ok h''
    cases h4
    obtain ⟨b1, b2, b3⟩ := Fields.decode_keyed rest bm s2 xs _ h3
    cases b with
    | true =>
      obtain ⟨y, s4, h4, h2⟩ := bind_ok h2
      cases h2
      obtain ⟨a1, a2⟩ := Ty.decode_keyed t s1 y _ h4
      rw [a2] at b1 b2
      exact ⟨⟨a1, b1⟩, b2, hb, b3⟩
    | false =>
      cases h2
      exact ⟨⟨trivial, b1⟩, b2, hb, b3⟩

theorem Alts.decode_keyed : (as : Alts) → (key : Int) → (s : Codec) → (v : as.Val) → (s' : Codec) →
    as.decode key s = .ok v s' →
    as.KeysOk v s.key ∧ s'.key = as.keyAfter v s.key ∧ as.Selects key v
  | .nil, key, s, v, s', h => by cases h
  | .cons k x t rest, key, s, v, s', h => by
    simp only [Alts.decode] at h
    split at h
    · next hk =>
      obtain ⟨y, s1, h1, h⟩ := bind_ok h
      cases h
      obtain ⟨a1, a2⟩ := Ty.decode_keyed t s y _ h1
      exact ⟨a1, a2, hk⟩
    · next hk =>
      obtain ⟨y, s1, h1, h⟩ := bind_ok h
      cases h
      obtain ⟨a1, a2, a3⟩ := Alts.decode_keyed rest key s y _ h1
      exact ⟨a1, a2, hk, a3⟩

end

theorem Alts.Selects.keyOf : (as : Alts) → (k : Int) → (v : as.Val) → as.Selects k v → as.keyOf v = k
  | .cons _ _ _ _, _, .inl _, h => (show _ = _ from h).symm
  | .cons _ _ _ rest, k, .inr v, h => Alts.Selects.keyOf rest k v h.2

theorem Alts.Selects.mem : (as : Alts) → (k : Int) → (v : as.Val) → as.Selects k v → k ∈ as.keys
  | .cons _ _ _ _, _, .inl _, h => by
    have h : _ = _ := h
    simp [Alts.keys, h]
  | .cons _ _ _ rest, k, .inr v, h => List.mem_cons_of_mem _ (Alts.Selects.mem rest k v h.2)

theorem Alts.decode_unknown : (as : Alts) → (key : Int) → key ∉ as.keys → as.decode key = M.fail
  | .nil, _, _ => rfl
  | .cons k _ t rest, key, h => by
    simp only [Alts.keys, List.mem_cons, not_or] at h
    simp only [Alts.decode]
    rw [if_neg h.1, Alts.decode_unknown rest key h.2]
    rfl

end Hampi
