import Verif.Lemmas.Strings
import Verif.Lemmas.Arith
/-!
# Composition of round trips

`Writes`, `Fails`, `Panics` describe what an encoder does at a given position modulo 8; `Decodes`
says that a decoder reads a given word at that position as a given value.
-/
namespace Hampi

variable {α β : Type}

/-- At positions congruent to `p` modulo 8 the encoder appends `w` and returns `Ok`. -/
def Writes (enc : M Unit) (p : Nat) (w : List Bool) : Prop :=
  ∀ s : Codec, s.bits.length % 8 = p % 8 → enc s = .ok () { s with bits := s.bits ++ w }

/-- At positions congruent to `p` modulo 8 the encoder appends `w` and returns `Err`. -/
def Fails (enc : M Unit) (p : Nat) (w : List Bool) : Prop :=
  ∀ s : Codec, s.bits.length % 8 = p % 8 → enc s = .err { s with bits := s.bits ++ w }

/-- The encoder panics at positions congruent to `p`. -/
def Panics (enc : M Unit) (p : Nat) : Prop :=
  ∀ s : Codec, s.bits.length % 8 = p % 8 → enc s = .panic

/-- At positions congruent to `p` modulo 8 the decoder reads `w` as `v`, whatever surrounds it. -/
def Decodes (dec : M α) (p : Nat) (w : List Bool) (v : α) : Prop :=
  ∀ pre suf k, pre.length % 8 = p % 8 →
    dec ⟨pre ++ w ++ suf, pre.length, k⟩ = .ok v ⟨pre ++ w ++ suf, pre.length + w.length, k⟩

/-- Zero bits up to the next octet boundary. -/
def pad (p : Nat) : List Bool := List.replicate (padLen p) false

@[simp] theorem pad_length (p : Nat) : (pad p).length = padLen p := by simp [pad]

theorem pad_congr {p q : Nat} (h : p % 8 = q % 8) : pad p = pad q := by
  unfold pad; rw [padLen_congr h]

/-! ## Encoders -/

theorem Writes.pure (p : Nat) : Writes (pure ()) p [] := by
  intro s _; simp [M.pure_apply]

theorem Writes.append (p : Nat) (w : List Bool) : Writes (appendBits w) p w := fun _ _ => rfl

theorem Writes.push (p : Nat) (b : Bool) : Writes (pushBit b) p [b] := fun _ _ => rfl

theorem Writes.align (p : Nat) : Writes align p (pad p) := by
  intro s h; rw [IsWriter.align_eq, padLen_congr h]; rfl

theorem Writes.alignIf (p : Nat) (c : Bool) : Writes (alignIf c) p (if c then pad p else []) := by
  unfold Hampi.alignIf
  cases c
  · exact .pure p
  · exact .align p

theorem Writes.bind {m : M Unit} {g : Unit → M Unit} {p : Nat} {w w2 : List Bool}
    (h : Writes m p w) (h2 : Writes (g ()) (p + w.length) w2) : Writes (m >>= g) p (w ++ w2) := by
  intro s hs
  rw [M.bind_apply, h s hs]
  dsimp only
  rw [h2 _ (by simp [List.length_append]; omega)]
  simp

theorem Writes.bind_fails {m : M Unit} {g : Unit → M Unit} {p : Nat} {w w2 : List Bool}
    (h : Writes m p w) (h2 : Fails (g ()) (p + w.length) w2) : Fails (m >>= g) p (w ++ w2) := by
  intro s hs
  rw [M.bind_apply, h s hs]
  dsimp only
  rw [h2 _ (by simp [List.length_append]; omega)]
  simp

theorem Writes.bind_panics {m : M Unit} {g : Unit → M Unit} {p : Nat} {w : List Bool}
    (h : Writes m p w) (h2 : Panics (g ()) (p + w.length)) : Panics (m >>= g) p := by
  intro s hs
  rw [M.bind_apply, h s hs]
  dsimp only
  rw [h2 _ (by simp [List.length_append]; omega)]

theorem Fails.fail (p : Nat) : Fails M.fail p [] := by intro s _; simp

theorem Panics.panic (p : Nat) : Panics M.panic p := fun _ _ => rfl

theorem Fails.bind {m : M Unit} {g : Unit → M Unit} {p : Nat} {w : List Bool}
    (h : Fails m p w) : Fails (m >>= g) p w := by
  intro s hs; rw [M.bind_apply, h s hs]

theorem Panics.bind {m : M Unit} {g : Unit → M Unit} {p : Nat}
    (h : Panics m p) : Panics (m >>= g) p := by
  intro s hs; rw [M.bind_apply, h s hs]

theorem Writes.of_ok {enc : M Unit} (hw : IsWriter enc) {s s' : Codec} (h : enc s = .ok () s') :
    ∃ w, s' = { s with bits := s.bits ++ w } ∧ Writes enc s.bits.length w := by
  obtain ⟨f, hp, hf⟩ := hw
  have h1 := hf s
  rw [h] at h1
  cases hr : f s.bits.length with
  | ok a w =>
    rw [hr] at h1
    simp only [W.run, Res.ok.injEq] at h1
    refine ⟨w, h1.2, fun t ht => ?_⟩
    rw [hf t, hp _ _ ht, hr]; rfl
  | err w => rw [hr] at h1; cases h1
  | panic => rw [hr] at h1; cases h1

theorem chkI128_bind {v : Int} (h : IsI128 v) (g : Int → M α) : (chkI128 v >>= g) = g v := by
  unfold chkI128; rw [if_pos h]; rfl

theorem chkI128_bind_panic {v : Int} (h : ¬ IsI128 v) (g : Int → M α) :
    (chkI128 v >>= g) = M.panic := by
  unfold chkI128; rw [if_neg h]; rfl

theorem M.pure_bind' (a : β) (g : β → M α) : (Pure.pure a >>= g) = g a := rfl

/-! ## Decoders -/

theorem Decodes.pure (p : Nat) (v : α) : Decodes (pure v) p [] v := by
  intro pre suf k _; simp [M.pure_apply]

theorem Decodes.bind {m : M α} {g : α → M β} {p : Nat} {w w2 : List Bool} {a : α} {b : β}
    (h : Decodes m p w a) (h2 : Decodes (g a) (p + w.length) w2 b) :
    Decodes (m >>= g) p (w ++ w2) b := by
  intro pre suf k hp
  rw [M.bind_apply]
  have h1 := h pre (w2 ++ suf) k hp
  have h3 := h2 (pre ++ w) suf k (by simp [List.length_append]; omega)
  simp only [List.append_assoc, List.length_append] at h1 h3 ⊢
  rw [h1]
  dsimp only
  rw [h3, Nat.add_assoc]

theorem Decodes.map {m : M α} {p : Nat} {w : List Bool} {a : α} (h : Decodes m p w a) (f : α → β) :
    Decodes (m >>= fun x => Pure.pure (f x)) p w (f a) := by
  have := Decodes.bind (g := fun x => (Pure.pure (f x) : M β)) h (Decodes.pure _ (f a))
  simpa using this

theorem Decodes.takeBits (p : Nat) (w : List Bool) : Decodes (takeBits w.length) p w w := by
  intro pre suf k _
  unfold Hampi.takeBits
  simp only [List.length_append, List.append_assoc]
  rw [if_neg (by omega), if_neg (by omega), List.drop_left, List.take_left]

theorem Decodes.boolM (p : Nat) (b : Bool) : Decodes decodeBoolM p [b] b := by
  rw [decodeBoolM_eq]
  exact Decodes.map (Decodes.takeBits p [b]) fun l => l.headD false

theorem Decodes.bitvec (p : Nat) (w : List Bool) : Decodes (getBitvec w.length) p w w := by
  rw [getBitvec_eq]; exact .takeBits p w

theorem Decodes.bytes (p : Nat) (bs : List UInt8) :
    Decodes (getBytes bs.length) p (bytesBits bs) bs := by
  rw [getBytes_eq]
  have h := Decodes.map (Decodes.takeBits p (bytesBits bs)) bitsBytes
  rw [bitsBytes_bytesBits, bytesBits_length, Nat.mul_comm] at h
  exact h

theorem Decodes.align (p : Nat) : Decodes decodeAlign p (pad p) () := by
  intro pre suf k hp
  unfold decodeAlign
  have hl : padLen p = padLen pre.length := padLen_congr hp.symm
  by_cases h0 : pre.length % 8 = 0
  · have : padLen p = 0 := by rw [hl]; unfold padLen; omega
    simp [h0, pad, this]
  · have h1 : padLen p = 8 - pre.length % 8 := by rw [hl]; unfold padLen; omega
    simp only [if_neg h0, ← h1, List.length_append, pad_length, List.append_assoc]
    rw [if_neg (by omega), List.drop_left]
    rw [List.take_left' (by simp)]
    simp [pad]

theorem Decodes.alignIf (p : Nat) (c : Bool) :
    Decodes (decodeAlignIf c) p (if c then pad p else []) () := by
  unfold decodeAlignIf
  cases c
  · exact .pure p ()
  · exact .align p

theorem Decodes.unsigned (p : Nat) (w : List Bool) (h : w.length ≤ 128) :
    Decodes (decodeBitsAsInteger w.length false) p w (signExtend 128 (bitsToNat w)) := by
  rw [decodeBitsAsInteger_unsigned, if_pos h]
  exact Decodes.map (Decodes.takeBits p w) fun l => signExtend 128 (bitsToNat l)

theorem Decodes.nat (p : Nat) {n x : Nat} (hn : n ≤ 128) (h : x < 2 ^ n) (hx : x < 2 ^ 127) :
    Decodes (decodeBitsAsInteger n false) p (natToBits n x) (x : Int) := by
  have := Decodes.unsigned p (natToBits n x) (by simpa using hn)
  rw [bitsToNat_natToBits_of_lt h, signExtend_128 hx, natToBits_length] at this
  exact this

theorem Decodes.signed (p : Nat) {n : Nat} {v : Int} (hn : n ∈ signedWidths)
    (h1 : -(2 ^ (n - 1)) ≤ v) (h2 : v < 2 ^ (n - 1)) :
    Decodes (decodeBitsAsInteger n true) p (natToBits n (toU128 v)) v := by
  have hn2 : 1 ≤ n ∧ n ≤ 128 := by
    unfold signedWidths at hn
    simp at hn
    omega
  rw [decodeBitsAsInteger_signed]
  simp only [if_pos hn]
  have h := Decodes.map (Decodes.takeBits p (natToBits n (toU128 v)))
    fun l => signExtend n (bitsToNat l)
  rw [natToBits_length, bitsToNat_natToBits, signExtend_toU128 hn2.1 hn2.2 h1 h2] at h
  exact h

/-! ## From words to statements about the buffer -/

theorem Decodes.unique {dec : M α} {p : Nat} {w1 w2 : List Bool} {v1 v2 : α}
    (h1 : Decodes dec p w1 v1) (h2 : Decodes dec p w2 v2) (hpre : w1 <+: w2) : v1 = v2 ∧ w1 = w2 := by
  obtain ⟨t, rfl⟩ := hpre
  have a := h1 (List.replicate (p % 8) false) t none (by simp)
  have b := h2 (List.replicate (p % 8) false) [] none (by simp)
  simp only [List.append_assoc, List.append_nil] at a b
  rw [a] at b
  simp only [Res.ok.injEq, Codec.mk.injEq, List.length_append] at b
  refine ⟨b.1, ?_⟩
  have : t = [] := List.length_eq_zero_iff.mp (by omega)
  simp [this]

end Hampi
