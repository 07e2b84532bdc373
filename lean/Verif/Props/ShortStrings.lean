import Verif.Props.Strings
/-!
# C13, exactly: what becomes of a character string of one or two octets
-/
namespace Hampi

open Spec (SizeBounds)

/-- The octet with its last `n` bits moved to the front. -/
def rotated (n : Nat) (octet : UInt8) : UInt8 :=
  UInt8.ofNat (octet.toNat / 2 ^ n + octet.toNat % 2 ^ n * 2 ^ (8 - n))

theorem loadLE8_rotated {n : Nat} (h : n < 8) (o : UInt8) : loadLE8 n (byteBits o) = rotated n o := by
  have key : ∀ (n : Fin 8) (o : Fin 256),
      loadLE8 n.val (byteBits (UInt8.ofNat o.val)) = rotated n.val (UInt8.ofNat o.val) := by decide +kernel
  have := key ⟨n, h⟩ ⟨o.toNat, o.toNat_lt⟩
  simpa using this

/-- What the decoder makes of the octets of a string. -/
def readAs (octets : List UInt8) (after : Codec) : Res String :=
  match fromUtf8 octets with
  | some v => .ok v after
  | none => .err after

/-- **C13**, for strings of at most two octets: each octet is read rotated by the number of bits that the string
ends after an octet boundary; if that is not UTF-8 the decoder returns an error. -/
theorem C13_short_result (lb ub : Option Int) (hb : SizeBounds lb ub) (ext extended : Bool) (v : String) (s s' : Codec)
    (h : encodeString lb ub ext v extended s = .ok () s') (hs : (utf8 v).length ≤ 2) (suffix : List Bool)
    (key : Option Int) :
    decodeString lb ub ext ⟨s'.bits ++ suffix, s.bits.length, key⟩ =
      readAs ((utf8 v).map (rotated (s'.bits.length % 8))) ⟨s'.bits ++ suffix, s'.bits.length, key⟩ := by
  unfold encodeString at h
  cases extended with
  | true => cases h
  | false =>
    simp only [Bool.false_eq_true, if_false] at h
    obtain ⟨_, s1, h1, h⟩ := bind_ok h
    obtain ⟨w1, e1, -, hd1⟩ := RT.extBit ext s s1 h1
    obtain ⟨_, s2, h2, h⟩ := bind_ok h
    obtain ⟨w2, e2, -, hd2⟩ := RT.length hb false (utf8 v).length s1 s2 h2
    have hw3 := Writes.bind (g := fun _ => appendBits (bytesBits (utf8 v)))
      (.alignIf s2.bits.length (2 < (utf8 v).length)) (.append _ (bytesBits (utf8 v))) s2 rfl
    rw [h] at hw3
    have hn : decide (2 < (utf8 v).length) = false := by simp; omega
    rw [hn] at hw3
    simp only [Bool.false_eq_true, if_false, List.nil_append] at hw3
    cases hw3
    subst e1 e2
    dsimp only at *
    unfold decodeString
    have a1 := hd1 s.bits (w2 ++ bytesBits (utf8 v) ++ suffix) key rfl
    have a2 := hd2 (s.bits ++ w1) (bytesBits (utf8 v) ++ suffix) key rfl
    simp only [List.append_assoc] at a1 a2 ⊢
    rw [M.bind_apply, a1]
    dsimp only
    rw [M.bind_apply]
    simp only [List.length_append] at a2
    rw [show decodeStringLength false lb ub = decodeLength lb ub false from rfl, a2]
    dsimp only
    rw [M.bind_apply, show decide (16 < (utf8 v).length * 8) = false by simp; omega]
    show (getBitvecStored ((utf8 v).length * 8) >>= fun bits => decodeText bits) _ = _
    have hlen : (utf8 v).length * 8 = (bytesBits (utf8 v)).length := by rw [bytesBits_length]; omega
    rw [hlen, M.bind_apply]
    have a3 := Decodes.bitvecStored (s.bits.length + w1.length + w2.length) (bytesBits (utf8 v)) (s.bits ++ w1 ++ w2) suffix key
      (by simp [Nat.add_assoc])
    have hp : (s.bits ++ w1 ++ w2).length = s.bits.length + w1.length + w2.length := by
      simp [Nat.add_assoc]
    rw [hp] at a3
    simp only [List.append_assoc] at a3
    rw [a3]
    dsimp only
    unfold decodeText
    dsimp only
    rw [loadChunks_eq]
    have hm : (s.bits ++ (w1 ++ (w2 ++ bytesBits (utf8 v)))).length % 8 = (s.bits.length + w1.length + w2.length) % 8 := by
      simp only [List.length_append, bytesBits_length]; omega
    rw [hm]
    have hf : (fun b => loadLE8 ((s.bits.length + w1.length + w2.length) % 8) (byteBits b)) =
        rotated ((s.bits.length + w1.length + w2.length) % 8) :=
      funext fun b => loadLE8_rotated (Nat.mod_lt _ (by decide)) b
    rw [hf]
    unfold readAs
    have hq : s.bits.length + w1.length + w2.length + (bytesBits (utf8 v)).length =
        (s.bits ++ (w1 ++ (w2 ++ bytesBits (utf8 v)))).length := by
      simp only [List.length_append]; omega
    rw [hq]
    cases fromUtf8 _ <;> rfl

/-- **C13**, exactly, for strings of at most two octets: such a string comes back if and only if each of its
octets is the same when rotated by the number of bits that the string ends after an octet boundary. -/
theorem C13_short_iff (lb ub : Option Int) (hb : SizeBounds lb ub) (ext extended : Bool) (v : String) (s s' : Codec)
    (h : encodeString lb ub ext v extended s = .ok () s') (hs : (utf8 v).length ≤ 2) (suffix : List Bool)
    (key : Option Int) :
    (∃ t, decodeString lb ub ext ⟨s'.bits ++ suffix, s.bits.length, key⟩ = .ok v t) ↔
      ∀ o ∈ utf8 v, rotated (s'.bits.length % 8) o = o := by
  rw [C13_short_result lb ub hb ext extended v s s' h hs suffix key]
  have e : (∃ t, readAs ((utf8 v).map (rotated (s'.bits.length % 8))) ⟨s'.bits ++ suffix, s'.bits.length, key⟩ = .ok v t) ↔
      fromUtf8 ((utf8 v).map (rotated (s'.bits.length % 8))) = some v := by
    unfold readAs
    cases fromUtf8 _ with
    | none => exact ⟨fun ⟨t, h⟩ => (by cases h), fun h => by cases h⟩
    | some w => exact ⟨fun ⟨t, h⟩ => (by cases h; rfl), fun h => by cases h; exact ⟨_, rfl⟩⟩
  rw [e, fromUtf8_eq_some_iff]
  constructor
  · intro h o ho
    have h2 : (utf8 v).map (rotated (s'.bits.length % 8)) = (utf8 v).map id := by rw [List.map_id]; exact h.symm
    exact List.map_inj_left.1 h2 o ho
  · intro h
    have := List.map_congr_left (f := rotated (s'.bits.length % 8)) (g := id) h
    rw [this, List.map_id]

/-- After four bits "U" comes back and "A" does not. -/
example : rotated 4 0x55 = 0x55 ∧ rotated 4 0x41 = 0x14 := by decide
/-- Only the character U+0000 comes back from every position. -/
example : ∀ o : Fin 128, (∀ n : Fin 8, rotated n.val (UInt8.ofNat o.val) = UInt8.ofNat o.val) ↔ o.val = 0 := by
  decide +kernel

end Hampi
