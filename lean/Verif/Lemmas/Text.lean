import Verif.Lemmas.Items
/-!
# Character strings
-/
namespace Hampi
open Spec (SizeBounds)

theorem fromUtf8_eq_some_iff {bs : List UInt8} {str : String} :
    fromUtf8 bs = some str ↔ utf8 str = bs := by
  unfold fromUtf8 utf8 String.fromUTF8?
  constructor
  · intro h
    split at h
    · cases h; simp [String.fromUTF8]
    · cases h
  · intro h
    have hb : (⟨bs.toArray⟩ : ByteArray) = str.toByteArray := by
      cases str with
      | ofByteArray b hv =>
        simp at h
        subst h
        simp
    simp only [hb]
    have hv : str.toByteArray.IsValidUTF8 := str.isValidUTF8
    rw [dif_pos hv]
    rfl

theorem fromUtf8_utf8 (str : String) : fromUtf8 (utf8 str) = some str :=
  fromUtf8_eq_some_iff.mpr rfl

theorem loadLE8_zero {l : List Bool} (h : l.length = 8) :
    loadLE8 0 l = UInt8.ofNat (bitsToNat l) := by
  unfold loadLE8
  rw [Nat.sub_zero, List.drop_of_length_le (by omega), List.take_of_length_le (by omega),
    List.nil_append]

theorem loadChunks_eight_append {h : Nat} {l r : List Bool} (hl : l.length = 8) :
    loadChunks h (l ++ r) = loadLE8 h l :: loadChunks h r := by
  obtain ⟨a, b, c, d, e, f, g, i, rfl⟩ := exists_eight hl
  simp [loadChunks]

theorem byteBits_length' (b : UInt8) : (byteBits b).length = 8 := by simp [byteBits]

/-- At an octet boundary the octets come back as they are. -/
theorem loadChunks_zero (bs : List UInt8) : loadChunks 0 (bytesBits bs) = bs := by
  induction bs with
  | nil => simp [bytesBits, loadChunks]
  | cons b bs ih =>
    rw [bytesBits_cons, loadChunks_eight_append (byteBits_length' b), ih,
      loadLE8_zero (byteBits_length' b), ofNat_bitsToNat_byteBits]

/-- Elsewhere each octet is rotated. -/
theorem loadChunks_eq (h : Nat) (bs : List UInt8) :
    loadChunks h (bytesBits bs) = bs.map fun b => loadLE8 h (byteBits b) := by
  induction bs with
  | nil => simp [bytesBits, loadChunks]
  | cons b bs ih =>
    rw [bytesBits_cons, loadChunks_eight_append (byteBits_length' b), ih, List.map_cons]

theorem Decodes.bitvecStored (p : Nat) (w : List Bool) :
    Decodes (getBitvecStored w.length) p w (p % 8, w) := by
  intro pre suf k hp
  rw [getBitvecStored_apply, Decodes.takeBits p w pre suf k hp]
  simp only [hp]

/-- The tail of the string codec, at a known position. -/
theorem Decodes.text {p : Nat} {str : String} (h : 2 < (utf8 str).length ∨ p % 8 = 0 ∨ utf8 str = []) :
    Decodes (do
      decodeAlignIf (16 < (utf8 str).length * 8)
      let bits ← getBitvecStored ((utf8 str).length * 8)
      decodeText bits) p
      ((if decide (2 < (utf8 str).length) then pad p else []) ++ bytesBits (utf8 str)) str := by
  have hc : decide (16 < (utf8 str).length * 8) = decide (2 < (utf8 str).length) := by
    congr 1; apply propext; omega
  rw [hc]
  refine .bind (.alignIf p _) ?_
  have hlen : (utf8 str).length * 8 = (bytesBits (utf8 str)).length := by
    rw [bytesBits_length]; omega
  have hq : utf8 str = [] ∨
      (p + (if decide (2 < (utf8 str).length) then pad p else []).length) % 8 = 0 := by
    rcases h with h | h | h
    · right; simp only [h, decide_true, if_true, pad_length]; exact padLen_add p
    · right
      have : padLen p = 0 := by unfold padLen; omega
      split <;> simp [pad, this, h]
    · left; exact h
  revert hq
  generalize p + (if decide (2 < (utf8 str).length) = true then pad p else []).length = q
  intro hq
  rw [hlen]
  have h1 := Decodes.bitvecStored q (bytesBits (utf8 str))
  have h2 : loadChunks (q % 8) (bytesBits (utf8 str)) = utf8 str := by
    rcases hq with hq | hq
    · rw [hq]; simp [bytesBits, loadChunks]
    · rw [hq]; exact loadChunks_zero _
  have := Decodes.bind (g := decodeText) (w2 := []) (b := str) h1 (by
        unfold decodeText
        dsimp only
        rw [h2, fromUtf8_utf8]
        exact .pure _ _)
  simpa using this

/-- Round trip of the string encoder, provided a short string ends at an octet boundary. -/
theorem string_rt {lb ub : Option Int} (hb : SizeBounds lb ub) {str : String} {e x : Bool}
    {s s' : Codec} (h : encodeString lb ub e str x s = .ok () s')
    (hal : 2 < (utf8 str).length ∨ s'.bits.length % 8 = 0 ∨ utf8 str = []) :
    ∃ w, s' = { s with bits := s.bits ++ w } ∧ Writes (encodeString lb ub e str x) s.bits.length w ∧
      Decodes (decodeString lb ub e) s.bits.length w str := by
  unfold encodeString decodeString at *
  cases x with
  | true => cases h
  | false =>
    simp only [Bool.false_eq_true, if_false] at h ⊢
    rw [M.bind_apply] at h
    cases h1 : encodeExtBit e false s with
    | ok u s1 =>
      rw [h1] at h
      obtain ⟨w1, e1, hw1, hd1⟩ := RT.extBit e s s1 h1
      dsimp only at h
      rw [M.bind_apply] at h
      cases h2 : encodeLength lb ub false (utf8 str).length s1 with
      | ok u s2 =>
        rw [h2] at h
        obtain ⟨w2, e2, hw2, hd2⟩ := RT.length hb false (utf8 str).length s1 s2 h2
        dsimp only at h
        have hw3 := Writes.bind (g := fun _ => appendBits (bytesBits (utf8 str)))
          (.alignIf s2.bits.length (2 < (utf8 str).length))
          (.append _ (bytesBits (utf8 str)))
        have h3 := hw3 s2 rfl
        rw [h] at h3
        have hal2 : 2 < (utf8 str).length ∨ s2.bits.length % 8 = 0 ∨ utf8 str = [] := by
          rcases hal with hal | hal | hal
          · exact .inl hal
          · by_cases hs : 2 < (utf8 str).length
            · exact .inl hs
            · right; left
              cases h3
              simp only [List.length_append, bytesBits_length, hs, decide_false,
                Bool.false_eq_true, if_false, List.length_nil] at hal
              omega
          · exact .inr (.inr hal)
        have hd3 := Decodes.text hal2
        subst e1 e2
        cases h3
        simp only [List.length_append] at hw2 hd2 hw3 hd3
        refine ⟨w1 ++ (w2 ++ _), by simp; rfl, .bind hw1 (.bind hw2 ?_), .bind hd1 (.bind hd2 ?_)⟩
        · simpa [Nat.add_assoc] using hw3
        · simpa [Nat.add_assoc] using hd3
      | err _ => rw [h2] at h; cases h
      | panic => rw [h2] at h; cases h
    | err _ => rw [h1] at h; cases h
    | panic => rw [h1] at h; cases h

end Hampi
