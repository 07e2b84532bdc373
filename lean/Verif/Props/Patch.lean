import Verif.Props.Frame
import Verif.Lemmas.Derive
import Verif.Props.Derived
/-!
# C115: going back in a buffer and changing it in place
-/
namespace Hampi

/-- **C115, `set_bit`.** It panics beyond the end of the buffer; within it, the bit named gets the value, and nothing else changes:
no other bit, nor the length, the position or the key. -/
theorem C115_set_bit (i : Nat) (v : Bool) (s : Codec) :
    (s.bits.length ≤ i → setBit i v s = .panic) ∧
    (i < s.bits.length → ∃ s', setBit i v s = .ok () s' ∧ s'.bits[i]? = some v ∧
      (∀ j, j ≠ i → s'.bits[j]? = s.bits[j]?) ∧ s'.bits.length = s.bits.length ∧ s'.off = s.off ∧ s'.key = s.key) := by
  unfold setBit
  constructor
  · intro h
    rw [if_neg (by omega)]
  · intro h
    rw [if_pos h]
    refine ⟨_, rfl, ?_, ?_, ?_, rfl, rfl⟩
    · simp [h]
    · intro j hj
      exact List.getElem?_set_ne (fun e => hj e.symm)
    · simp

example : setBit 2 true ⟨[false, false, false, false], 1, some 7⟩ = .ok () ⟨[false, false, true, false], 1, some 7⟩ := rfl

/-- **C115, `swap_bits`.** It exchanges the given bits with those at the given position, bit for bit, and panics if they do not all lie in
the buffer. -/
theorem C115_swap_bits (before old after new : List Bool) (h : new.length = old.length) (off : Nat) (key : Option Int) :
    swapBits new before.length ⟨before ++ old ++ after, off, key⟩ = .ok old ⟨before ++ new ++ after, off, key⟩ := by
  unfold swapBits
  rw [if_neg (by simp; omega)]
  have e1 : ((before ++ old ++ after).drop before.length).take new.length = old := by simp [h]
  have e2 : (before ++ old ++ after).take before.length = before := by simp
  have e3 : (before ++ old ++ after).drop (before.length + new.length) = after := by simp [h, ← List.drop_drop]
  simp only [e1, e2, e3]

/-- **C115, `swap_bits`**, beyond the end. -/
theorem C115_swap_bits_panics (other : List Bool) (i : Nat) (s : Codec) :
    swapBits other i s = .panic ↔ s.bits.length < i + other.length := by
  unfold swapBits
  split
  · exact ⟨fun _ => by omega, fun _ => rfl⟩
  · exact ⟨fun h => (nomatch h), fun _ => absurd (a := s.bits.length < i + other.length) (by omega) (by omega)⟩

/-- **C115, `swap_bits`.** A second call with what the first returned restores the buffer. -/
theorem C115_swap_bits_twice (other got : List Bool) (i : Nat) (s s' : Codec) (h : swapBits other i s = .ok got s') :
    swapBits got i s' = .ok other s := by
  have hn : ¬ s.bits.length < i + other.length := fun hp => by
    rw [(C115_swap_bits_panics other i s).2 hp] at h; cases h
  obtain ⟨bits, off, key⟩ := s
  dsimp only at hn
  have hs : bits = bits.take i ++ (bits.drop i).take other.length ++ bits.drop (i + other.length) := by
    rw [List.append_assoc, ← List.drop_drop, List.take_append_drop, List.take_append_drop]
  have hi : (bits.take i).length = i := by simp; omega
  have hl : other.length = ((bits.drop i).take other.length).length := by simp; omega
  have h1 := C115_swap_bits (bits.take i) ((bits.drop i).take other.length) (bits.drop (i + other.length)) other hl off key
  have h2 := C115_swap_bits (bits.take i) other (bits.drop (i + other.length)) ((bits.drop i).take other.length) hl.symm off key
  rw [hi, ← hs] at h1
  rw [h] at h1
  cases h1
  rw [hi, ← hs] at h2
  exact h2

example : swapBits [true, true] 1 ⟨[false, false, false, false], 0, none⟩ =
    .ok [false, false] ⟨[false, true, true, false], 0, none⟩ := rfl

/-- **C115, `seek`.** A value that has been decoded can be decoded again: after going back to where it began, with the key
it was read with, the decoder returns the same value and stops at the same place. -/
theorem C115_seek_back (t : Ty) (s s' : Codec) (v : t.Val) (h : t.decode s = .ok v s') :
    (seek s.off >>= fun _ => t.decode) { s' with key := s.key } = .ok v s' := by
  have hb : s'.bits = s.bits := by
    have := t.decode_reader.frame s
    rw [h] at this
    exact this.1
  show t.decode ⟨s'.bits, s.off, s.key⟩ = _
  rw [hb]
  exact h

example : ∃ s', (Ty.integer .u8 (some 0) (some 255) false).decode (Codec.fromSlice [7, 9]) = .ok (7 : Int) s' ∧ s'.off = 8 :=
  ⟨_, rfl, rfl⟩

/-- **C115 is violated** by `reserve`, documented as reserving bits at the current position: it makes no room, and moves the
position to the number given. What is decoded next is what `seek` to that number would have found. -/
theorem C115_reserve_violated {α : Type} (n : Nat) (m : M α) (s : Codec) :
    (∃ s', reserve n s = .ok () s' ∧ s'.bits = s.bits ∧ s'.off = n) ∧
    (reserve n >>= fun _ => m) s = (seek n >>= fun _ => m) s := ⟨⟨_, rfl, rfl, rfl⟩, rfl⟩

/-- **C115 is violated** by `seek`: beyond the end of the buffer decoding panics instead of returning an error. -/
theorem C115_seek_beyond_violated (n : Nat) (s : Codec) (h : s.bits.length < n) :
    (seek n >>= fun _ => decodeBool) s = .panic := by
  show decodeBoolM { s with off := n } = _
  unfold decodeBoolM
  have e : s.bits[n]? = none := List.getElem?_eq_none (by omega)
  rw [if_neg (fun e => by dsimp only at e; omega)]
  dsimp only
  rw [e]

/-- **C115**, a field changed in place. A value of a derived type lies somewhere in a buffer; the bits of another value of the type,
as many, are swapped in. What is then read from there is the other value, and what lies before and after is as it was. -/
theorem C115_patched_field (t : Ty) (ht : t.Closed) (v : t.Val) (hv : t.Wf v) (before old after : List Bool)
    (u u' : Codec) (hu : u.bits.length % 8 = before.length % 8) (he : t.encode v u = .ok () u')
    (hl : u'.bits.length = u.bits.length + old.length) (off : Nat) (key : Option Int) (hk : t.KeysOk v key) :
    ∃ new s', u'.bits = u.bits ++ new ∧
      swapBits new before.length ⟨before ++ old ++ after, off, key⟩ = .ok old s' ∧
      s'.bits = before ++ new ++ after ∧
      (seek before.length >>= fun _ => t.decode) s' =
        .ok v ⟨before ++ new ++ after, before.length + new.length, t.keyAfter v key⟩ := by
  obtain ⟨w, rfl, hw⟩ := C36_round_trip_partial t ht v hv u u' he
  have hwl : w.length = old.length := by simpa using hl
  exact ⟨w, _, rfl, C115_swap_bits before old after w hwl off key, rfl, hw before after key hu.symm hk⟩

-- A number of five bits at position 3.
example : ∃ u', (Ty.integer .u8 (some 0) (some 30) false).encode (5 : Int) ⟨[true, true, true], 0, none⟩ = .ok () u' ∧
    u'.bits.length = 3 + 5 := ⟨_, rfl, rfl⟩

end Hampi
