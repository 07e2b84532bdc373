import Verif.Props.Wire
import Verif.Props.Lengths
/-!
# C43: the length of an open type plays no part
-/
namespace Hampi

open Spec (generalLength)

/-- Reading an open type whose length word is read: what follows the word is the alternative. -/
theorem openType_after (as : Alts) (pre rest : List Bool) (n : Nat) (hn : n < 16384) (k : Int) :
    (Ty.openType as).decode ⟨pre ++ generalLength pre.length n ++ rest, pre.length, some k⟩ =
      as.decode k ⟨pre ++ generalLength pre.length n ++ rest,
        (pre ++ generalLength pre.length n).length, some k⟩ := by
  have hd := decodeIndefinite_decodes hn pre.length pre rest (some k) rfl
  rw [indefWord_eq] at hd
  show (decodeIndefiniteLength >>= fun _ => requireKey >>= fun k => as.decode k) _ = _
  rw [M.bind_apply, hd]
  simp only [List.length_append]
  rfl

/-- **C43 is violated**, for every open type, at every position: whatever length is announced, the
outcome is the same, and the content ends at the same place. -/
theorem C43_every_length_violated (as : Alts) (pre rest : List Bool) (n m : Nat) (hn : n < 16384)
    (hm : m < 16384) (key : Option Int) (v : as.Val) (used : Nat) (key' : Option Int) :
    (Ty.openType as).decode ⟨pre ++ generalLength pre.length n ++ rest, pre.length, key⟩ =
        .ok v ⟨pre ++ generalLength pre.length n ++ rest,
          pre.length + (generalLength pre.length n).length + used, key'⟩ ↔
      (Ty.openType as).decode ⟨pre ++ generalLength pre.length m ++ rest, pre.length, key⟩ =
        .ok v ⟨pre ++ generalLength pre.length m ++ rest,
          pre.length + (generalLength pre.length m).length + used, key'⟩ := by
  have hlen : ∀ j, (generalLength pre.length j).length % 8 = (indefWord pre.length 0).length % 8 := by
    intro j
    rw [← indefWord_eq]
    unfold indefWord
    by_cases hj : j < 128
    · simp [hj]
    · simp [hj]; omega
  have key : ∀ n m, n < 16384 → m < 16384 →
      (Ty.openType as).decode ⟨pre ++ generalLength pre.length n ++ rest, pre.length, key⟩ =
        .ok v ⟨pre ++ generalLength pre.length n ++ rest,
          pre.length + (generalLength pre.length n).length + used, key'⟩ →
      (Ty.openType as).decode ⟨pre ++ generalLength pre.length m ++ rest, pre.length, key⟩ =
        .ok v ⟨pre ++ generalLength pre.length m ++ rest,
          pre.length + (generalLength pre.length m).length + used, key'⟩ := by
    intro n m hn hm h
    cases key with
    | none =>
      have hd := decodeIndefinite_decodes hn pre.length pre rest none rfl
      rw [indefWord_eq] at hd
      have h : (decodeIndefiniteLength >>= fun _ => requireKey >>= fun k => as.decode k) _ = _ := h
      rw [M.bind_apply, hd] at h
      cases h
    | some k =>
      rw [openType_after as pre rest n hn k] at h
      rw [openType_after as pre rest m hm k]
      have := (as.decode_reader k).shift (pre ++ generalLength pre.length n)
        (pre ++ generalLength pre.length m) rest 0 (some k)
        (by simp only [List.length_append]; have := hlen n; have := hlen m; omega)
      simp only [Nat.add_zero] at this
      rw [this, h]
      simp only [Res.shift, List.length_append]
      congr 2
      omega
  exact ⟨key n m hn hm, key m n hm hn⟩

/-- Five hundred octets are announced for one bit of content; the same value is read. -/
example : (Ty.openType (.cons 1 false .boolean .nil)).decode
    ⟨[true] ++ generalLength 1 500 ++ [true], 1, some 1⟩ =
    .ok (show Bool ⊕ Empty from .inl true) ⟨[true] ++ generalLength 1 500 ++ [true],
      1 + (generalLength 1 500).length + 1, some 1⟩ :=
  (C43_every_length_violated (.cons 1 false .boolean .nil) [true] [true] 1 500 (by omega) (by omega)
    (some 1) (show Bool ⊕ Empty from .inl true) 1 (some 1)).1 rfl

end Hampi
