import Verif.Props.Canonical
import Verif.Spec.Versions
/-!
# C108: messages of a newer version of the schema
-/
namespace Hampi

open Spec (additions)

/-- **C108 (partial).** Full statement: a message in which a peer with a newer version of the schema has
set the extension bit of a SEQUENCE and appended additions is read as the root components the peer
sent, and the position afterwards is the end of the message. Proved: the root components, for every
extensible SEQUENCE, every position and whatever follows. Missing, because false: the additions are
not skipped; the position is where they start. -/
theorem C108_root_partial (n : Nat) (fs : Fields) (v : fs.Val) (pre root : List Bool) (key : Option Int)
    (s' : Codec)
    (h : (Ty.sequence true n fs).decode ⟨pre ++ false :: root, pre.length, key⟩ = .ok v s')
    (adds : List (Option (List UInt8))) (p : Nat) (rest : List Bool) :
    (Ty.sequence true n fs).decode ⟨pre ++ true :: root ++ additions p adds ++ rest, pre.length, key⟩ =
      .ok v ⟨pre ++ true :: root ++ additions p adds ++ rest, s'.off, s'.key⟩ := by
  have h1 := C107_extension_bit_violated n fs v pre root key s' h
  have h2 := (Ty.sequence true n fs).decode_reader.local_ _ _ _ _ _ h1 (additions p adds ++ rest)
  rw [← List.append_assoc] at h2
  exact h2

/-- The additions begin with the bit 0 that announces a small number of them. -/
theorem additions_head (p : Nat) (adds : List (Option (List UInt8))) (h : adds.length ≤ 64) :
    ∃ w, additions p adds = false :: w := by
  unfold additions Spec.normallySmallLength
  rw [if_pos h]
  exact ⟨_, rfl⟩

/-- **C108 is violated**: a record of an extensible SEQUENCE and a BOOLEAN. A peer with a newer version
sends the root components `root`, up to 64 additions and then the BOOLEAN `b`. Whatever `b` is, it is
read as `false`: it is taken from the first bit of the additions. -/
theorem C108_next_component_violated (n : Nat) (fs : Fields) (v : fs.Val) (root : List Bool)
    (key key' : Option Int)
    (h : (Ty.sequence true n fs).decode ⟨false :: root, 0, key⟩ =
      .ok v ⟨false :: root, 1 + root.length, key'⟩)
    (adds : List (Option (List UInt8))) (ha : adds.length ≤ 64) (b : Bool) :
    let message := true :: root ++ additions (1 + root.length) adds ++ [b]
    (Ty.sequence false 0 (.required false (.sequence true n fs) (.required false .boolean .nil))).decode
      ⟨message, 0, key⟩ = .ok (v, false, ()) ⟨message, 1 + root.length + 1, key'⟩ := by
  intro message
  have h1 := C108_root_partial n fs v [] root key _ h adds (1 + root.length) [b]
  obtain ⟨w, hw⟩ := additions_head (1 + root.length) adds ha
  have hm : message = (true :: root) ++ [false] ++ (w ++ [b]) := by
    show true :: root ++ additions (1 + root.length) adds ++ [b] = _
    rw [hw]
    simp
  have h2 := Decodes.boolM (1 + root.length) false (true :: root) (w ++ [b]) key'
    (by simp [Nat.add_comm])
  rw [← hm] at h2
  have e : (true :: root).length = 1 + root.length := by simp [Nat.add_comm]
  rw [e] at h2
  change (Ty.sequence true n fs).decode ⟨message, 0, key⟩ = .ok v ⟨message, 1 + root.length, key'⟩ at h1
  show ((Ty.sequence true n fs).decode >>= fun x => setKeyFrom false _ x >>= fun _ =>
    (decodeBool >>= fun y => setKeyFrom false .boolean y >>= fun _ => (Pure.pure () : M Unit) >>= fun u =>
      Pure.pure (y, u)) >>= fun r => Pure.pure (x, r)) ⟨message, 0, key⟩ = _
  rw [M.bind_apply, h1]
  show ((decodeBool >>= fun y => setKeyFrom false .boolean y >>= fun _ => (Pure.pure () : M Unit) >>= fun u =>
      Pure.pure (y, u)) >>= fun r => Pure.pure (v, r)) ⟨message, 1 + root.length, key'⟩ = _
  have h3 : decodeBool ⟨message, 1 + root.length, key'⟩ = .ok false ⟨message, 1 + root.length + 1, key'⟩ := h2
  rw [M.bind_apply, M.bind_apply, h3]
  rfl

/-- The hypotheses are met: a SEQUENCE of a number between 0 and 7 and an addition of one octet, after
which the BOOLEAN `true` is sent. -/
example : (Ty.sequence true 0 (.required false (.integer .u8 (some 0) (some 7) false) .nil)).decode
    ⟨[false, true, false, true], 0, none⟩ =
      .ok ((show Int from 5), ()) ⟨[false, true, false, true], 1 + 3, none⟩ := rfl

example : additions 4 [some [0xAB]] =
    [false] ++ [false, false, false, false, false, false] ++ [true] ++ [false, false, false, false] ++
    [false, false, false, false, false, false, false, true] ++
    [true, false, true, false, true, false, true, true] := by decide

end Hampi
