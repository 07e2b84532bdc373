import Verif.Spec.Ops
import Verif.Lemmas.Strings
/-!
# C20-C23, C33: what calls leave alone
-/
namespace Hampi

variable {α : Type}

theorem Kind.encode_writer (k : Kind) (v : k.In) (x : Bool) : IsWriter (k.encode v x) := by
  cases k with
  | integer => exact .integer ..
  | enumerated => exact .enumerated ..
  | choiceIdx => exact .choiceIdx ..
  | sequenceHeader => exact .sequenceHeader ..
  | bool => exact .bool ..
  | bitstring => exact .bitstring ..
  | octetstring => exact .octetstring ..
  | visibleString => exact .string ..
  | printableString => exact .string ..
  | utf8String => exact .string ..
  | length => exact .length ..

theorem Kind.decode_isDec (k : Kind) : IsDec k.decode := by
  cases k with
  | integer => exact .integer ..
  | enumerated => exact .enumerated ..
  | choiceIdx => exact .choiceIdx ..
  | sequenceHeader => exact .sequenceHeader ..
  | bool => exact .bool ..
  | bitstring => exact .bitstring ..
  | octetstring => exact .octetstring ..
  | visibleString => exact .string ..
  | printableString => exact .string ..
  | utf8String => exact .string ..
  | length => exact .length ..

theorem DecOp.isDec (o : DecOp) : IsDec o.run := by
  cases o with
  | item k => exact k.decode_isDec
  | align => exact .align
  | bit => exact .boolM
  | bitvec n => exact .bitvec n
  | bytes n => exact .bytes n
  | bits n sg => exact .bitsAsInteger n sg

theorem Option.bind_some_iff {a : Option α} {f : α → Option β} {b : β} :
    a.bind f = some b ↔ ∃ x, a = some x ∧ f x = some b := by
  cases a <;> simp

/-- **C20.** Whatever a public encode function returns, it has only appended bits. -/
theorem C20_encode_only_appends (o : EncOp) (s s' : Codec)
    (h : (o.kind.encode o.value o.extended s).left = some s') :
    s.bits <+: s'.bits ∧ s'.off = s.off ∧ s'.key = s.key := by
  have hf := (o.kind.encode_writer o.value o.extended).frame s
  cases hr : o.kind.encode o.value o.extended s with
  | ok a t =>
    rw [hr] at h; cases h
    obtain ⟨w, h1, h2, h3⟩ := hf.1 a _ hr
    exact ⟨⟨w, h1.symm⟩, h2, h3⟩
  | err t =>
    rw [hr] at h; cases h
    obtain ⟨w, h1, h2, h3⟩ := hf.2 _ hr
    exact ⟨⟨w, h1.symm⟩, h2, h3⟩
  | panic => rw [hr] at h; cases h

example : ((Kind.integer (some 0) (some 3) true).encode (7 : Int) false ⟨[true], 0, none⟩).left =
    some ⟨[true, false], 0, none⟩ := by decide

/-- **C20.** The same over any history of encode calls, including failing ones. -/
theorem C20_encode_history_only_appends (os : List EncOp) (s s' : Codec)
    (h : runOps (os.map .enc) s = some s') :
    s.bits <+: s'.bits ∧ s'.off = s.off ∧ s'.key = s.key := by
  induction os generalizing s with
  | nil => cases h; exact ⟨List.prefix_refl _, rfl, rfl⟩
  | cons o os ih =>
    obtain ⟨t, h1, h2⟩ := Option.bind_some_iff.mp h
    obtain ⟨a1, a2, a3⟩ := C20_encode_only_appends o s t h1
    obtain ⟨b1, b2, b3⟩ := ih t h2
    exact ⟨a1.trans b1, b2.trans a2, b3.trans a3⟩

/-- A history in which the second call fails: the third one still appends after the debris. -/
example : runOps ([⟨.bool, true, false⟩, ⟨.integer (some 0) (some 3) true, (7 : Int), false⟩,
    ⟨.bool, true, false⟩].map Op.enc) Codec.new = some ⟨[true, false, true], 0, none⟩ := by decide

/-- **C21.** Whatever a decode function returns, the buffer contents and key are unchanged, and the
position neither decreases nor leaves the buffer. -/
theorem C21_decode_frame (o : DecOp) (s s' : Codec) (h : (o.run s).left = some s') :
    s'.bits = s.bits ∧ s.off ≤ s'.off ∧ (s.off ≤ s.bits.length → s'.off ≤ s'.bits.length) ∧
      s'.key = s.key := by
  have hf := o.isDec.reader.frame s
  have hk := o.isDec.key s
  cases hr : o.run s with
  | ok a t =>
    rw [hr] at h hf hk; cases h
    obtain ⟨h1, h2, h3⟩ := hf
    exact ⟨h1, h2, by rw [h1]; exact h3, hk⟩
  | err t =>
    rw [hr] at h hf hk; cases h
    obtain ⟨h1, h2, h3⟩ := hf
    exact ⟨h1, h2, by rw [h1]; exact h3, hk⟩
  | panic => rw [hr] at h; cases h

example : ((DecOp.item (.integer (some 0) (some 7) false)).run ⟨[true, false, true, true], 1, none⟩).left =
    some ⟨[true, false, true, true], 4, none⟩ := by decide

/-- **C21.** The same over any history of decode calls, including failing ones. -/
theorem C21_decode_history_frame (os : List DecOp) (s s' : Codec)
    (h : runOps (os.map .dec) s = some s') :
    s'.bits = s.bits ∧ s.off ≤ s'.off ∧ (s.off ≤ s.bits.length → s'.off ≤ s'.bits.length) ∧
      s'.key = s.key := by
  induction os generalizing s with
  | nil => cases h; exact ⟨rfl, Nat.le_refl _, id, rfl⟩
  | cons o os ih =>
    obtain ⟨t, h1, h2⟩ := Option.bind_some_iff.mp h
    obtain ⟨a1, a2, a3, a4⟩ := C21_decode_frame o s t h1
    obtain ⟨b1, b2, b3, b4⟩ := ih t h2
    exact ⟨b1.trans a1, Nat.le_trans a2 b2, fun h => b3 (a3 h), b4.trans a4⟩

example : runOps ([.item (.integer (some 0) (some 7) false), .bits 9 false, .bit].map Op.dec)
    ⟨[true, false, true, true, false], 0, none⟩ =
    some ⟨[true, false, true, true, false], 4, none⟩ := by decide

/-- **C22.** A successful decode is unaffected by bits appended to the buffer. -/
theorem C22_suffix_independent (o : DecOp) (bits suffix : List Bool) (off : Nat) (key : Option Int)
    (v : o.Out) (s' : Codec) (h : o.run ⟨bits, off, key⟩ = .ok v s') :
    o.run ⟨bits ++ suffix, off, key⟩ = .ok v ⟨bits ++ suffix, s'.off, key⟩ := by
  have h1 := o.isDec.reader.local_ _ _ _ _ _ h suffix
  have h2 := o.isDec.key ⟨bits, off, key⟩
  rw [h] at h2
  rw [h1]
  have : s'.key = key := h2
  rw [this]

example : (DecOp.item (.octetstring none none false)).run ⟨bytesBits [2, 7, 9], 0, none⟩ =
    .ok ([7, 9] : List UInt8) ⟨bytesBits [2, 7, 9], 24, none⟩ := by rfl

/-- **C22.** Any decode outcome depends only on the bits from the starting position on and on the
starting position modulo 8: the bits before may be replaced. -/
theorem C22_prefix_independent (o : DecOp) (pre pre' rest : List Bool) (key : Option Int)
    (hp : pre.length % 8 = pre'.length % 8) (v : o.Out) (s' : Codec)
    (h : o.run ⟨pre ++ rest, pre.length, key⟩ = .ok v s') :
    o.run ⟨pre' ++ rest, pre'.length, key⟩ =
      .ok v ⟨pre' ++ rest, pre'.length + (s'.off - pre.length), key⟩ := by
  have h1 := o.isDec.reader.shift pre pre' rest 0 key hp
  have h2 := o.isDec.key ⟨pre ++ rest, pre.length, key⟩
  simp only [Nat.add_zero] at h1
  rw [h] at h1 h2
  rw [h1]
  have : s'.key = key := h2
  simp only [Res.shift, this]
  rw [Nat.add_comm]

example : (DecOp.item (.octetstring none none false)).run ⟨bytesBits [5] ++ bytesBits [2, 7, 9], (bytesBits [5]).length, none⟩ =
    .ok ([7, 9] : List UInt8) ⟨bytesBits [5] ++ bytesBits [2, 7, 9], 32, none⟩ := by rfl

/-- **C23.** If decoding consumes bits up to a position, decoding the input cut before that position
does not succeed. -/
theorem C23_truncated_rejected (o : DecOp) (bits : List Bool) (off : Nat) (key : Option Int)
    (v : o.Out) (s' : Codec) (h : o.run ⟨bits, off, key⟩ = .ok v s') (cut : Nat)
    (hpos : off ≤ bits.length)
    (hc : cut < s'.off) (hoff : off ≤ cut) (w : o.Out) (t : Codec) :
    o.run ⟨bits.take cut, off, key⟩ ≠ .ok w t := by
  intro ht
  have h1 := o.isDec.reader.local_ _ _ _ _ _ ht (bits.drop cut)
  rw [List.take_append_drop, h] at h1
  have hf := o.isDec.reader.frame ⟨bits.take cut, off, key⟩
  rw [ht] at hf
  have hf0 := o.isDec.reader.frame ⟨bits, off, key⟩
  rw [h] at hf0
  obtain ⟨-, -, h3⟩ := hf
  obtain ⟨-, -, h4⟩ := hf0
  cases h1
  dsimp only at h3 h4 hc
  have := h3 (by simp; omega)
  have := h4 hpos
  simp at *
  omega

example : (DecOp.item (.octetstring none none false)).run (Codec.fromSlice [2, 7, 9]) =
    .ok [7, 9] ⟨bytesBits [2, 7, 9], 24, none⟩ := by
  show decodeOctetstring none none false (Codec.fromSlice [2, 7, 9]) =
    (.ok [7, 9] ⟨bytesBits [2, 7, 9], 24, none⟩ : Res (List UInt8))
  decide

/-- **C33.** No encode or decode call changes the key, and `get_key` returns what the last `set_key`
of the history gave (or the key at the start). -/
def lastKey : List Op → Option Int → Option Int
  | [], k => k
  | .setKey k :: os, _ => lastKey os (some k)
  | _ :: os, k => lastKey os k

/-- **C33.** -/
theorem C33_key_is_last_set (os : List Op) (s s' : Codec) (h : runOps os s = some s') :
    s'.getKey = lastKey os s.getKey := by
  induction os generalizing s with
  | nil => cases h; rfl
  | cons o os ih =>
    obtain ⟨t, h1, h2⟩ := Option.bind_some_iff.mp h
    rw [ih t h2]
    cases o with
    | enc o => exact congrArg _ (C20_encode_only_appends o s t h1).2.2
    | dec o => exact congrArg _ (C21_decode_frame o s t h1).2.2.2
    | setKey k => cases h1; rfl

example : lastKey [.setKey 3, .dec .bit, .setKey 5, .enc ⟨.bool, true, false⟩] none = some 5 := rfl

end Hampi
