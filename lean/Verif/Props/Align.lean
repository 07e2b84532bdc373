import Verif.Props.Layout
import Verif.Props.Lengths
import Verif.Props.Strings
import Verif.Spec.Ops
/-!
# C28-C31: alignment, failed encodes, extension additions
-/
namespace Hampi

open Spec

/-! ## C28 -/

/-- **C28.** Encoder alignment appends the least number of zero bits reaching an octet boundary. -/
theorem C28_encoder_alignment (s : Codec) :
    ∃ n, n < 8 ∧ (s.bits.length + n) % 8 = 0 ∧
      align s = .ok () { s with bits := s.bits ++ List.replicate n false } := by
  refine ⟨padLen s.bits.length, ?_, ?_, IsWriter.align_eq s⟩ <;> unfold padLen <;> omega

example : align ⟨[true, true, true], 0, none⟩ = .ok () ⟨[true, true, true, false, false, false, false, false], 0, none⟩ := by
  decide

/-- **C28.** Decoder alignment succeeds exactly when the bits up to the next octet boundary are there
and all zero, and then stands on that boundary. -/
theorem C28_decoder_alignment (s s' : Codec) (n : Nat) (hn : n < 8) (hb : (s.off + n) % 8 = 0) :
    decodeAlign s = .ok () s' ↔
      (s' = { s with off := s.off + n } ∧
        ∀ i, i < n → s.bits[s.off + i]? = some false) := by
  unfold decodeAlign
  by_cases h0 : s.off % 8 = 0
  · have : n = 0 := by omega
    subst this
    simp only [if_pos h0, Nat.add_zero, Res.ok.injEq, true_and]
    constructor
    · rintro rfl; exact ⟨rfl, by omega⟩
    · rintro ⟨rfl, -⟩; rfl
  · have hn' : 8 - s.off % 8 = n := by omega
    simp only [if_neg h0, hn']
    have key : (∀ i, i < n → s.bits[s.off + i]? = some false) ↔
        (s.off + n ≤ s.bits.length ∧
          ((s.bits.drop s.off).take n).all (fun b => !b) = true) := by
      constructor
      · intro h
        have hl : s.off + n ≤ s.bits.length := by
          have := h (n - 1) (by omega)
          obtain ⟨h1, -⟩ := List.getElem?_eq_some_iff.mp this
          omega
        refine ⟨hl, ?_⟩
        rw [List.all_eq_true]
        intro b hb
        obtain ⟨i, hi, rfl⟩ := List.mem_iff_getElem.mp hb
        simp only [List.length_take, List.length_drop] at hi
        have := h i (by omega)
        obtain ⟨_, h2⟩ := List.getElem?_eq_some_iff.mp this
        simp [h2]
      · rintro ⟨hl, h⟩ i hi
        rw [List.all_eq_true] at h
        have h1 : s.off + i < s.bits.length := by omega
        have h2 := h (s.bits[s.off + i]) (by
          rw [List.mem_iff_getElem]
          exact ⟨i, by simp; omega, by simp⟩)
        rw [List.getElem?_eq_getElem h1]
        simpa using h2
    rw [key]
    by_cases h1 : s.bits.length < s.off + n
    · rw [if_pos h1]
      constructor
      · intro h; cases h
      · rintro ⟨-, h, -⟩; omega
    · rw [if_neg h1]
      split
      · rename_i h2
        simp only [Res.ok.injEq, true_and]
        constructor
        · rintro rfl; exact ⟨rfl, by omega, h2⟩
        · rintro ⟨rfl, -, -⟩; rfl
      · rename_i h2
        constructor
        · intro h; cases h
        · rintro ⟨-, -, h⟩; exact absurd h h2

example : (7 : Nat) < 8 ∧ ((1 : Nat) + 7) % 8 = 0 := by decide

/-- **C28.** Padding with a bit set is rejected without moving. -/
theorem C28_nonzero_padding_rejected (s : Codec) (n : Nat) (hn : n < 8) (hb : (s.off + n) % 8 = 0)
    (hl : s.off + n ≤ s.bits.length) (i : Nat) (hi : i < n) (h : s.bits[s.off + i]? = some true) :
    decodeAlign s = .err s := by
  cases hr : decodeAlign s with
  | ok u t =>
    have := ((C28_decoder_alignment s t n hn hb).mp hr).2 i hi
    rw [h] at this
    cases this
  | err t =>
    unfold decodeAlign at hr
    split at hr
    · cases hr
    · dsimp only at hr
      split at hr
      · cases hr
      · split at hr <;> cases hr; rfl
  | panic =>
    unfold decodeAlign at hr
    split at hr
    · cases hr
    · dsimp only at hr
      split at hr
      · omega
      · split at hr <;> cases hr

example : decodeAlign ⟨[true, false, false, false, false, false, false, false, true], 1, none⟩ =
    .ok () ⟨[true, false, false, false, false, false, false, false, true], 8, none⟩ := by decide
example : decodeAlign ⟨[true, false, false, false, false, false, true, false, true], 1, none⟩ =
    .err ⟨[true, false, false, false, false, false, true, false, true], 1, none⟩ := by decide

/-! ## C29 -/

/-- The call, if it returns `Err`, leaves the buffer as it was. -/
def Atomic {α : Type} (m : M α) : Prop := ∀ s s', m s = .err s' → s' = s

theorem Atomic.pure {α : Type} (a : α) : Atomic (pure a : M α) := by intro s s' h; cases h
theorem Atomic.fail {α : Type} : Atomic (M.fail : M α) := by intro s s' h; cases h; rfl
theorem Atomic.panic {α : Type} : Atomic (M.panic : M α) := by intro s s' h; cases h
theorem Atomic.ite {α : Type} {c : Prop} [Decidable c] {a b : M α} (ha : Atomic a) (hb : Atomic b) :
    Atomic (if c then a else b) := by split <;> assumption

/-- A call that never returns `Err`. -/
def NoErr {α : Type} (m : M α) : Prop := ∀ s s', m s ≠ .err s'

theorem NoErr.atomic {α : Type} {m : M α} (h : NoErr m) : Atomic m := fun s s' e => absurd e (h s s')
theorem NoErr.pure {α : Type} (a : α) : NoErr (pure a : M α) := by intro s s' h; cases h
theorem NoErr.panic {α : Type} : NoErr (M.panic : M α) := by intro s s' h; cases h
theorem NoErr.append (w : List Bool) : NoErr (appendBits w) := by intro s s' h; cases h
theorem NoErr.push (w : Bool) : NoErr (pushBit w) := by intro s s' h; cases h
theorem NoErr.align : NoErr align := by intro s s' h; rw [IsWriter.align_eq] at h; cases h
theorem NoErr.ite {α : Type} {c : Prop} [Decidable c] {a b : M α} (ha : NoErr a) (hb : NoErr b) :
    NoErr (if c then a else b) := by split <;> assumption
theorem NoErr.alignIf (c : Bool) : NoErr (alignIf c) := .ite .align (.pure _)
theorem NoErr.chk (v : Int) : NoErr (chkI128 v) := .ite (.pure _) .panic
theorem NoErr.bind {α β : Type} {m : M α} {g : α → M β} (h : NoErr m) (hg : ∀ a, NoErr (g a)) :
    NoErr (m >>= g) := by
  intro s s' e
  rw [M.bind_apply] at e
  cases hr : m s with
  | ok a t => rw [hr] at e; exact hg a t s' e
  | err t => exact h s t hr
  | panic => rw [hr] at e; cases e

theorem Atomic.bind_noErr {α β : Type} {m : M α} {g : α → M β} (h : Atomic m)
    (hg : ∀ a, NoErr (g a)) : Atomic (m >>= g) := by
  intro s s' e
  rw [M.bind_apply] at e
  cases hr : m s with
  | ok a t => rw [hr] at e; exact absurd e (hg a t s')
  | err t => rw [hr] at e; cases e; exact h s _ hr
  | panic => rw [hr] at e; cases e

/-- A call that changes nothing, followed by an atomic one. -/
theorem Atomic.chk_bind {β : Type} {v : Int} {g : Int → M β} (hg : ∀ a, Atomic (g a)) :
    Atomic (chkI128 v >>= g) := by
  by_cases h : IsI128 v
  · rw [chkI128_bind h]; exact hg v
  · rw [chkI128_bind_panic h]; exact .panic

theorem Atomic.constrainedWith {large : Int → Int → M Unit} (h : ∀ a b, Atomic (large a b))
    (lb ub v : Int) : Atomic (encodeConstrainedWith large lb ub v) := by
  unfold encodeConstrainedWith
  refine .ite .fail (.ite .fail (.chk_bind fun d => .chk_bind fun r => .chk_bind fun x =>
    .ite (.ite ?_ ?_) (.ite ?_ (h _ _))))
  · exact (NoErr.bind .align fun _ => .append _).atomic
  · split
    · exact (NoErr.append _).atomic
    · exact .panic
  · exact (NoErr.bind .align fun _ => .append _).atomic

theorem Atomic.constrained (lb ub v : Int) : Atomic (encodeConstrained lb ub v) :=
  .constrainedWith (fun _ _ => .bind_noErr (.constrainedWith (fun _ _ => .panic) _ _ _)
    fun _ => .bind .align fun _ => .append _) lb ub v

theorem NoErr.unconstrained {v : Int} (hv : IsI128 v) : NoErr (encodeUnconstrained v) := by
  rw [encodeUnconstrained_eq hv]
  obtain ⟨h1, h2, -⟩ := unconstrainedBytes_spec hv
  refine .bind ?_ fun _ => .append _
  intro s s' h
  rw [encodeIndefinite_writes (n := unconstrainedBytes v) (by omega) s.bits.length s rfl] at h
  cases h

theorem Atomic.semiConstrained (lb v : Int) : Atomic (encodeSemiConstrained lb v) := by
  unfold encodeSemiConstrained
  refine .ite .fail ?_
  by_cases h : IsI128 (v - lb)
  · rw [chkI128_bind h]; exact (NoErr.unconstrained h).atomic
  · rw [chkI128_bind_panic h]; exact .panic

theorem Atomic.integer (lb ub : Option Int) (v : Int) (hv : IsI128 v) (x : Bool) :
    Atomic (encodeInteger lb ub false v x) := by
  unfold encodeInteger
  refine .ite .fail ?_
  show Atomic (match lb, ub with
    | none, _ => encodeUnconstrained v
    | some l, none => encodeSemiConstrained l v
    | some l, some u => encodeConstrained l u v)
  split
  · exact (NoErr.unconstrained hv).atomic
  · exact .semiConstrained _ _
  · exact .constrained _ _ _

theorem Atomic.length {lb ub : Option Int} (hb : SizeBounds lb ub) {n : Nat} (hn : n < 16384) :
    Atomic (encodeLength lb ub false n) := by
  intro s s' h
  by_cases hc : ∃ u, ub = some u ∧ u < 65536
  · obtain ⟨u, rfl, hu⟩ := hc
    obtain ⟨h1, h2⟩ := encodeLength_constrained hb n hu s.bits.length
    by_cases hw : Within lb (some u) n
    · rw [h1 hw s rfl] at h; cases h
    · rw [h2 hw s rfl] at h; cases h; simp
  · have hu : ∀ u, ub = some u → 65536 ≤ u := by
      intro u e
      apply Decidable.byContradiction
      intro h'
      exact hc ⟨u, e, by omega⟩
    obtain ⟨h1, h2, -⟩ := encodeLength_general hb n hu s.bits.length
    by_cases hw : Within lb ub n
    · rw [h1 ⟨hw, hn⟩ s rfl] at h; cases h
    · rw [h2 hw s rfl] at h; cases h; simp

/-- The encode calls that leave nothing behind when they fail: no extension bit, and lengths below
16K. -/
def Kind.FailsCleanly : (k : Kind) → k.In → Prop
  | .integer _ _ e, v => e = false ∧ IsI128 v
  | .enumerated _ _ e, v => e = false ∧ IsI128 v
  | .choiceIdx _ _ e, v => e = false ∧ IsI128 v
  | .sequenceHeader .., _ => True
  | .bool, _ => True
  | .bitstring lb ub e, _ => e = false ∧ SizeBounds lb ub
  | .octetstring lb ub e, _ => e = false ∧ SizeBounds lb ub
  | .visibleString lb ub e, v | .printableString lb ub e, v | .utf8String lb ub e, v =>
      e = false ∧ SizeBounds lb ub ∧ (utf8 v).length < 16384
  | .length lb ub ns, n => (ns = false → SizeBounds lb ub) ∧ LT.lt (α := Nat) n 16384

theorem Atomic.string {lb ub : Option Int} {v : String} (hb : SizeBounds lb ub)
    (hl : (utf8 v).length < 16384) (x : Bool) : Atomic (encodeString lb ub false v x) := by
  unfold encodeString
  refine .ite .fail ?_
  exact Atomic.bind_noErr (m := encodeLength lb ub false (utf8 v).length) (Atomic.length hb hl)
    fun _ => .bind (.alignIf _) fun _ => .append _

theorem Atomic.normallySmall {n : Nat} (h : n < 16384) : Atomic (encodeNormallySmallLength n) := by
  unfold encodeNormallySmallLength
  refine .ite (.ite .panic (NoErr.bind (.push _) fun _ => .append _).atomic)
    (NoErr.bind (.push _) fun _ => ?_).atomic
  intro t t' ht
  rw [encodeIndefinite_writes h t.bits.length t rfl] at ht
  cases ht

/-- **C29** (partial: extensible types and lengths from 16K on are excluded, see the violations
below). A failed encode leaves the buffer as it was. -/
theorem C29_failed_encode_clean_partial (k : Kind) (v : k.In) (extended : Bool)
    (h : k.FailsCleanly v) (s s' : Codec) (he : k.encode v extended s = .err s') : s' = s := by
  refine (?_ : Atomic (k.encode v extended)) s s' he
  cases k with
  | integer lb ub e => obtain ⟨rfl, hv⟩ := h; exact .integer lb ub v hv extended
  | enumerated lb ub e =>
    obtain ⟨rfl, hv⟩ := h
    show Atomic (encodeEnumerated lb ub false v extended)
    unfold encodeEnumerated
    exact .ite .fail (Atomic.integer lb ub v hv false)
  | choiceIdx lb ub e =>
    obtain ⟨rfl, hv⟩ := h
    show Atomic (encodeChoiceIdx lb ub false v extended)
    unfold encodeChoiceIdx
    exact .ite .fail (Atomic.integer (some lb) (some ub) v hv false)
  | sequenceHeader e n =>
    show Atomic (encodeSequenceHeader e v extended)
    unfold encodeSequenceHeader
    exact .ite .fail (NoErr.bind (.ite (.push _) (.pure _)) fun _ => .append _).atomic
  | bool => exact (NoErr.push _).atomic
  | bitstring lb ub e =>
    obtain ⟨rfl, hb⟩ := h
    show Atomic (encodeBitstring lb ub false v extended)
    unfold encodeBitstring
    refine .ite .fail ?_
    show Atomic (if 16384 ≤ v.length then M.fail else _)
    by_cases hl : 16384 ≤ v.length
    · rw [if_pos hl]; exact .fail
    · rw [if_neg hl]
      exact .bind_noErr (Atomic.length hb (by omega)) fun _ =>
        .ite (.bind (.alignIf _) fun _ => .append _) (.pure _)
  | octetstring lb ub e =>
    obtain ⟨rfl, hb⟩ := h
    show Atomic (encodeOctetstring lb ub false v extended)
    unfold encodeOctetstring
    refine .ite .fail ?_
    show Atomic (if 16384 ≤ v.length then M.fail else _)
    by_cases hl : 16384 ≤ v.length
    · rw [if_pos hl]; exact .fail
    · rw [if_neg hl]
      exact .bind_noErr (Atomic.length hb (by omega)) fun _ =>
        .ite (.bind (.alignIf _) fun _ => .append _) (.pure _)
  | visibleString lb ub e => obtain ⟨rfl, hb, hl⟩ := h; exact .string hb hl extended
  | printableString lb ub e => obtain ⟨rfl, hb, hl⟩ := h; exact .string hb hl extended
  | utf8String lb ub e => obtain ⟨rfl, hb, hl⟩ := h; exact .string hb hl extended
  | length lb ub ns =>
    cases ns with
    | false => exact Atomic.length (h.1 rfl) h.2
    | true =>
      exact Atomic.normallySmall h.2

example : (Kind.integer (some 3) (some 9) false).FailsCleanly (10 : Int) :=
  ⟨rfl, (by decide : IsI128 10)⟩
example : (Kind.octetstring (some 3) (some 9) false).encode [1, 2] false Codec.new = .err Codec.new := by
  decide

/-- **C29 is violated** for extensible types: every out-of-range integer leaves an extension bit
behind. -/
theorem C29_extension_bit_violated (lb ub v : Int) (h : v < lb ∨ ub < v) (s : Codec) :
    encodeInteger (some lb) (some ub) true v false s = .err { s with bits := s.bits ++ [false] } := by
  have hf : ∀ p, Fails (encodeConstrained lb ub v) p [] := fun p =>
    encodeConstrainedWith_outside _ h p
  exact Writes.bind_fails (g := fun _ => encodeConstrained lb ub v)
    (Writes.push s.bits.length false) (hf _) s rfl

example : encodeInteger (some 3) (some 9) true 10 false ⟨[true], 0, none⟩ = .err ⟨[true, false], 0, none⟩ :=
  C29_extension_bit_violated 3 9 10 (by decide) _

/-- **C29 is violated** for long character strings: padding is left behind. -/
theorem C29_long_string_violated (v : String) (h : 16384 ≤ (utf8 v).length) (s : Codec) :
    encodeString none none false v false s =
      .err { s with bits := s.bits ++ Spec.alignment s.bits.length } := by
  refine Fails.bind (m := encodeLength none none false (utf8 v).length) ?_ s rfl
  exact encodeIndefinite_fails h s.bits.length

theorem utf8_append (a b : String) : utf8 (a ++ b) = utf8 a ++ utf8 b := by simp [utf8]

/-- 2^n times the letter a. -/
def manyAs : Nat → String
  | 0 => "a"
  | n + 1 => manyAs n ++ manyAs n

theorem manyAs_length (n : Nat) : (utf8 (manyAs n)).length = 2 ^ n := by
  induction n with
  | zero => decide
  | succ n ih => rw [manyAs, utf8_append, List.length_append, ih]; omega

example : 16384 ≤ (utf8 (manyAs 14)).length := by rw [manyAs_length]; decide

/-! ## C30 -/

/-- The functions that take an `extended` argument. -/
def Kind.HasExtended : Kind → Prop
  | .bool => False
  | .length .. => False
  | _ => True

/-- **C30.** Asked to encode an extended value, every encoder returns `Err` and changes nothing. -/
theorem C30_extended_refused (k : Kind) (hk : k.HasExtended) (v : k.In) (s : Codec) :
    k.encode v true s = .err s := by
  cases k <;> first | rfl | exact absurd hk (by simp [Kind.HasExtended])

example : (Kind.sequenceHeader true 2).HasExtended := trivial

/-! ## C31 -/

theorem twos_bits {n : Nat} (hn : n ≤ 128) (v : Int) :
    natToBits n (toU128 v) = natToBits n (Spec.twos n v) := by
  apply natToBits_congr
  unfold Spec.twos toU128
  have e1 : ∀ n : Nat, ((v % 2 ^ n).toNat : Int) = v % 2 ^ n := fun n =>
    Int.toNat_of_nonneg (Int.emod_nonneg _ (by have := Int.pow_pos (n := 2) (m := n) (by omega); omega))
  apply Int.ofNat_inj.mp
  rw [Int.natCast_emod, Int.natCast_emod, e1, e1, ipow_cast, Int.emod_emod]
  apply Int.emod_emod_of_dvd
  exact ⟨2 ^ (128 - n), by rw [← Int.pow_add]; congr 1; omega⟩

theorem decodeUnconstrained_spec {k : Nat} (hk : SignedOctets k) {v : Int}
    (hf : FitsTwos k v) (p : Nat) : Decodes decodeUnconstrained p (Spec.unconstrained p k v) v := by
  rw [decodeUnconstrained_eq]
  unfold Spec.unconstrained
  have hk16 : k ≤ 16 := by unfold SignedOctets at hk; omega
  rw [← indefWord_eq, be_eq, ← twos_bits (by omega), Nat.mul_comm 8 k]
  unfold FitsTwos at hf
  rw [Nat.mul_comm 8 k] at hf
  exact .bind (decodeIndefinite_decodes (by omega) p)
    (.signed _ (mem_signedWidths.mpr hk) hf.1 hf.2)

theorem decodeNormallySmall_spec {k x : Nat} (hx : x < 2 ^ 127) (hk : 64 ≤ x → IsOctets x k)
    (p : Nat) : Decodes decodeNormallySmallNonNegative p (Spec.normallySmallNumber p k x) (x : Int) := by
  unfold decodeNormallySmallNonNegative Spec.normallySmallNumber
  by_cases h : x ≤ 63
  · rw [if_pos h, be_eq]
    refine .bind (.boolM p false) ?_
    exact .nat _ (by omega) (by omega) hx
  · rw [if_neg h]
    refine .bind (.boolM p true) ?_
    obtain ⟨k1, k2, k3⟩ := hk (by omega)
    have hk16 : k ≤ 16 := k3 16 (by omega) (by
      have : (256 : Nat) ^ 16 = 2 ^ 128 := by decide
      omega)
    show Decodes (decodeSemiConstrained 0) (p + 1) _ _
    rw [decodeSemiConstrained_eq]
    unfold Spec.semiConstrained
    rw [← indefWord_eq, be_eq, Nat.mul_comm 8 k]
    refine .bind (decodeIndefinite_decodes (by omega) (p + 1)) ?_
    have hk2 : x < 2 ^ (k * 8) := by rw [pow256, Nat.mul_comm] at k2; exact k2
    have := Decodes.bind (g := fun val => chkI128 (val + 0))
      (Decodes.nat (p + 1 + (indefWord (p + 1) k).length) (n := k * 8) (by omega) hk2 hx)
      (w2 := []) (b := (x : Int)) (by
        have hi : IsI128 ((x : Int) + 0) := by unfold IsI128; omega
        unfold chkI128
        rw [if_pos hi, Int.add_zero]
        exact .pure _ _)
    rw [List.append_nil] at this
    exact this

/-- **C31 (partial).** An INTEGER extension addition, received in 1 to 8 or in 16 octets. Missing,
because false: 9 to 15 octets (`C31_integer_extension_violated`). -/
theorem C31_integer_extension_partial (lb ub : Option Int) (k : Nat) (v : Int)
    (hk : (1 ≤ k ∧ k ≤ 8) ∨ k = 16) (hf : FitsTwos k v) (pre suf : List Bool) (key : Option Int) :
    let w := [true] ++ Spec.unconstrained (pre.length + 1) k v
    decodeInteger lb ub true ⟨pre ++ w ++ suf, pre.length, key⟩ =
      .ok (v, true) ⟨pre ++ w ++ suf, pre.length + w.length, key⟩ := by
  dsimp only
  refine (?_ : Decodes (decodeInteger lb ub true) pre.length _ (v, true)) pre suf key rfl
  exact Decodes.bind (g := fun e => decodeIntegerValue lb ub e >>= fun x => pure (x, e))
    (.boolM pre.length true)
    (Decodes.map (decodeUnconstrained_spec hk hf (pre.length + 1)) fun x => (x, true))

example : FitsTwos 2 (-300) ∧ FitsTwos 8 (2 ^ 60) ∧ FitsTwos 16 (2 ^ 120) := by decide

/-- **C31.** An ENUMERATED extension addition with any index below 2^127. -/
theorem C31_enumerated_extension (lb ub : Option Int) (x k : Nat) (hx : x < 2 ^ 127)
    (hk : 64 ≤ x → IsOctets x k) (pre suf : List Bool) (key : Option Int) :
    let w := [true] ++ Spec.normallySmallNumber (pre.length + 1) k x
    decodeEnumerated lb ub true ⟨pre ++ w ++ suf, pre.length, key⟩ =
      .ok ((x : Int), true) ⟨pre ++ w ++ suf, pre.length + w.length, key⟩ := by
  dsimp only
  refine (?_ : Decodes (decodeEnumerated lb ub true) pre.length _ ((x : Int), true)) pre suf key rfl
  exact Decodes.bind (g := fun e => decodeEnumeratedValue lb ub e >>= fun x => pure (x, e))
    (.boolM pre.length true)
    (Decodes.map (decodeNormallySmall_spec hx hk (pre.length + 1)) fun x => (x, true))

example : (300 : Nat) < 2 ^ 127 := by decide
example : IsOctets 300 2 := by
  refine ⟨by decide, by decide, fun j hj h => ?_⟩
  apply Decidable.byContradiction
  intro h2
  have : j = 1 := by omega
  subst this
  revert h; decide

/-- **C31.** A CHOICE extension addition with any index below 2^127. -/
theorem C31_choice_extension (lb ub : Int) (x k : Nat) (hx : x < 2 ^ 127)
    (hk : 64 ≤ x → IsOctets x k) (pre suf : List Bool) (key : Option Int) :
    let w := [true] ++ Spec.normallySmallNumber (pre.length + 1) k x
    decodeChoiceIdx lb ub true ⟨pre ++ w ++ suf, pre.length, key⟩ =
      .ok ((x : Int), true) ⟨pre ++ w ++ suf, pre.length + w.length, key⟩ := by
  dsimp only
  refine (?_ : Decodes (decodeChoiceIdx lb ub true) pre.length _ ((x : Int), true)) pre suf key rfl
  unfold decodeChoiceIdx
  rw [if_pos rfl]
  refine Decodes.bind (.boolM pre.length true) ?_
  exact Decodes.map (decodeNormallySmall_spec hx hk (pre.length + 1)) fun x => (x, true)

example : (5 : Nat) < 2 ^ 127 ∧ (64 ≤ 5 → IsOctets 5 1) := ⟨by decide, fun h => absurd h (by decide)⟩

/-- **C31.** A SEQUENCE header announcing extension additions. -/
theorem C31_header_extension (flags pre suf : List Bool) (key : Option Int) :
    let w := [true] ++ flags
    decodeSequenceHeader true flags.length ⟨pre ++ w ++ suf, pre.length, key⟩ =
      .ok (flags, true) ⟨pre ++ w ++ suf, pre.length + w.length, key⟩ := by
  dsimp only
  refine (?_ : Decodes (decodeSequenceHeader true flags.length) pre.length _ (flags, true))
    pre suf key rfl
  refine Decodes.bind (g := fun e => decodeBitmap flags.length >>= fun x => pure (x, e))
    (.boolM pre.length true) (Decodes.map (f := fun x => (x, true)) ?_)
  unfold decodeBitmap
  split
  · exact .bitvec _ _
  · rename_i h
    have : flags = [] := List.length_eq_zero_iff.mp (by omega)
    subst this
    exact .pure _ _

theorem indefWord_end (p n : Nat) : (p + (indefWord p n).length) % 8 = 0 := by
  unfold indefWord
  simp only [List.length_append, pad_length]
  unfold padLen
  split <;> simp <;> omega

theorem pad_zero {p : Nat} (h : p % 8 = 0) : pad p = [] := by
  unfold pad padLen
  rw [h]; rfl

theorem alignIf_nop {p : Nat} (h : p % 8 = 0) (c : Bool) : Decodes (decodeAlignIf c) p [] () := by
  have := Decodes.alignIf p c
  rw [pad_zero h, ite_self] at this
  exact this

theorem chunk_bits (l : List Bool) {p : Nat} (h : p % 8 = 0) :
    Decodes (decodeChunk 16 getBitvec l.length) p l l := by
  unfold decodeChunk
  split
  · exact Decodes.bind (w := []) (alignIf_nop h _) (.bitvec _ l)
  · have : l = [] := List.length_eq_zero_iff.mp (by omega)
    subst this; exact .pure _ _

theorem chunk_bytes (l : List UInt8) {p : Nat} (h : p % 8 = 0) :
    Decodes (decodeChunk 2 getBytes l.length) p (bytesBits l) l := by
  unfold decodeChunk
  split
  · exact Decodes.bind (w := []) (alignIf_nop h _) (.bytes _ l)
  · have : l = [] := List.length_eq_zero_iff.mp (by omega)
    subst this; exact .pure _ _

/-- **C31.** A BIT STRING whose size is outside the root constraint. -/
theorem C31_bitstring_extension (lb ub : Option Int) (l : List Bool) (hl : l.length < 16384)
    (pre suf : List Bool) (key : Option Int) :
    let w := [true] ++ (Spec.generalLength (pre.length + 1) l.length ++ l)
    decodeBitstring lb ub true ⟨pre ++ w ++ suf, pre.length, key⟩ =
      .ok l ⟨pre ++ w ++ suf, pre.length + w.length, key⟩ := by
  dsimp only
  refine (?_ : Decodes (decodeBitstring lb ub true) pre.length _ l) pre suf key rfl
  refine Decodes.bind (g := fun e => decodeFragments (decodeStringLength e lb ub) 16 getBitvec)
    (.boolM pre.length true) ?_
  rw [← indefWord_eq]
  exact Decodes.fragments hl (decodeIndefinite_decodes hl (pre.length + 1))
    (chunk_bits l (indefWord_end _ _))

example : ([true, false, true] : List Bool).length < 16384 := by decide

/-- **C31.** An OCTET STRING whose size is outside the root constraint. -/
theorem C31_octetstring_extension (lb ub : Option Int) (l : List UInt8) (hl : l.length < 16384)
    (pre suf : List Bool) (key : Option Int) :
    let w := [true] ++ (Spec.generalLength (pre.length + 1) l.length ++ Spec.octetBits l)
    decodeOctetstring lb ub true ⟨pre ++ w ++ suf, pre.length, key⟩ =
      .ok l ⟨pre ++ w ++ suf, pre.length + w.length, key⟩ := by
  dsimp only
  refine (?_ : Decodes (decodeOctetstring lb ub true) pre.length _ l) pre suf key rfl
  refine Decodes.bind (g := fun e => decodeFragments (decodeStringLength e lb ub) 2 getBytes)
    (.boolM pre.length true) ?_
  rw [← indefWord_eq, octetBits_eq]
  exact Decodes.fragments hl (decodeIndefinite_decodes hl (pre.length + 1))
    (chunk_bytes l (indefWord_end _ _))

example : ([7, 8, 9] : List UInt8).length < 16384 := by decide

/-- **C31.** A character string whose size is outside the root constraint. -/
theorem C31_string_extension (lb ub : Option Int) (str : String) (hl : (utf8 str).length < 16384)
    (pre suf : List Bool) (key : Option Int) :
    let w := [true] ++ (Spec.generalLength (pre.length + 1) (utf8 str).length ++
      Spec.octetBits (utf8 str))
    decodeString lb ub true ⟨pre ++ w ++ suf, pre.length, key⟩ =
      .ok str ⟨pre ++ w ++ suf, pre.length + w.length, key⟩ := by
  dsimp only
  refine (?_ : Decodes (decodeString lb ub true) pre.length _ str) pre suf key rfl
  refine Decodes.bind (.boolM pre.length true) ?_
  rw [← indefWord_eq, octetBits_eq]
  refine Decodes.bind (decodeIndefinite_decodes hl (pre.length + 1)) ?_
  have h0 := indefWord_end (pre.length + 1) (utf8 str).length
  have := Decodes.text (str := str) (.inr (.inl h0))
  rw [pad_zero h0] at this
  simpa using this

example : (2 ^ 100 : Nat) < 2 ^ 127 ∧ FitsTwos 8 (-(2 ^ 60)) := by decide
example : IsOctets 300 2 := by
  refine ⟨by decide, by decide, fun j hj h => ?_⟩
  apply Decidable.byContradiction
  intro h2
  have : j = 1 := by omega
  subst this
  revert h; decide
end Hampi
