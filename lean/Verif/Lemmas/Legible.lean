import Verif.Spec.Legible
import Verif.Lemmas.Wire
import Verif.Lemmas.DeriveOk
import Verif.Props.Align
/-!
# The prescribed encodings of legible values are read
-/
namespace Hampi

open Spec

variable {α : Type}

/-! ## Prescribed words are unique -/

theorem isOctets_eq {x a b : Nat} (h1 : IsOctets x a) (h2 : IsOctets x b) : a = b := by
  have := h1.2.2 b h2.1 h2.2.1
  have := h2.2.2 a h1.1 h1.2.1
  omega

theorem constrainedWord_unique {p R x : Nat} {w w' : List Bool} (h : ConstrainedWord p R x w)
    (h' : ConstrainedWord p R x w') : w = w' := by
  unfold ConstrainedWord at h h'
  split at h
  · next hr =>
    rw [if_pos hr] at h'
    obtain ⟨b, hb, rfl⟩ := h
    obtain ⟨b', hb', rfl⟩ := h'
    rw [isWidth_unique hb hb']
  · next hr =>
    rw [if_neg hr] at h'
    split at h
    · next h2 => rw [if_pos h2] at h'; rw [h, h']
    · next h2 =>
      rw [if_neg h2] at h'
      split at h
      · next h3 => rw [if_pos h3] at h'; rw [h, h']
      · next h3 =>
        rw [if_neg h3] at h'
        obtain ⟨L, k, b, h1, h2, h3, rfl⟩ := h
        obtain ⟨L', k', b', h1', h2', h3', rfl⟩ := h'
        cases isOctets_eq h1 h1'
        cases isOctets_eq h2 h2'
        rw [isWidth_unique h3 h3']

theorem lengthWord_unique {lb : Nat} {ub : Option Nat} {p n : Nat} {w w' : List Bool}
    (h : LengthWord lb ub p n w) (h' : LengthWord lb ub p n w') : w = w' := by
  unfold LengthWord at h h'
  cases ub with
  | none => dsimp only at h h'; rw [h, h']
  | some u =>
    dsimp only at h h'
    split at h
    · next hu => rw [if_pos hu] at h'; exact constrainedWord_unique h h'
    · next hu => rw [if_neg hu] at h'; rw [h, h']

theorem stringLayout_unique {short : Int} {lb ub : Option Int} {ext : Bool} {n p : Nat}
    {c w w' : List Bool} (h : StringLayout short lb ub ext n c p w)
    (h' : StringLayout short lb ub ext n c p w') : w = w' := by
  rcases h with ⟨k, rfl, rfl, hk, rfl⟩ | ⟨hf, l, hl, rfl⟩
  · rcases h' with ⟨k', h1, -, -, rfl⟩ | ⟨hf, -⟩
    · cases h1; rfl
    · exact absurd ⟨k, rfl, rfl, hk⟩ hf
  · rcases h' with ⟨k', rfl, rfl, hk, -⟩ | ⟨-, l', hl', rfl⟩
    · exact absurd ⟨k', rfl, rfl, hk⟩ hf
    · rw [lengthWord_unique hl hl']

theorem charLayout_unique {lb ub : Option Int} {ext : Bool} {n p : Nat}
    {c w w' : List Bool} (h : CharLayout lb ub ext n c p w)
    (h' : CharLayout lb ub ext n c p w') : w = w' := by
  rcases h with ⟨k, rfl, rfl, hk, rfl⟩ | ⟨hf, l, hl, rfl⟩
  · rcases h' with ⟨k', h1, -, -, rfl⟩ | ⟨hf, -⟩
    · cases h1; rfl
    · exact absurd ⟨k, rfl, rfl, hk⟩ hf
  · rcases h' with ⟨k', rfl, rfl, hk, -⟩ | ⟨-, l', hl', rfl⟩
    · exact absurd ⟨k', rfl, rfl, hk⟩ hf
    · rw [lengthWord_unique hl hl']

/-- What is prescribed uniquely, written by an encoder and read back, is read wherever it comes from. -/
theorem Decodes.prescribed {enc : M Unit} {dec : M α} {v : α} {L : Nat → List Bool → Prop}
    (hrt : RT enc dec v) (hl : Lays enc L) (hok : ∀ s, ∃ s', enc s = .ok () s')
    (hu : ∀ p w w', L p w → L p w' → w = w') {p : Nat} {w : List Bool} (h : L p w) :
    Decodes dec p w v := by
  have hp : (List.replicate p false).length = p := List.length_replicate
  obtain ⟨s', hs⟩ := hok ⟨List.replicate p false, 0, none⟩
  obtain ⟨w1, e1, -, hd⟩ := hrt _ _ hs
  obtain ⟨w2, h2, e2⟩ := hl _ _ hs
  rw [e1] at e2
  simp only [Codec.mk.injEq, List.append_cancel_left_eq, and_true] at e2
  subst e2
  dsimp only at hd h2
  rw [hp] at hd h2
  rw [hu p w w1 h h2]
  exact hd

/-! ## Numbers -/

theorem decodeConstrained_prescribed {lb ub v : Int} (h1 : lb ≤ v) (h2 : v ≤ ub)
    (hm : ub - lb + 1 < 2 ^ 127) (h32 : ub - lb + 1 ≠ 2 ^ 32) (h64 : ub - lb + 1 ≠ 2 ^ 64)
    (hv : IsI128 v) {p : Nat} {w : List Bool}
    (h : ConstrainedWord p (ub - lb + 1).toNat (v - lb).toNat w) :
    Decodes (decodeConstrained lb ub) p w v := by
  have hi := InRange.of (lb := lb) (ub := ub) (v := v) (by omega) (by omega) (by omega)
  generalize hR : (ub - lb + 1).toNat = R at *
  generalize hx : (v - lb).toNat = x at *
  by_cases hs : R ≤ 65536 ∨ 0 < x
  · have := constrainedWord_unique h
      (constrainedWord_cWord (p := p) (R := R) (x := x) hi.max (by omega) (by omega) hs)
    subst this
    exact decodeConstrained_decodes hi hv hs p
  · -- the lowest value of a range of more than 64K
    have hx0 : x = 0 := by omega
    subst hx0
    have hR0 : 65536 < R := by omega
    unfold ConstrainedWord at h
    rw [if_neg (by omega), if_neg (by omega), if_neg (by omega)] at h
    obtain ⟨L, k, b, hL, hk, hb, rfl⟩ := h
    have hk1 : k = 1 := by
      have := hk.2.2 1 (by omega) (by decide)
      have := hk.1
      omega
    subst hk1
    have hRm := hi.max
    have hL' := (isOctets_iff (by omega)).mp hL
    have hbd := octets_range_bounds hR0 hRm
    have hle := octets_mono (show R - 1 ≤ R by omega)
    have hb' : b = decFieldBits (octets R : Nat) := by
      rw [lenWidth_eq hR0 hRm (by omega) (by omega)]
      refine isWidth_unique hb ?_
      rw [hL']
      exact isWidth_decFieldBits (by omega)
    unfold decodeConstrained
    rw [decodeConstrainedWith_eq _ hi.hR (by omega) hRm]
    have hvx : ((0 : Nat) : Int) + lb = v := by have := hi.hx; omega
    rw [← hvx]
    apply decodes_chk _ (by rwa [hvx])
    unfold decodeConstrainedField
    rw [if_neg (by omega), if_neg (by omega), if_neg (by omega)]
    dsimp only
    rw [bytesNeededForRange_eq (by omega) (by omega), Int.toNat_natCast]
    have hlen : Decodes (decodeConstrainedLengthSmall 1 (octets R)) p (be b 0) 1 := by
      unfold decodeConstrainedLengthSmall
      rw [if_neg (by omega), if_pos (by omega)]
      have hir : InRange (1 : Nat) (octets R) ((1 : Nat) : Int) (octets R) 0 :=
        ⟨by omega, by omega, by omega, by omega⟩
      have hd := decodeConstrainedSmall_decodes hir (by unfold IsI128; omega) (by omega) p
      have e : smallWord p (octets R) 0 = be b 0 := by
        unfold smallWord
        rw [if_pos (by omega), be_eq, hb']
      rw [e] at hd
      have := Decodes.map hd asUsize
      rw [asUsize_natCast (by omega)] at this
      exact this
    rw [List.append_assoc]
    refine .bind hlen (.bind (a := ()) ?_ ?_)
    · have := Decodes.align (p + (be b 0).length)
      rw [← alignment_eq] at this
      have hbl : (be b 0).length = b := by simp [be]
      rw [hbl] at this ⊢
      exact this
    · rw [be_eq]
      exact Decodes.nat _ (n := 8) (x := 0) (by omega) (by decide) (by decide)

theorem decodeUnconstrained_prescribed {v : Int} (h1 : -(2 ^ 63) ≤ v) (h2 : v < 2 ^ 63) {p k : Nat}
    (hk : IsTwosOctets v k) : Decodes decodeUnconstrained p (unconstrained p k v) v := by
  refine decodeUnconstrained_spec (.inl ⟨hk.1, ?_⟩) hk.2.1 p
  exact hk.2.2 8 (by omega) ⟨by omega, by omega⟩

theorem decodeSemiConstrained_prescribed {lb v : Int} (h1 : lb ≤ v) (h2 : v - lb < 2 ^ 127) (hv : IsI128 v)
    {p k : Nat} (hk : IsOctets (v - lb).toNat k) :
    Decodes (decodeSemiConstrained lb) p (semiConstrained p k (v - lb).toNat) v := by
  generalize hx : (v - lb).toNat = x at *
  obtain ⟨k1, k2, k3⟩ := hk
  have hk16 : k ≤ 16 := k3 16 (by omega) (by
    have : (256 : Nat) ^ 16 = 2 ^ 128 := by decide
    omega)
  rw [decodeSemiConstrained_eq]
  unfold semiConstrained
  rw [← indefWord_eq, be_eq, Nat.mul_comm 8 k]
  refine .bind (decodeIndefinite_decodes (by omega) p) ?_
  have hk2 : x < 2 ^ (k * 8) := by rw [pow256, Nat.mul_comm] at k2; exact k2
  have hvx : (x : Int) + lb = v := by omega
  have := decodes_chk (Decodes.nat (p + (indefWord p k).length) (n := k * 8) (by omega) hk2 (by omega))
    (lb := lb) (by rwa [hvx])
  rwa [hvx] at this

theorem Width.Fits.i128 {w : Width} {v : Int} (h : w.Fits v) : IsI128 v := by
  unfold IsI128
  cases w <;> simp only [Width.Fits, Width.signed, Width.bits, if_true, Bool.false_eq_true, if_false,
      Nat.reduceSub] at h <;> omega

theorem Width.Fits.ge {w : Width} {v : Int} (h : w.Fits v) : -(2 ^ 63) ≤ v := by
  cases w <;> simp only [Width.Fits, Width.signed, Width.bits, if_true, Bool.false_eq_true, if_false,
      Nat.reduceSub] at h <;> omega

theorem decodeExtBit_root (ext : Bool) (p : Nat) : Decodes (decodeExtBit ext) p (extRoot ext) false := by
  cases ext with
  | false => exact .pure p false
  | true => exact .boolM p false

theorem decodeIntegerValue_prescribed {wd : Width} {lb ub : Option Int} {v : Int} (h : IntLegible wd lb ub v)
    {p : Nat} {x : List Bool} (hx : IntLayout lb ub false v p x) :
    Decodes (decodeIntegerValue lb ub false) p x v := by
  obtain ⟨hw, h⟩ := h
  obtain ⟨y, rfl, hx⟩ := hx
  cases lb with
  | none =>
    obtain ⟨k, hk, rfl⟩ := hx
    exact decodeUnconstrained_prescribed hw.ge h hk
  | some l =>
    cases ub with
    | none =>
      obtain ⟨k, hk, rfl⟩ := hx
      exact decodeSemiConstrained_prescribed h.1 h.2 hw.i128 hk
    | some u => exact decodeConstrained_prescribed h.1 h.2.1 h.2.2.1 h.2.2.2.1 h.2.2.2.2 hw.i128 hx

theorem decodeInteger_prescribed {wd : Width} {lb ub : Option Int} {ext : Bool} {v : Int}
    (h : IntLegible wd lb ub v) {p : Nat} {w : List Bool} (hl : IntLayout lb ub ext v p w) :
    Decodes (decodeInteger lb ub ext) p w (v, false) := by
  obtain ⟨x, rfl, hx⟩ := hl
  exact .bind (decodeExtBit_root ext p) (.map (decodeIntegerValue_prescribed h ⟨x, rfl, hx⟩) fun v => (v, false))

theorem decodeEnumerated_prescribed {wd : Width} {lb ub : Option Int} {ext : Bool} {v : Int}
    (h : IntLegible wd lb ub v) {p : Nat} {w : List Bool} (hl : IntLayout lb ub ext v p w) :
    Decodes (decodeEnumerated lb ub ext) p w (v, false) := by
  obtain ⟨x, rfl, hx⟩ := hl
  have h1 : Decodes (decodeInteger lb ub false) (p + (extRoot ext).length) x (v, false) :=
    decodeInteger_prescribed h ⟨x, rfl, hx⟩
  exact .bind (decodeExtBit_root ext p) (.map (.map h1 Prod.fst) fun v => (v, false))

theorem decodeChoiceIdx_prescribed {lb ub : Int} {ext : Bool} {v : Int} (hv : IsI128 v) (h1 : lb ≤ v)
    (h2 : v ≤ ub) (h3 : ub - lb < 65536) {p : Nat} {i : List Bool}
    (hi : ConstrainedWord (p + (extRoot ext).length) (ub - lb + 1).toNat (v - lb).toNat i) :
    Decodes (decodeChoiceIdx lb ub ext) p (extRoot ext ++ i) (v, false) := by
  have hd : Decodes (decodeInteger (some lb) (some ub) false) (p + (extRoot ext).length) i (v, false) :=
    .map (decodeConstrained_prescribed h1 h2 (by omega) (by omega) (by omega) hv hi) fun v => (v, false)
  unfold decodeChoiceIdx
  cases ext with
  | true => exact .bind (.boolM p false) (.map hd fun r => (r.1, false))
  | false => exact .map hd fun r => (r.1, false)

/-! ## Lengths and strings -/

theorem decodeLength_prescribed {lb ub : Option Int} {n : Nat} (h : SizeOk lb ub n) {p : Nat} {w : List Bool}
    (hl : LengthWord (lb.getD 0).toNat (ub.map Int.toNat) p n w) : Decodes (decodeLength lb ub false) p w n :=
  .prescribed (RT.length h.1 false n) ((Lays.length h.1 n).mono fun _ _ h => h.2.1)
    (encodeLength_sizeOk h) (fun _ _ _ => lengthWord_unique) hl

theorem decodeBitstring_prescribed {lb ub : Option Int} {ext : Bool} {v : List Bool}
    (h : (Ty.bitstring lb ub ext).Legible v) {p : Nat} {w : List Bool}
    (hl : StringLayout 16 lb ub ext v.length v p w) : Decodes (decodeBitstring lb ub ext) p w v :=
  .prescribed (RT.bitstring h.1.1 v ext false) (.bitstring h.1 ext)
    (Ty.encode_ok (.bitstring lb ub ext) v ⟨h.1.1, h.2⟩) (fun _ _ _ => stringLayout_unique) hl

theorem decodeOctetstring_prescribed {lb ub : Option Int} {ext : Bool} {v : List UInt8}
    (h : (Ty.octetstring lb ub ext).Legible v) {p : Nat} {w : List Bool}
    (hl : StringLayout 2 lb ub ext v.length (octetBits v) p w) : Decodes (decodeOctetstring lb ub ext) p w v :=
  .prescribed (RT.octetstring h.1.1 v ext false) (.octetstring h.1 ext)
    (Ty.encode_ok (.octetstring lb ub ext) v ⟨h.1.1, h.2⟩) (fun _ _ _ => stringLayout_unique) hl

theorem decodeString_prescribed {k : CharKind} {lb ub : Option Int} {ext : Bool} {v : String}
    (h : (Ty.charstring k lb ub ext).Legible v) {p : Nat} {w : List Bool}
    (hl : (Ty.charstring k lb ub ext).Layout v p w) : Decodes (decodeString lb ub ext) p w v := by
  obtain ⟨h1, h2, h3⟩ := h
  have hok : ∀ s, ∃ s', encodeString lb ub ext v false s = .ok () s' := by
    have := Ty.encode_ok (.charstring k lb ub ext) v h3
    cases k <;> exact this
  cases k with
  | utf8 => exact .prescribed (RT.text h2 ext false) (.utf8String h1) hok (fun _ _ _ h h' => by rw [h, h']) hl
  | printable =>
    exact .prescribed (RT.text h2 ext false) (.charString h1.1 h1.2) hok (fun _ _ _ => charLayout_unique) hl
  | visible =>
    exact .prescribed (RT.text h2 ext false) (.charString h1.1 h1.2) hok (fun _ _ _ => charLayout_unique) hl

/-! ## Headers -/

theorem presenceBits_marked : (fs : Fields) → (v : fs.Val) → (i n : Nat) → (pre : List Bool) → pre.length = i →
    fs.indexes = List.range' i n → fs.Marked v (pre ++ fs.presenceBits v)
  | .nil, _, _, _, _, _, _ => trivial
  | .required _ _ rest, v, i, n, pre, hp, h => presenceBits_marked rest v.2 i n pre hp h
  | .optional j _ rest, v, i, n, pre, hp, h => by
      cases n with
      | zero => simp [Fields.indexes] at h
      | succ n =>
        simp only [Fields.indexes, List.range'_succ, List.cons.injEq] at h
        obtain ⟨rfl, h⟩ := h
        refine ⟨?_, ?_⟩
        · simp [Fields.presenceBits, hp]
        · have := presenceBits_marked rest v.2 (j + 1) n (pre ++ [v.1.isSome]) (by simp [hp]) h
          simpa [Fields.presenceBits] using this

theorem decodeHeader_prescribed {fs : Fields} {v : fs.Val} {n : Nat} (h : fs.indexes = List.range n) (ext : Bool)
    (p : Nat) : Decodes (decodeSequenceHeader ext n) p (extRoot ext ++ fs.presenceBits v)
      (fs.presenceBits v, false) := by
  have hn : (fs.presenceBits v).length = n :=
    (mark_range fs v 0 n [] rfl (by rw [h, List.range_eq_range'])).2
  refine .bind (decodeExtBit_root ext p) (.map ?_ fun b => (b, false))
  unfold decodeBitmap
  by_cases h0 : 0 < n
  · rw [if_pos h0, ← hn]
    exact .bitvec _ _
  · rw [if_neg h0]
    have : fs.presenceBits v = [] := List.length_eq_zero_iff.mp (by omega)
    rw [this]
    exact .pure _ _

/-! ## Composition -/

/-- The decoder stands at `off`, the next thing to read at `e`. -/
def Gap.At : Gap → List Bool → Nat → Nat → Prop
  | .exact, _, off, e => off = e
  | .padded, bits, off, e => Hampi.At true bits off e
  | .lost, _, _, _ => True

/-- The decoder reads the word `w`, standing at a position congruent to `p`, as `v`; before it there may be the gap
`g`, after it `h`; the key goes from `k` to `k'`. -/
def Gets (dec : M α) (v : α) (g h : Gap) (p : Nat) (w : List Bool) (k k' : Option Int) : Prop :=
  ∀ pre suf off, pre.length % 8 = p % 8 → g.At (pre ++ w ++ suf) off pre.length →
    ∃ off', dec ⟨pre ++ w ++ suf, off, k⟩ = .ok v ⟨pre ++ w ++ suf, off', k'⟩ ∧
      h.At (pre ++ w ++ suf) off' (pre.length + w.length)

theorem Gets.of {dec : M α} {p : Nat} {w : List Bool} {v : α} {g h : Gap} {al : Bool} (hd : Decodes dec p w v)
    (hg : g.leaf al = some h) (hb : al = true → AlignFirst dec) (k : Option Int) : Gets dec v g h p w k k := by
  intro pre suf off hp hat
  cases g with
  | exact =>
    cases hg
    cases (show off = pre.length from hat)
    exact ⟨_, hd pre suf k hp, rfl⟩
  | padded =>
    simp only [Gap.leaf] at hg
    split at hg
    · next ha =>
      cases hg
      refine ⟨_, ?_, rfl⟩
      rw [At.skip (b := true) hat (fun _ => hb ha), hd pre suf k hp]
    · cases hg
  | lost => cases hg

theorem Gets.pure (v : α) (g : Gap) (p : Nat) (k : Option Int) : Gets (Pure.pure v) v g g p [] k k := by
  intro pre suf off _ hat
  exact ⟨off, rfl, by simpa using hat⟩

theorem Gets.bind {β : Type} {m : M α} {f : α → M β} {a : α} {v : β} {b c d : Gap} {p : Nat}
    {w1 w2 : List Bool} {k k1 k2 : Option Int} (h1 : Gets m a b c p w1 k k1)
    (h2 : Gets (f a) v c d (p + w1.length) w2 k1 k2) :
    Gets (m >>= f) v b d p (w1 ++ w2) k k2 := by
  intro pre suf off hp hat
  have e : pre ++ (w1 ++ w2) ++ suf = pre ++ w1 ++ (w2 ++ suf) := by simp
  rw [e] at hat ⊢
  obtain ⟨o1, e1, a1⟩ := h1 pre (w2 ++ suf) off hp hat
  rw [M.bind_apply, e1]
  dsimp only
  have e2 : pre ++ w1 ++ (w2 ++ suf) = (pre ++ w1) ++ w2 ++ suf := by simp
  rw [e2] at a1 ⊢
  obtain ⟨o2, e3, a2⟩ := h2 (pre ++ w1) suf o1 (by simp; omega) (by simpa using a1)
  refine ⟨o2, e3, ?_⟩
  simp only [List.length_append] at a2 ⊢
  rw [← Nat.add_assoc]
  exact a2

theorem Gets.map {β : Type} {m : M α} {a : α} {b c : Gap} {p : Nat} {w : List Bool} {k k1 : Option Int}
    (h : Gets m a b c p w k k1) (f : α → β) :
    Gets (m >>= fun x => Pure.pure (f x)) (f a) b c p w k k1 := by
  have := Gets.bind (f := fun x => (Pure.pure (f x) : M β)) h (Gets.pure (f a) c _ k1)
  simpa using this

theorem Gets.decFirst {β : Type} {d : M α} {d2 : α → M β} {a : α} {v : β} {b c : Gap} {p : Nat} {w : List Bool}
    {k k1 k2 : Option Int} (h1 : ∀ bits off, d ⟨bits, off, k⟩ = .ok a ⟨bits, off, k1⟩)
    (h2 : Gets (d2 a) v b c p w k1 k2) : Gets (d >>= d2) v b c p w k k2 := by
  intro pre suf off hp hat
  obtain ⟨o, e1, a1⟩ := h2 pre suf off hp hat
  refine ⟨o, ?_, a1⟩
  rw [M.bind_apply, h1]
  exact e1

theorem Gets.list {dec : M α} {f : α → Option Int → Option Int} {ok : α → Option Int → Prop}
    {course : α → Gap → Option Gap} {L : α → Nat → List Bool → Prop} :
    ∀ (l : List α) (b c : Gap) (k : Option Int) (p : Nat) (w : List Bool), courseAll course l b = some c →
      (∀ x ∈ l, ∀ b c k p w, course x b = some c → ok x k → L x p w → Gets dec x b c p w k (f x k)) →
      keysOkAll ok f l k → ListLayout L l p w →
      Gets (decodeTimes dec l.length) l b c p w k (keyAfterAll f l k)
  | [], b, c, k, p, w, ht, _, _, hl => by
    cases ht
    cases (show w = [] from hl)
    exact .pure [] _ p k
  | x :: xs, b, c, k, p, w, ht, h, hk, hl => by
    obtain ⟨d, h1, ht⟩ := Option.bind_eq_some_iff.mp ht
    obtain ⟨w1, w2, hl1, hl2, rfl⟩ := hl
    refine .bind (h x List.mem_cons_self b d k p w1 h1 hk.1 hl1) ?_
    exact .map (Gets.list xs d c (f x k) _ w2 ht (fun y hy => h y (List.mem_cons_of_mem _ hy)) hk.2 hl2) (x :: ·)

/-- An open type: the length is read and not used, the content is read where it stands, what fills its last
octet is left, and so is the octet that stands for no content. -/
theorem Gets.open {as : Alts} {v : as.Val} {c b : Gap} {k k' : Option Int} {key : Int} {content : List Bool}
    {p : Nat} {w : List Bool} (hk : k = some key) (hb : b ≠ .lost) (hn : content.length ≤ 8 * 16383)
    (hd : Gets (as.decode key) v .exact c 0 content k k') (hw : OpenLayout content p w) :
    Gets (decodeLength none none false >>= fun _ => requireKey >>= fun x => as.decode x) v b
      (if c = .lost ∨ content = [] then .lost else .padded) p w k k' := by
  have hnum : (if content = [] then List.replicate 8 false else content ++ alignment content.length).length / 8
      < 16384 := by
    split
    · simp
    · simp only [List.length_append, alignment, List.length_replicate]
      omega
  unfold OpenLayout at hw
  subst hw
  have hlen : ∀ n p, n < 16384 → Gets (decodeLength none none false) n b .exact p (generalLength p n) k k := by
    intro n p hn
    rw [← indefWord_eq]
    refine Gets.of (al := true) (decodeIndefinite_decodes hn _) ?_ (fun _ => AlignFirst.indefinite) k
    cases b with
    | exact => rfl
    | padded => rfl
    | lost => exact absurd rfl hb
  refine .bind (hlen _ p hnum) ?_
  have hend := indefWord_end p
  simp only [indefWord_eq] at hend
  have hend := hend ((if content = [] then List.replicate 8 false else content ++ alignment content.length).length / 8)
  revert hend
  generalize p + (generalLength p ((if content = [] then List.replicate 8 false
    else content ++ alignment content.length).length / 8)).length = q
  intro hend pre suf off hpre hat
  cases (show off = pre.length from hat)
  have hpre0 : pre.length % 8 = 0 := by omega
  rw [M.bind_apply]
  have hr : ∀ bits off, requireKey ⟨bits, off, k⟩ = .ok key ⟨bits, off, k⟩ := by
    intro bits off; unfold requireKey; rw [hk]
  rw [hr]
  dsimp only
  by_cases h0 : content = []
  · simp only [h0, if_true, or_true]
    subst h0
    obtain ⟨o, e1, -⟩ := hd pre (List.replicate 8 false ++ suf) pre.length (by simpa using hpre0) rfl
    have e : pre ++ List.replicate 8 false ++ suf = pre ++ [] ++ (List.replicate 8 false ++ suf) := by simp
    rw [e]
    exact ⟨o, e1, trivial⟩
  · simp only [h0, if_false, or_false]
    rw [alignment_eq]
    have e : pre ++ (content ++ pad content.length) ++ suf = pre ++ content ++ (pad content.length ++ suf) := by simp
    rw [e]
    obtain ⟨o, e1, a1⟩ := hd pre (pad content.length ++ suf) pre.length (by simpa using hpre0) rfl
    refine ⟨o, e1, ?_⟩
    have hpl := padLen_add content.length
    have hpl2 := padLen_lt content.length
    have hpos : 0 < content.length := List.length_pos_iff.mpr h0
    have hpad : o = pre.length + content.length → Gap.At .padded (pre ++ content ++ (pad content.length ++ suf)) o
        (pre.length + (content ++ pad content.length).length) := by
      intro a1
      refine .inr ⟨rfl, ?_, ?_, ?_, ?_, fun i h1 h2 => ?_⟩
      · simp only [List.length_append, pad_length]; omega
      · simp only [List.length_append, pad_length]; omega
      · simp only [List.length_append, pad_length]; omega
      · simp only [List.length_append, pad_length]; omega
      · simp only [List.length_append, pad_length] at h1 h2
        rw [List.getElem?_append_right (by simp; omega),
          List.getElem?_append_left (by simp; omega)]
        unfold pad
        rw [List.getElem?_replicate, if_pos]
        simp only [List.length_append]; omega
    cases c with
    | lost => simp only [if_true]; trivial
    | exact => simp only [reduceCtorEq, if_false]; exact hpad a1
    | padded =>
      simp only [reduceCtorEq, if_false]
      rcases a1 with a1 | ⟨a1, a2, a3⟩
      · exact hpad a1
      · have hz : content.length % 8 = 0 := by omega
        rw [pad_zero hz, List.append_nil, List.nil_append] at *
        exact .inr ⟨rfl, a2, a3⟩

/-! ## What takes bits -/

theorem constrainedWord_ne {p R x : Nat} {w : List Bool} (h : ConstrainedWord p R x w) (hR : 2 ≤ R) : w ≠ [] := by
  unfold ConstrainedWord at h
  intro e
  subst e
  split at h
  · obtain ⟨b, hb, he⟩ := h
    have : b = 0 := by
      have := congrArg List.length he
      simpa [be] using this.symm
    subst this
    have := hb.1
    omega
  · split at h
    · simp [be, List.range_succ] at h
    · split at h
      · simp [be, List.range_succ] at h
      · obtain ⟨L, k, b, -, hk, -, he⟩ := h
        have := congrArg List.length he
        simp [be] at this
        have := hk.1
        omega

theorem generalLength_ne (p n : Nat) : generalLength p n ≠ [] := by
  intro h
  unfold generalLength at h
  have := congrArg List.length h
  simp only [List.length_append, List.length_nil] at this
  split at this <;> simp at this

theorem extRoot_ne {ext : Bool} {x : List Bool} (h : ext = true) : extRoot ext ++ x ≠ [] := by
  subst h; simp [extRoot]

theorem IntLayout.ne {wd : Width} {lb ub : Option Int} {ext : Bool} {v : Int} {p : Nat} {w : List Bool}
    (hl : IntLegible wd lb ub v) (h : IntLayout lb ub ext v p w) (hs : (ext || intSolid lb ub) = true) : w ≠ [] := by
  obtain ⟨x, rfl, hx⟩ := h
  rw [Bool.or_eq_true] at hs
  rcases hs with hs | hs
  · exact extRoot_ne hs
  · refine List.append_ne_nil_of_right_ne_nil _ ?_
    cases lb with
    | none =>
      obtain ⟨k, -, rfl⟩ := hx
      exact List.append_ne_nil_of_left_ne_nil (generalLength_ne _ _) _
    | some l =>
      cases ub with
      | none =>
        obtain ⟨k, -, rfl⟩ := hx
        exact List.append_ne_nil_of_left_ne_nil (generalLength_ne _ _) _
      | some u =>
        simp only [intSolid, ne_eq, decide_eq_true_eq] at hs
        have h1 : l ≤ v ∧ v ≤ u := ⟨hl.2.1, hl.2.2.1⟩
        exact constrainedWord_ne hx (by omega)

theorem LengthWord.ne {lb ub : Option Int} {p n : Nat} {w : List Bool} (hb : SizeBounds lb ub) (hw : Within lb ub n)
    (h : LengthWord (lb.getD 0).toNat (ub.map Int.toNat) p n w) (hs : lengthSolid lb ub = true) : w ≠ [] := by
  unfold LengthWord at h
  cases ub with
  | none => dsimp only [Option.map_none] at h; rw [h]; exact generalLength_ne _ _
  | some u =>
    dsimp only [Option.map_some] at h
    have h0 := (hb.2 u rfl).1
    simp only [lengthSolid, Bool.or_eq_true, decide_eq_true_eq] at hs
    split at h
    · refine constrainedWord_ne h ?_
      have h2 := hw.2 u rfl
      cases lb with
      | none => simp only [Option.getD_none] at *; omega
      | some l =>
        have := (hb.1 l rfl).1
        have := hw.1 l rfl
        simp only [Option.getD_some] at *; omega
    · rw [h]; exact generalLength_ne _ _

theorem StringLayout.ne {short : Int} {lb ub : Option Int} {ext : Bool} {n p : Nat} {c w : List Bool}
    (hb : SizeBounds lb ub) (hw : Within lb ub n) (hc : c = [] → n = 0) (h : StringLayout short lb ub ext n c p w)
    (hs : (ext || stringSolid lb ub) = true) : w ≠ [] := by
  rw [Bool.or_eq_true] at hs
  rcases h with ⟨k, rfl, rfl, hk, rfl⟩ | ⟨hf, l, hl, rfl⟩
  · rcases hs with hs | hs
    · exact extRoot_ne hs
    · refine List.append_ne_nil_of_right_ne_nil _ ?_
      simp only [stringSolid, lengthSolid, Option.getD_some, ne_eq, not_true, decide_false, Bool.or_false,
        Bool.or_eq_true, decide_eq_true_eq, Option.some.injEq] at hs
      have h1 := hw.1 k rfl
      have h2 := hw.2 k rfl
      have hne : c ≠ [] := fun e => by have := hc e; omega
      split
      · exact hne
      · exact List.append_ne_nil_of_right_ne_nil _ hne
  · rw [List.append_assoc]
    rcases hs with hs | hs
    · exact extRoot_ne hs
    · refine List.append_ne_nil_of_right_ne_nil _ (List.append_ne_nil_of_left_ne_nil ?_ _)
      refine LengthWord.ne hb hw hl ?_
      rw [stringSolid, Bool.or_eq_true] at hs
      rcases hs with hs | hs
      · exact hs
      · simp only [decide_eq_true_eq] at hs
        apply Decidable.byContradiction
        intro hn
        apply hf
        unfold lengthSolid at hn
        cases ub with
        | none => simp at hn
        | some u =>
          simp only [Bool.or_eq_true, decide_eq_true_eq, not_or, Decidable.not_not] at hn
          cases lb with
          | none => simp only [Option.getD_none] at hn; exact absurd (by rw [← hn.2]) hs
          | some l => simp only [Option.getD_some] at hn; exact ⟨u, by rw [hn.2], rfl, by omega⟩

theorem CharLayout.ne {lb ub : Option Int} {ext : Bool} {n p : Nat} {c w : List Bool}
    (hb : SizeBounds lb ub) (hw : Within lb ub n) (hc : c = [] → n = 0) (h : CharLayout lb ub ext n c p w)
    (hs : (ext || stringSolid lb ub) = true) : w ≠ [] := by
  rcases h with h | ⟨hf, l, hl, rfl⟩
  · exact StringLayout.ne hb hw hc (.inl h) hs
  · have := StringLayout.ne (short := 2) (c := c) hb hw hc (.inr ⟨hf, l, hl, rfl⟩) hs
    intro e
    obtain ⟨e1, e2⟩ := List.append_eq_nil_iff.mp e
    refine this (List.append_eq_nil_iff.mpr ⟨e1, ?_⟩)
    split at e2
    · rw [if_pos (hc e2)]
    · rw [List.append_eq_nil_iff] at e2
      rw [if_pos (hc e2.2)]

theorem octetBits_nil {l : List UInt8} (h : octetBits l = []) : l.length = 0 := by
  rw [octetBits_eq] at h
  have := congrArg List.length h
  rw [bytesBits_length] at this
  simp only [List.length_nil] at this
  omega

mutual

theorem Ty.layout_ne : (t : Ty) → t.writes = true → (v : t.Val) → t.Legible v → (p : Nat) → (w : List Bool) →
    t.Layout v p w → w ≠ []
  | .boolean, _, v, _, p, w, hl => by cases (show w = [v] from hl); exact List.cons_ne_nil _ _
  | .null, h, _, _, _, _, _ => nomatch h
  | .integer .., h, v, hv, p, w, hl => IntLayout.ne hv hl h
  | .enumerated .., h, v, hv, p, w, hl => IntLayout.ne hv hl h
  | .bitstring .., h, v, hv, p, w, hl =>
    StringLayout.ne hv.1.1 hv.2.1 (fun e => by rw [e]; rfl) hl h
  | .octetstring .., h, v, hv, p, w, hl =>
    StringLayout.ne hv.1.1 hv.2.1 octetBits_nil hl h
  | .charstring k lb ub ext, h, v, hv, p, w, hl => by
    cases k with
    | utf8 =>
      cases (show w = _ from hl)
      exact List.append_ne_nil_of_left_ne_nil (generalLength_ne _ _) _
    | printable => exact CharLayout.ne hv.2.1.1 hv.2.2.2.1 octetBits_nil hl h
    | visible => exact CharLayout.ne hv.2.1.1 hv.2.2.2.1 octetBits_nil hl h
  | .objectIdentifier, _, _, hv, _, _, _ => hv.elim
  | .sequence ext n fs, h, v, hv, p, w, hl => by
    obtain ⟨body, hb, rfl⟩ := hl
    simp only [Ty.writes, Bool.or_eq_true, decide_eq_true_eq] at h
    rw [List.append_assoc]
    rcases h with (h | h) | h
    · exact extRoot_ne h
    · refine List.append_ne_nil_of_right_ne_nil _ (List.append_ne_nil_of_left_ne_nil ?_ _)
      have hlen : (fs.presenceBits v).length = n :=
        (mark_range fs v 0 n [] rfl (by rw [hv.1, List.range_eq_range'])).2
      intro e
      rw [e] at hlen
      simp at hlen
      omega
    · exact List.append_ne_nil_of_right_ne_nil _ (List.append_ne_nil_of_right_ne_nil _
        (Fields.layout_ne fs h v hv.2 _ body hb))
  | .sequenceOf lb ub ext e, h, v, hv, p, w, hl => by
    obtain ⟨l, body, -, hb, rfl⟩ := hl
    simp only [Ty.writes, Bool.and_eq_true] at h
    refine List.append_ne_nil_of_right_ne_nil _ ?_
    change List e.Val at v
    cases v with
    | nil => exact absurd rfl hv.2.1
    | cons x xs =>
      obtain ⟨a, b, ha, -, rfl⟩ := hb
      exact List.append_ne_nil_of_left_ne_nil (Ty.layout_ne e h.2 x (hv.2.2.2 x List.mem_cons_self) _ a ha) _
  | .choice lb ub ext as, h, v, hv, p, w, hl => by
    obtain ⟨-, i, body, hi, hb, rfl⟩ := hl
    simp only [Ty.writes, Bool.or_eq_true, decide_eq_true_eq] at h
    rw [List.append_assoc]
    rcases h with (h | h) | h
    · exact extRoot_ne h
    · refine List.append_ne_nil_of_right_ne_nil _ (List.append_ne_nil_of_left_ne_nil ?_ _)
      have h1 := hv.2.2.1
      have h2 := hv.2.2.2.1
      exact constrainedWord_ne hi (by omega)
    · exact List.append_ne_nil_of_right_ne_nil _ (List.append_ne_nil_of_right_ne_nil _
        (Alts.layout_ne as h v hv.2.2.2.2.2 _ body hb))
  | .openType as, _, v, _, p, w, hl => by
    obtain ⟨content, -, hw⟩ := hl
    unfold OpenLayout at hw
    subst hw
    exact List.append_ne_nil_of_left_ne_nil (generalLength_ne _ _) _

theorem Fields.layout_ne : (fs : Fields) → fs.writes = true → (v : fs.Val) → fs.Legible v → (p : Nat) →
    (w : List Bool) → fs.Layout v p w → w ≠ []
  | .nil, h, _, _, _, _, _ => nomatch h
  | .required _ t rest, h, v, hv, p, w, hl => by
    obtain ⟨a, b, ha, hb, rfl⟩ := hl
    simp only [Fields.writes, Bool.or_eq_true] at h
    rcases h with h | h
    · exact List.append_ne_nil_of_left_ne_nil (Ty.layout_ne t h v.1 hv.1 _ a ha) _
    · exact List.append_ne_nil_of_right_ne_nil _ (Fields.layout_ne rest h v.2 hv.2 _ b hb)
  | .optional _ t rest, h, v, hv, p, w, hl => by
    obtain ⟨a, b, ha, hb, rfl⟩ := hl
    exact List.append_ne_nil_of_right_ne_nil _ (Fields.layout_ne rest h v.2 hv.2 _ b hb)

theorem Alts.layout_ne : (as : Alts) → as.writes = true → (v : as.Val) → as.Legible v → (p : Nat) →
    (w : List Bool) → as.Layout v p w → w ≠ []
  | .cons _ _ t _, h, .inl v, hv, p, w, hl => by
    simp only [Alts.writes, Bool.and_eq_true] at h
    exact Ty.layout_ne t h.1 v hv p w hl
  | .cons _ _ _ rest, h, .inr v, hv, p, w, hl => by
    simp only [Alts.writes, Bool.and_eq_true] at h
    exact Alts.layout_ne rest h.2 v hv p w hl

end

theorem Alts.takesBits_ne : (as : Alts) → (v : as.Val) → as.takesBits v = true → as.Legible v → (p : Nat) →
    (w : List Bool) → as.Layout v p w → w ≠ []
  | .cons _ _ t _, .inl v, h, hv, p, w, hl => Ty.layout_ne t h v hv p w hl
  | .cons _ _ _ rest, .inr v, h, hv, p, w, hl => Alts.takesBits_ne rest v h hv p w hl

/-! ## The derived decoders -/

mutual

theorem Ty.legible : (t : Ty) → (v : t.Val) → (g h : Gap) → (k : Option Int) → (p : Nat) → (w : List Bool) →
    t.course v g = some h → t.Legible v → t.KeysOk v k → t.Layout v p w →
    Gets t.decode v g h p w k (t.keyAfter v k)
  | .boolean, v, g, h, k, p, w, hf, _, _, hl => by
    cases (show w = [v] from hl)
    exact Gets.of (al := false) (.boolM p v) hf (fun h => nomatch h) k
  | .null, v, g, h, k, p, w, hf, _, _, hl => by
    cases hf
    cases (show w = [] from hl)
    exact Gets.pure v _ p k
  | .integer wd lb ub ext, v, g, h, k, p, w, hf, hv, _, hl => by
    have h1 : Gets (decodeInteger lb ub ext) (v, false) g h p w k k := by
      refine Gets.of (decodeInteger_prescribed hv hl) hf (fun h => ?_) k
      simp only [Bool.and_eq_true, Bool.not_eq_true'] at h
      obtain ⟨rfl, h2⟩ := h
      exact .integer h2
    have h2 := h1.map (fun d => wd.cast d.1)
    rw [show wd.cast (v, false).1 = v from Width.cast_of_fits hv.1] at h2
    exact h2
  | .enumerated wd lb ub ext, v, g, h, k, p, w, hf, hv, _, hl => by
    have h1 : Gets (decodeEnumerated lb ub ext) (v, false) g h p w k k := by
      refine Gets.of (decodeEnumerated_prescribed hv hl) hf (fun h => ?_) k
      simp only [Bool.and_eq_true, Bool.not_eq_true'] at h
      obtain ⟨rfl, h2⟩ := h
      exact .enumerated h2
    have h2 := h1.map (fun d => wd.cast d.1)
    rw [show wd.cast (v, false).1 = v from Width.cast_of_fits hv.1] at h2
    exact h2
  | .bitstring lb ub ext, v, g, h, k, p, w, hf, hv, _, hl => by
    refine Gets.of (decodeBitstring_prescribed hv hl) hf (fun h => ?_) k
    rw [Bool.and_eq_true, Bool.not_eq_true'] at h
    obtain ⟨rfl, h2⟩ := h
    exact .bitstring hv.1.1 h2
  | .octetstring lb ub ext, v, g, h, k, p, w, hf, hv, _, hl => by
    refine Gets.of (decodeOctetstring_prescribed hv hl) hf (fun h => ?_) k
    rw [Bool.and_eq_true, Bool.not_eq_true'] at h
    obtain ⟨rfl, h2⟩ := h
    exact .octetstring hv.1.1 h2
  | .charstring kind lb ub ext, v, g, h, k, p, w, hf, hv, _, hl => by
    have h1 : Gets (decodeString lb ub ext) v g h p w k k := by
      refine Gets.of (decodeString_prescribed hv hl) hf (fun h => ?_) k
      rw [Bool.and_eq_true, Bool.not_eq_true'] at h
      obtain ⟨rfl, h2⟩ := h
      exact .string hv.2.1.1 h2
    cases kind <;> exact h1
  | .objectIdentifier, _, _, _, _, _, _, _, hv, _, _ => hv.elim
  | .sequence ext n fs, v, g, h, k, p, w, hf, hv, hk, hl => by
    obtain ⟨d, hd, hf⟩ := Option.bind_eq_some_iff.mp hf
    obtain ⟨body, hbd, rfl⟩ := hl
    have hmk : fs.Marked v (fs.presenceBits v) :=
      presenceBits_marked fs v 0 n [] rfl (by rw [hv.1, List.range_eq_range'])
    have hh : Gets (decodeSequenceHeader ext n) (fs.presenceBits v, false) g d p
        (extRoot ext ++ fs.presenceBits v) k k := by
      split at hd
      · exact Gets.of (al := false) (decodeHeader_prescribed hv.1 ext p) hd (fun h => nomatch h) k
      · next hc =>
        cases hd
        simp only [Bool.or_eq_true, decide_eq_true_eq, not_or, Bool.not_eq_true] at hc
        obtain ⟨rfl, hn⟩ := hc
        have hn : n = 0 := by omega
        subst hn
        have hlen : (fs.presenceBits v).length = 0 :=
          (mark_range fs v 0 0 [] rfl (by rw [hv.1, List.range_eq_range'])).2
        have hbm : fs.presenceBits v = [] := List.length_eq_zero_iff.mp hlen
        rw [hbm]
        intro pre suf off hp hat
        exact ⟨off, rfl, by simpa [extRoot] using hat⟩
    refine .bind hh (Fields.legible fs v (fs.presenceBits v) d h k _ body hf hv.2 hk hmk ?_)
    rw [List.length_append, ← Nat.add_assoc]
    exact hbd
  | .sequenceOf lb ub ext e, v, g, h, k, p, w, hf, hv, hk, hl => by
    obtain ⟨rfl, hne, hsz, hel⟩ := hv
    obtain ⟨d, hd, hf⟩ := Option.bind_eq_some_iff.mp hf
    obtain ⟨l, body, h1, h2, rfl⟩ := hl
    simp only [extRoot, Bool.false_eq_true, if_false, List.length_nil, Nat.add_zero, List.nil_append] at h1 h2 ⊢
    have hpos : 1 ≤ List.length v := by
      cases v with
      | nil => exact absurd rfl hne
      | cons x xs => simp
    refine .bind (Gets.of (decodeLength_prescribed hsz h1) hd (fun h => ?_) k) ?_
    · rw [Bool.and_eq_true] at h
      exact .length hsz.1 h.2
    · unfold decodeLoop
      rw [if_neg (by omega)]
      exact Gets.list (course := e.course) (ok := fun x k => e.KeysOk x k) (L := e.Layout) v d h k _ body hf
        (fun x hx b c k p w hf' hk' hl' => Ty.legible e x b c k p w hf' (hel x hx) hk' hl') hk h2
  | .choice lb ub ext as, v, g, h, k, p, w, hf, hv, hk, hl => by
    obtain ⟨d, hd, hf⟩ := Option.bind_eq_some_iff.mp hf
    obtain ⟨hsel, hi, h1, h2, h3, hv⟩ := hv
    obtain ⟨-, i, body, hiw, hbd, rfl⟩ := hl
    have hr : Gets (decodeChoiceIdx lb ub ext) (as.keyOf v, false) g d p (extRoot ext ++ i) k k := by
      refine Gets.of (decodeChoiceIdx_prescribed hi h1 h2 h3 hiw) hd (fun h => ?_) k
      rw [Bool.and_eq_true, Bool.not_eq_true'] at h
      obtain ⟨rfl, h4⟩ := h
      exact .choiceIdx h4
    refine .bind hr (Alts.legible as v (as.keyOf v) d h k _ body hf hv hk hsel ?_)
    rw [List.length_append, ← Nat.add_assoc]
    exact hbd
  | .openType as, v, g, h, k, p, w, hf, hv, hk, hl => by
    obtain ⟨d, hd, rfl⟩ := Option.map_eq_some_iff.mp hf
    obtain ⟨e, he, hd⟩ := Option.bind_eq_some_iff.mp hd
    obtain ⟨⟨key, rfl, hsel⟩, hk⟩ := hk
    obtain ⟨content, hc, hw⟩ := hl
    have hg : g ≠ .lost ∧ e = .exact := by
      cases g with
      | exact => cases he; exact ⟨by simp, rfl⟩
      | padded => cases he; exact ⟨by simp, rfl⟩
      | lost => cases he
    obtain ⟨hg, rfl⟩ := hg
    have := Gets.open (b := g) rfl hg (hv.2 content hc)
      (Alts.legible as v key .exact d _ 0 content hd hv.1 hk hsel hc) hw
    intro pre suf off hp hat
    obtain ⟨o, e1, a1⟩ := this pre suf off hp hat
    refine ⟨o, e1, ?_⟩
    by_cases hs : as.takesBits v = true
    · have := Alts.takesBits_ne as v hs hv.1 0 content hc
      simpa [this, hs] using a1
    · rw [if_pos (.inr (by simpa using hs))]
      trivial

theorem Fields.legible : (fs : Fields) → (v : fs.Val) → (bm : List Bool) → (g h : Gap) →
    (k : Option Int) → (p : Nat) → (w : List Bool) → fs.course v g = some h → fs.Legible v → fs.KeysOk v k →
    fs.Marked v bm → fs.Layout v p w → Gets (fs.decode bm) v g h p w k (fs.keyAfter v k)
  | .nil, v, bm, g, h, k, p, w, hf, _, _, _, hl => by
    cases hf
    cases (show w = [] from hl)
    exact Gets.pure v _ p k
  | .required kf t rest, v, bm, g, h, k, p, w, hf, hv, hk, hm, hl => by
    obtain ⟨d, hd, hf⟩ := Option.bind_eq_some_iff.mp hf
    obtain ⟨w1, w2, hl1, hl2, rfl⟩ := hl
    refine .bind (Ty.legible t v.1 g d k p w1 hd hv.1 hk.1 hl1) ?_
    refine .decFirst (fun bits off => setKeyFrom_run kf t v.1 bits off _) ?_
    exact .map (Fields.legible rest v.2 bm d h _ _ w2 hf hv.2 hk.2 hm hl2) fun vs => (v.1, vs)
  | .optional i t rest, (some x, vs), bm, g, h, k, p, w, hf, hv, hk, hm, hl => by
    obtain ⟨d, hd, hf⟩ := Option.bind_eq_some_iff.mp hf
    obtain ⟨w1, w2, hl1, hl2, rfl⟩ := hl
    have hpr : ∀ bits off, present bm i ⟨bits, off, k⟩ = .ok true ⟨bits, off, k⟩ := by
      intro bits off
      unfold present
      rw [hm.1]
      rfl
    refine .decFirst hpr ?_
    refine .bind (a := some x) (c := d) (k1 := t.keyAfter x k) ?_ ?_
    · exact Gets.map (Ty.legible t x g d k p w1 hd hv.1 hk.1 hl1) some
    · exact .map (Fields.legible rest vs bm d h _ _ w2 hf hv.2 hk.2 hm.2 hl2) fun vs => (some x, vs)
  | .optional i t rest, (none, vs), bm, g, h, k, p, w, hf, hv, hk, hm, hl => by
    obtain ⟨w1, w2, hl1, hl2, rfl⟩ := hl
    cases (show w1 = [] from hl1)
    have hpr : ∀ bits off, present bm i ⟨bits, off, k⟩ = .ok false ⟨bits, off, k⟩ := by
      intro bits off
      unfold present
      rw [hm.1]
      rfl
    refine .decFirst hpr ?_
    refine .bind (a := none) (c := g) (k1 := k) (Gets.pure none g p k) ?_
    exact .map (Fields.legible rest vs bm g h _ _ w2 hf hv.2 hk.2 hm.2 hl2) fun vs => (none, vs)

theorem Alts.legible : (as : Alts) → (v : as.Val) → (key : Int) → (g h : Gap) → (k : Option Int) → (p : Nat) →
    (w : List Bool) → as.course v g = some h → as.Legible v → as.KeysOk v k → as.Selects key v →
    as.Layout v p w → Gets (as.decode key) v g h p w k (as.keyAfter v k)
  | .cons k0 x t rest, .inl v, key, g, h, k, p, w, hf, hv, hk, hs, hl => by
    have hs : key = k0 := hs
    subst hs
    show Gets (if key = key then _ else _) _ _ _ _ _ _ _
    rw [if_pos rfl]
    exact Gets.map (Ty.legible t v g h k p w hf hv hk hl) Sum.inl
  | .cons k0 x t rest, .inr v, key, g, h, k, p, w, hf, hv, hk, hs, hl => by
    obtain ⟨hne, hs⟩ := (show key ≠ k0 ∧ rest.Selects key v from hs)
    show Gets (if key = k0 then _ else _) _ _ _ _ _ _ _
    rw [if_neg hne]
    exact Gets.map (Alts.legible rest v key g h k p w hf hv hk hs hl) Sum.inr

end

/-! ## The check of a type covers its values -/

/-- The gap is at most one of padding, and that only if `b`. -/
def Gap.Under : Gap → Bool → Prop
  | .exact, _ => True
  | .padded, b => b = true
  | .lost, _ => False

theorem Gap.Under.mono {g : Gap} {b c : Bool} (h : g.Under b) (hb : b = true → c = true) : g.Under c := by
  cases g with
  | exact => trivial
  | padded => exact hb h
  | lost => exact h

theorem Gap.Under.leaf {g : Gap} {al b c : Bool} (hg : g.Under b) (h : flowLeaf al b = some c) :
    ∃ h, g.leaf al = some h ∧ h.Under c := by
  cases g with
  | exact => exact ⟨.exact, rfl, trivial⟩
  | padded =>
    have hb : b = true := hg
    subst hb
    cases al with
    | true => exact ⟨.exact, rfl, trivial⟩
    | false => cases h
  | lost => exact hg.elim

theorem flowMany_course {course : α → Gap → Option Gap} {flow : Bool → Option Bool} {b c : Bool} {g : Gap} :
    ∀ {l : List α}, l ≠ [] → flowMany flow b = some c → g.Under b →
      (∀ x ∈ l, ∀ b c g, flow b = some c → g.Under b → ∃ h, course x g = some h ∧ h.Under c) →
      ∃ h, courseAll course l g = some h ∧ h.Under c := by
  intro l hl hf hb h
  -- once the elements run from `true` to at most `d`
  have run : ∀ (d : Bool), flow true = some d → ∀ (l : List α) (g : Gap), g.Under true →
      (∀ x ∈ l, ∀ b c g, flow b = some c → g.Under b → ∃ h, course x g = some h ∧ h.Under c) →
      ∃ h, courseAll course l g = some h ∧ h.Under true ∧ (l ≠ [] → h.Under d) := by
    intro d hd l
    induction l with
    | nil => intro g hg _; exact ⟨g, rfl, hg, fun h => absurd rfl h⟩
    | cons x xs ih =>
      intro g hg hx
      obtain ⟨c1, e1, h1⟩ := hx x List.mem_cons_self true d g hd hg
      obtain ⟨c2, e2, h2, h3⟩ := ih c1 (h1.mono fun _ => rfl) fun y hy => hx y (List.mem_cons_of_mem _ hy)
      refine ⟨c2, by simp only [courseAll, e1, Option.bind_some, e2], h2, fun _ => ?_⟩
      cases xs with
      | nil => cases e2; exact h1
      | cons y ys => exact h3 (by simp)
  unfold flowMany at hf
  cases h1 : flow b with
  | none => rw [h1] at hf; cases hf
  | some d =>
    rw [h1] at hf
    dsimp only at hf
    cases b with
    | true =>
      simp only [Bool.true_or, if_true, Option.some.injEq] at hf
      subst hf
      obtain ⟨c', e, -, hc⟩ := run d h1 l g hb h
      exact ⟨c', e, hc hl⟩
    | false =>
      have hb' : g = .exact := by
        cases g with
        | exact => rfl
        | padded => cases hb
        | lost => exact hb.elim
      subst hb'
      cases d with
      | false =>
        simp only [Bool.not_false, Bool.or_true, if_true, Option.some.injEq] at hf
        subst hf
        clear hl
        refine ⟨.exact, ?_, trivial⟩
        induction l with
        | nil => rfl
        | cons x xs ih =>
          obtain ⟨c1, e1, hc1⟩ := h x List.mem_cons_self false false .exact h1 trivial
          have : c1 = .exact := by
            cases c1 with
            | exact => rfl
            | padded => cases hc1
            | lost => exact hc1.elim
          subst this
          simp only [courseAll, e1, Option.bind_some]
          exact ih fun y hy => h y (List.mem_cons_of_mem _ hy)
      | true =>
        simp only [Bool.not_true, Bool.or_false, Bool.false_eq_true, if_false] at hf
        cases h2 : flow true with
        | none => rw [h2] at hf; cases hf
        | some e =>
          rw [h2] at hf
          cases hf
          obtain ⟨c', e', hc', -⟩ := run e h2 l .exact trivial h
          exact ⟨c', e', hc'⟩

theorem Alts.sendable_takesBits : (as : Alts) → as.sendable [] true = true → (v : as.Val) → as.takesBits v = true
  | .cons k _ t _, hs, .inl v => by
      simp only [Alts.sendable, Bool.and_eq_true, Bool.or_eq_true] at hs
      rcases hs.1.1.2 with (h | h) | h
      · cases h
      · cases h
      · exact h
  | .cons _ _ _ rest, hs, .inr v => by
      simp only [Alts.sendable, Bool.and_eq_true] at hs
      exact Alts.sendable_takesBits rest hs.2 v

mutual

theorem Ty.flow_course : (t : Ty) → t.sendable [] = true → (v : t.Val) → (b c : Bool) → (g : Gap) →
    t.flow b = some c → t.Legible v → g.Under b → ∃ h, t.course v g = some h ∧ h.Under c
  | .boolean, _, _, b, c, g, h, _, hb => hb.leaf h
  | .null, _, _, b, c, g, h, _, hb => by
    cases h
    exact ⟨g, rfl, hb⟩
  | .integer .., _, _, b, c, g, h, _, hb => hb.leaf h
  | .enumerated .., _, _, b, c, g, h, _, hb => hb.leaf h
  | .bitstring .., _, _, b, c, g, h, _, hb => hb.leaf h
  | .octetstring .., _, _, b, c, g, h, _, hb => hb.leaf h
  | .charstring .., _, _, b, c, g, h, _, hb => hb.leaf h
  | .objectIdentifier, _, _, b, c, g, h, hw, hb => hw.elim
  | .sequence ext n fs, hs, v, b, c, g, h, hw, hb => by
    simp only [Ty.flow] at h
    simp only [Ty.course]
    split at h
    · cases h
    · next hc =>
      split
      · next he =>
        rw [he, Bool.true_and, Bool.not_eq_true] at hc
        subst hc
        obtain ⟨d, hd, hu⟩ := hb.leaf (al := false) (c := false) rfl
        rw [hd]
        exact Fields.flow_course fs n hs v false c d h hw.2 hu
      · exact Fields.flow_course fs n hs v b c g h hw.2 hb
  | .sequenceOf lb ub ext e, hs, v, b, c, g, h, hw, hb => by
    simp only [Ty.sendable, Bool.and_eq_true] at hs
    simp only [Ty.flow] at h
    cases hl : flowLeaf (!ext && lengthAligns lb ub) b with
    | none => rw [hl] at h; cases h
    | some d =>
      rw [hl] at h
      obtain ⟨d', e1, hd⟩ := hb.leaf hl
      simp only [Ty.course, e1, Option.bind_some]
      exact flowMany_course hw.2.1 h hd fun x hx b c g hf hb' =>
        Ty.flow_course e hs.2 x b c g hf (hw.2.2.2 x hx) hb'
  | .choice lb ub ext as, hs, v, b, c, g, h, hw, hb => by
    simp only [Ty.sendable, Bool.and_eq_true] at hs
    simp only [Ty.flow] at h
    cases hl : flowLeaf (!ext && intAligns (some lb) (some ub)) b with
    | none => rw [hl] at h; cases h
    | some d =>
      rw [hl] at h
      obtain ⟨d', e1, hd⟩ := hb.leaf hl
      simp only [Ty.course, e1, Option.bind_some]
      exact Alts.flow_course as false hs.2 v d c d' h hw.2.2.2.2.2 hd
  | .openType as, hs, v, b, c, g, h, hw, hb => by
    simp only [Ty.flow] at h
    cases hl : as.flow false with
    | none => rw [hl] at h; cases h
    | some d =>
      rw [hl] at h
      cases h
      have he : g.leaf true = some .exact := by
        cases g with
        | exact => rfl
        | padded => rfl
        | lost => exact hb.elim
      obtain ⟨d', e1, hu⟩ := Alts.flow_course as true hs v false d .exact hl hw.1 trivial
      refine ⟨.padded, ?_, rfl⟩
      simp only [Ty.course, he, Option.bind_some, e1, Option.map_some, Alts.sendable_takesBits as hs v]
      rw [if_neg]
      rintro (h | h)
      · subst h; exact hu.elim
      · cases h

theorem Fields.flow_course : (fs : Fields) → (n : Nat) → fs.sendable [] n = true → (v : fs.Val) → (b c : Bool) →
    (g : Gap) → fs.flow b = some c → fs.Legible v → g.Under b → ∃ h, fs.course v g = some h ∧ h.Under c
  | .nil, _, _, _, b, c, g, h, _, hb => by
    cases h
    exact ⟨g, rfl, hb⟩
  | .required kf t rest, n, hs, v, b, c, g, h, hw, hb => by
    simp only [Fields.sendable, Bool.and_eq_true] at hs
    simp only [Fields.flow] at h
    cases h1 : t.flow b with
    | none => rw [h1] at h; cases h
    | some d =>
      rw [h1] at h
      obtain ⟨d', e1, hd⟩ := Ty.flow_course t hs.1 v.1 b d g h1 hw.1 hb
      simp only [Fields.course, e1, Option.bind_some]
      exact Fields.flow_course rest n hs.2 v.2 d c d' h hw.2 hd
  | .optional i t rest, n, hs, (some x, vs), b, c, g, h, hw, hb => by
    simp only [Fields.sendable, Bool.and_eq_true] at hs
    simp only [Fields.flow] at h
    cases h1 : t.flow b with
    | none => rw [h1] at h; cases h
    | some d =>
      rw [h1] at h
      obtain ⟨d', e1, hd⟩ := Ty.flow_course t hs.1.2 x b d g h1 hw.1 hb
      simp only [Fields.course, e1, Option.bind_some]
      exact Fields.flow_course rest n hs.2 vs (b || d) c d' h hw.2 (hd.mono fun hh => by simp [hh])
  | .optional i t rest, n, hs, (none, vs), b, c, g, h, hw, hb => by
    simp only [Fields.sendable, Bool.and_eq_true] at hs
    simp only [Fields.flow] at h
    cases h1 : t.flow b with
    | none => rw [h1] at h; cases h
    | some d =>
      rw [h1] at h
      simp only [Fields.course]
      exact Fields.flow_course rest n hs.2 vs (b || d) c g h hw.2 (hb.mono fun hh => by simp [hh])

theorem Alts.flow_course : (as : Alts) → (o : Bool) → as.sendable [] o = true → (v : as.Val) → (b c : Bool) →
    (g : Gap) → as.flow b = some c → as.Legible v → g.Under b → ∃ h, as.course v g = some h ∧ h.Under c
  | .cons k x t rest, o, hs, .inl v, b, c, g, h, hw, hb => by
    simp only [Alts.sendable, Bool.and_eq_true] at hs
    simp only [Alts.flow] at h
    cases h1 : t.flow b with
    | none => rw [h1] at h; cases h
    | some d =>
      rw [h1] at h
      cases h2 : rest.flow b with
      | none => rw [h2] at h; cases h
      | some d2 =>
        rw [h2] at h
        cases h
        obtain ⟨d', e1, hd⟩ := Ty.flow_course t hs.1.2 v b d g h1 hw hb
        exact ⟨d', e1, hd.mono fun hh => by simp [hh]⟩
  | .cons k x t rest, o, hs, .inr v, b, c, g, h, hw, hb => by
    simp only [Alts.sendable, Bool.and_eq_true] at hs
    simp only [Alts.flow] at h
    cases h1 : t.flow b with
    | none => rw [h1] at h; cases h
    | some d =>
      rw [h1] at h
      cases h2 : rest.flow b with
      | none => rw [h2] at h; cases h
      | some d2 =>
        rw [h2] at h
        cases h
        obtain ⟨d', e1, hd⟩ := Alts.flow_course rest o hs.2 v b d2 g h2 hw hb
        exact ⟨d', e1, hd.mono fun hh => by simp [hh]⟩

end

end Hampi
