import Verif.Lemmas.Canonical
/-!
# C107: one message for each value
-/
namespace Hampi

open Spec (SizeBounds Within)

variable {α β : Type}

/-- Whatever was read as a value, the encoder writes again if it accepts the value. -/
def Canon (dec : M α) (enc : α → M Unit) (ok : α → Prop) : Prop :=
  ∀ s v s', s.off ≤ s.bits.length → dec s = .ok v s' → ok v →
    ∀ u u' : Codec, u.bits.length % 8 = s.off % 8 → enc v u = .ok () u' →
      ∃ w, Eaten s s' w ∧ u'.bits = u.bits ++ w

theorem next_mod {s t : Codec} {w : List Bool} {u u' : Codec} (h : Eaten s t w)
    (hu : u.bits.length % 8 = s.off % 8) (h2 : u'.bits = u.bits ++ w) :
    u'.bits.length % 8 = t.off % 8 := by
  rw [h2, h.off, List.length_append]
  omega

theorem Canon.bool : Canon decodeBool encodeBool fun _ => True := by
  intro s v s' h0 h _ u u' hu he
  unfold decodeBool at h
  rw [decodeBoolM_eq] at h
  obtain ⟨l, t, h1, h⟩ := bind_ok h
  obtain ⟨h2, h3⟩ := Eaten.take h1
  cases h
  cases he
  refine ⟨l, h3, ?_⟩
  match l, h2 with
  | [b], _ => rfl

theorem Canon.constrained {lb ub : Int} (hR : ub - lb + 1 ≤ 65536) :
    Canon (decodeConstrained lb ub) (encodeConstrained lb ub) fun _ => True := by
  intro s v s' h0 h _ u u' hu he
  obtain ⟨x, hv, -, -, -, hw⟩ := Eaten.constrained hR h0 h
  exact ⟨_, hw, encodeConstrained_same hv hR hu he⟩

theorem Canon.cast {w : Width} {lb ub : Option Int} (h : IntCanonical w lb ub) :
    Canon (decodeInteger lb ub false >>= fun d => Pure.pure (w.cast d.1))
      (fun v => encodeInteger lb ub false v false) fun _ => True := by
  intro s v s' h0 hd _ u u' hu he
  cases lb with
  | none => exact h.elim
  | some l =>
    cases ub with
    | none => exact h.elim
    | some m =>
      obtain ⟨f1, f2, hR⟩ := h
      obtain ⟨d, t, h1, hd⟩ := bind_ok hd
      obtain ⟨b, t1, h2, h1⟩ := bind_ok h1
      cases h2
      obtain ⟨y, t2, h3, h1⟩ := bind_ok h1
      cases h1
      cases hd
      change decodeConstrained l m s = .ok y s' at h3
      change encodeConstrained l m (w.cast y) u = .ok () u' at he
      obtain ⟨x, rfl, hx, h256, -, hw⟩ := Eaten.constrained hR h0 h3
      obtain ⟨R, z, hr, -⟩ := encodeConstrained_ok he
      have r1 := hr.hR
      have r2 := hr.hx
      have r3 := hr.lt
      have hc := Width.cast_within f1 f2 hx h256 (by omega) (by omega) hR
      rw [hc] at he
      exact ⟨_, hw, encodeConstrained_same rfl hR hu he⟩

theorem Canon.strings {lb ub : Option Int} (hs : SizeCanonical lb ub) {a : Nat}
    {get : Nat → M (List α)} {bits : List α → List Bool} (hg : Units get bits) :
    Canon (decodeFragments (decodeStringLength false lb ub) a get) (fun v =>
      if 16384 ≤ v.length then M.fail
      else encodeLength lb ub false v.length >>= fun _ =>
        if 0 < v.length then alignIf (a < v.length) >>= fun _ => appendBits (bits v)
        else Pure.pure ()) fun _ => True := by
  intro s v s' h0 h _ u u' hu he
  dsimp only at he
  split at he
  · cases he
  · next hlen =>
    rcases Eaten.fragments hs hg h0 h with h | ⟨x, hx, t, hw, hw2⟩
    · omega
    · obtain ⟨_, u1, h1, he⟩ := bind_ok he
      have e1 := encodeLength_same hs hx hu h1
      have m1 := next_mod hw hu e1
      refine ⟨_, hw.trans hw2, ?_⟩
      rw [← List.append_assoc, ← e1]
      split at he
      · next hpos =>
        rw [if_pos hpos]
        have := Writes.bind (g := fun _ => appendBits (bits v)) (.alignIf t.off (a < v.length))
          (.append _ (bits v)) u1 m1
        rw [he] at this
        injection this with _ this
        rw [this]
      · next hpos =>
        rw [if_neg hpos]
        cases he
        simp

theorem Canon.bitstring {lb ub : Option Int} (hs : SizeCanonical lb ub) :
    Canon (decodeBitstring lb ub false) (fun v => encodeBitstring lb ub false v false) fun _ => True :=
  fun s v s' h0 h ok u u' hu he => Canon.strings hs (bits := id) Units.bitvec s v s' h0 h ok u u' hu he

theorem Canon.octetstring {lb ub : Option Int} (hs : SizeCanonical lb ub) :
    Canon (decodeOctetstring lb ub false) (fun v => encodeOctetstring lb ub false v false)
      fun _ => True :=
  fun s v s' h0 h ok u u' hu he => Canon.strings hs Units.bytes s v s' h0 h ok u u' hu he

/-- With at least 256 possible sizes the size ends at an octet boundary. -/
theorem smallWord_end {lb ub : Option Int} (hs : SizeCanonical lb ub) (ha : lengthAligns lb ub = true)
    (p x : Nat) : (p + (smallWord p (ub.getD 0 - lb.getD 0 + 1).toNat x).length) % 8 = 0 := by
  obtain ⟨hb, u, rfl, hu⟩ := hs
  simp only [lengthAligns, Bool.or_eq_true, decide_eq_true_eq] at ha
  rw [Option.getD_some]
  have := padLen_add p
  unfold smallWord
  rw [if_neg (by omega)]
  split <;> simp only [List.length_append, pad_length, natToBits_length] <;> omega

theorem Canon.string {lb ub : Option Int} (hs : TextCanonical lb ub) :
    Canon (decodeString lb ub false) (fun v => encodeString lb ub false v false) fun _ => True := by
  intro s v s' h0 h _ u u' hu he
  obtain ⟨hs, ht⟩ := hs
  unfold decodeString at h
  obtain ⟨b, t0, h1, h⟩ := bind_ok h
  cases h1
  obtain ⟨n, t, h2, h⟩ := bind_ok h
  obtain ⟨x, hx, hw⟩ := Eaten.length hs h0 h2
  obtain ⟨_, t2, h3, h⟩ := bind_ok h
  have hw2 := Eaten.alignIf hw.end_le h3
  obtain ⟨bs, t3, h4, h⟩ := bind_ok h
  rw [getBitvecStored_apply] at h4
  cases h5 : takeBits (n * 8) t2 with
  | err _ => rw [h5] at h4; cases h4
  | panic => rw [h5] at h4; cases h4
  | ok l t4 =>
    rw [h5] at h4
    cases h4
    obtain ⟨hl, hw3⟩ := Eaten.take h5
    obtain ⟨os, hn, rfl⟩ := exists_bytes (n := n) (l := l) (by omega)
    have hal : t2.off % 8 = 0 := by
      rw [hw2.off]
      by_cases hc : 16 < n * 8
      · simp only [hc, decide_true, if_true, pad_length]
        exact padLen_add _
      · simp only [hc, decide_false, Bool.false_eq_true, if_false, List.length_nil]
        rcases ht with ⟨l, rfl, hl⟩ | ht
        · rw [Option.getD_some] at hx
          omega
        · rw [hw.off]
          exact smallWord_end hs ht _ _
    unfold decodeText at h
    dsimp only at h
    rw [hal, loadChunks_zero] at h
    cases hf : fromUtf8 os with
    | none => rw [hf] at h; cases h
    | some str =>
      rw [hf] at h
      cases h
      have hu8 := fromUtf8_eq_some_iff.mp hf
      subst hu8
      unfold encodeString at he
      dsimp only at he
      rw [if_neg (by decide)] at he
      obtain ⟨_, u0, e0, he⟩ := bind_ok he
      cases e0
      obtain ⟨_, u1, e1, he⟩ := bind_ok he
      have e1 := encodeLength_same hs (by rw [hn]; exact hx) hu e1
      have m1 := next_mod hw hu e1
      refine ⟨_, (hw.trans hw2).trans hw3, ?_⟩
      have := Writes.bind (g := fun _ => appendBits (bytesBits (utf8 v)))
        (.alignIf t.off (2 < (utf8 v).length)) (.append _ (bytesBits (utf8 v))) u1 m1
      rw [he] at this
      injection this with _ this
      rw [this]
      have hc : decide (16 < n * 8) = decide (2 < (utf8 v).length) := by
        congr 1; apply propext; omega
      rw [hc, e1]
      simp

/-! ## Bitmaps -/

theorem Fields.mark_same : (fs : Fields) → (v : fs.Val) → (bm0 bm bm' : List Bool) →
    fs.Marked v bm → fs.mark v bm0 = some bm' → bm0.length = bm.length →
    (∀ j : Nat, bm0[j]? = some false ∨ bm0[j]? = bm[j]?) →
    ∀ j : Nat, j ∈ fs.indexes ∨ bm0[j]? = bm[j]? → bm'[j]? = bm[j]?
  | .nil, _, bm0, bm, bm', _, h, _, _, j, hj => by
    cases h
    rcases hj with hj | hj
    · cases hj
    · exact hj
  | .required _ _ rest, v, bm0, bm, bm', hm, h, hl, hi, j, hj =>
    Fields.mark_same rest v.2 bm0 bm bm' hm h hl hi j hj
  | .optional i _ rest, (some _, v), bm0, bm, bm', hm, h, hl, hi, j, hj => by
    simp only [Fields.mark] at h
    split at h
    · next hlt =>
      have hmi : bm[i]? = some true := hm.1
      have hset : ∀ j : Nat, (bm0.set i true)[j]? = if i = j then bm[j]? else bm0[j]? := by
        intro j
        rw [List.getElem?_set]
        split
        · next e => subst e; simp [hlt, hmi]
        · rfl
      apply Fields.mark_same rest v (bm0.set i true) bm bm' hm.2 h (by simpa using hl)
      · intro j
        rw [hset]
        split
        · exact .inr rfl
        · exact hi j
      · rw [hset]
        rcases hj with hj | hj
        · rcases List.mem_cons.mp hj with rfl | hj
          · right; rw [if_pos rfl]
          · exact .inl hj
        · right
          split
          · rfl
          · exact hj
    · cases h
  | .optional i _ rest, (none, v), bm0, bm, bm', hm, h, hl, hi, j, hj => by
    have hmi : bm[i]? = some false := hm.1
    apply Fields.mark_same rest v bm0 bm bm' hm.2 h hl hi j
    rcases hj with hj | hj
    · rcases List.mem_cons.mp hj with rfl | hj
      · right
        rcases hi j with h | h
        · rw [h, hmi]
        · exact h
      · exact .inl hj
    · exact .inr hj

theorem encodeHeader_same {fs : Fields} {v : fs.Val} {n : Nat} {bm : List Bool}
    (hb : bm.length = n) (hc : ∀ i, i < n → i ∈ fs.indexes) (hm : fs.Marked v bm) {u u' : Codec}
    (h : encodeHeader fs v false n u = .ok () u') : u'.bits = u.bits ++ bm := by
  unfold encodeHeader at h
  cases hk : fs.mark v (List.replicate n false) with
  | none => rw [hk] at h; cases h
  | some bm' =>
    rw [hk] at h
    cases h
    have hlen := Fields.mark_length fs v _ _ hk
    have : bm' = bm := by
      apply List.ext_getElem?
      intro j
      by_cases hj : j < n
      · apply Fields.mark_same fs v _ bm bm' hm hk (by simp [hb])
        · intro j
          by_cases hj : j < n
          · left; simp [hj]
          · right
            rw [List.getElem?_eq_none (by simp; omega), List.getElem?_eq_none (by omega)]
        · exact .inl (hc j hj)
      · rw [List.length_replicate] at hlen
        rw [List.getElem?_eq_none (by omega), List.getElem?_eq_none (by omega)]
    rw [this]

/-! ## Composition -/

theorem Canon.times {dec : M α} {enc : α → M Unit} {ok : α → Prop} (h : Canon dec enc ok) :
    (n : Nat) → Canon (decodeTimes dec n) (encodeAll enc) fun v => ∀ x ∈ v, ok x
  | 0 => by
    intro s v s' h0 hd _ u u' hu he
    cases hd
    cases he
    exact ⟨[], .refl h0, by simp⟩
  | n + 1 => by
    intro s v s' h0 hd hok u u' hu he
    obtain ⟨x, t, h1, hd⟩ := bind_ok hd
    obtain ⟨xs, t2, h2, hd⟩ := bind_ok hd
    cases hd
    obtain ⟨_, u1, e1, he⟩ := bind_ok (show (enc x >>= fun _ => encodeAll enc xs) u = .ok () u' from he)
    obtain ⟨w, hw, ew⟩ := h s x t h0 h1 (hok x List.mem_cons_self) u u1 hu e1
    obtain ⟨w2, hw2, ew2⟩ := Canon.times h n t xs s' hw.end_le h2
      (fun y hy => hok y (List.mem_cons_of_mem _ hy)) u1 u' (next_mod hw hu ew) he
    exact ⟨w ++ w2, hw.trans hw2, by rw [ew2, ew, List.append_assoc]⟩

theorem setKeyFrom_ok {k : Bool} {t : Ty} {v : t.Val} {s s' : Codec} {a : Unit}
    (h : setKeyFrom k t v s = .ok a s') : s'.bits = s.bits ∧ s'.off = s.off := by
  have := setKeyFrom_run k t v s.bits s.off s.key
  rw [show (⟨s.bits, s.off, s.key⟩ : Codec) = s from rfl, h] at this
  cases this
  exact ⟨rfl, rfl⟩

theorem Eaten.congr {s t t2 : Codec} {w : List Bool} (h : Eaten s t w) (h1 : t2.bits = t.bits)
    (h2 : t2.off = t.off) : Eaten s t2 w :=
  ⟨h.start, h1.trans h.bits, h2.trans h.off, by
    have := h.word
    unfold consumed at *
    rw [h2]
    exact this⟩

mutual

theorem Ty.canon : (t : Ty) → t.Canonical → Canon t.decode t.encode t.SizesKept
  | .boolean, _ => Canon.bool
  | .null, _ => by
    intro s v s' h0 h _ u u' hu he
    cases h; cases he
    exact ⟨[], .refl h0, by simp⟩
  | .integer w lb ub ext, h => by
    obtain ⟨rfl, h⟩ := h
    exact Canon.cast h
  | .enumerated w lb ub ext, h => by
    obtain ⟨rfl, h⟩ := h
    intro s v s' h0 hd ok u u' hu he
    refine Canon.cast h s v s' h0 ?_ ok u u' hu he
    obtain ⟨d, t, h1, hd⟩ := bind_ok hd
    obtain ⟨b, t1, h2, h1⟩ := bind_ok h1
    cases h2
    obtain ⟨y, t2, h3, h1⟩ := bind_ok h1
    cases h1
    cases hd
    change (decodeInteger lb ub false >>= fun d => Pure.pure d.1) s = .ok y s' at h3
    obtain ⟨e, t3, h4, h3⟩ := bind_ok h3
    cases h3
    rw [M.bind_apply, h4]
    rfl
  | .bitstring lb ub ext, h => by
    obtain ⟨rfl, h⟩ := h
    exact Canon.bitstring h
  | .octetstring lb ub ext, h => by
    obtain ⟨rfl, h⟩ := h
    exact Canon.octetstring h
  | .charstring k lb ub ext, h => by
    obtain ⟨rfl, h⟩ := h
    cases k <;> exact Canon.string h
  | .objectIdentifier, _ => by
    intro s v s' h0 h
    cases h
  | .sequence ext n fs, h => by
    obtain ⟨rfl, hc, h⟩ := h
    intro s v s' h0 hd ok u u' hu he
    obtain ⟨hd1, t, h1, hd⟩ := bind_ok hd
    obtain ⟨_, u1, e1, he⟩ := bind_ok he
    obtain ⟨b, t1, h2, h1⟩ := bind_ok h1
    cases h2
    obtain ⟨bm, t2, h3, h1⟩ := bind_ok h1
    cases h1
    have hbm : bm.length = n ∧ Eaten s t bm := by
      unfold decodeBitmap at h3
      split at h3
      · rw [getBitvec_eq] at h3
        exact Eaten.take h3
      · cases h3
        exact ⟨by simp; omega, .refl h0⟩
    obtain ⟨hlen, hw⟩ := hbm
    have hm := (fs.decode_keyed _ _ _ _ hd).2.2
    have e1 := encodeHeader_same hlen hc hm e1
    obtain ⟨w, hw2, e2⟩ := fs.canon h bm t v s' hw.end_le hd ok u1 u' (next_mod hw hu e1) he
    exact ⟨bm ++ w, hw.trans hw2, by rw [e2, e1, List.append_assoc]⟩
  | .sequenceOf lb ub ext e, h => by
    obtain ⟨rfl, hs, h⟩ := h
    intro s v s' h0 hd ok u u' hu he
    obtain ⟨n, t, h1, hd⟩ := bind_ok hd
    obtain ⟨_, u1, e1, he⟩ := bind_ok he
    obtain ⟨hn, hd⟩ := decodeLoop_ok hd
    have hvn : List.length v = n := decodeTimes_length n t v s' hd
    obtain ⟨x, hx, hw⟩ := Eaten.length hs h0 h1
    have e1 : u1.bits = u.bits ++ smallWord s.off (ub.getD 0 - lb.getD 0 + 1).toNat x := by
      obtain ⟨hb, m, rfl, hm⟩ := id hs
      have := (encodeLength_constrained hb (List.length v) hm u.bits.length).1 ok.1 u rfl
      unfold M.ignoreErr at e1
      rw [this] at e1
      cases e1
      exact encodeLength_same hs (by rw [hvn]; exact hx) hu this
    obtain ⟨w, hw2, e2⟩ := (e.canon h).times n t v s' hw.end_le hd ok.2 u1 u' (next_mod hw hu e1) he
    exact ⟨_, hw.trans hw2, by rw [e2, e1, List.append_assoc]⟩
  | .choice lb ub ext as, h => by
    obtain ⟨hR, h⟩ := h
    intro s v s' h0 hd ok u u' hu he
    obtain ⟨r, t, h1, hd⟩ := bind_ok hd
    obtain ⟨idx, b⟩ := r
    cases b with
    | true => cases hd
    | false =>
      change as.decode idx t = .ok v s' at hd
      obtain ⟨_, u1, e1, he⟩ := bind_ok he
      have hkey := Alts.Selects.keyOf as idx v (as.decode_keyed idx t v s' hd).2.2
      have hex : as.extendedOf v = false := by
        cases hx : as.extendedOf v
        · rfl
        · rw [hx] at e1; cases e1
      rw [hex, hkey] at e1
      have hidx : ∃ w, Eaten s t w ∧ u1.bits = u.bits ++ w := by
        cases ext with
        | false =>
          obtain ⟨r, t1, h2, h1⟩ := bind_ok h1
          cases h1
          obtain ⟨b, t2, h3, h2⟩ := bind_ok h2
          cases h3
          obtain ⟨y, t3, h4, h2⟩ := bind_ok h2
          cases h2
          exact Canon.constrained hR s _ t h0 h4 trivial u u1 hu e1
        | true =>
          obtain ⟨b, t0, h5, h1⟩ := bind_ok h1
          cases b with
          | true =>
            obtain ⟨y, t1, -, h1⟩ := bind_ok h1
            cases h1
          | false =>
            obtain ⟨r, t1, h2, h1⟩ := bind_ok h1
            cases h1
            obtain ⟨b, t2, h3, h2⟩ := bind_ok h2
            cases h3
            obtain ⟨y, t3, h4, h2⟩ := bind_ok h2
            cases h2
            obtain ⟨_, u0, e0, e1⟩ := bind_ok e1
            obtain ⟨w0, hw0, ew0⟩ := Canon.bool s false _ h0 h5 trivial u u0 hu e0
            obtain ⟨w1, hw1, ew1⟩ := Canon.constrained hR _ _ t hw0.end_le h4 trivial u0 u1
              (next_mod hw0 hu ew0) e1
            exact ⟨w0 ++ w1, hw0.trans hw1, by rw [ew1, ew0, List.append_assoc]⟩
      obtain ⟨w, hw, e1⟩ := hidx
      obtain ⟨w2, hw2, e2⟩ := as.canon h idx t v s' hw.end_le hd ok u1 u' (next_mod hw hu e1) he
      exact ⟨w ++ w2, hw.trans hw2, by rw [e2, e1, List.append_assoc]⟩
  | .openType _, h => h.elim

theorem Fields.canon : (fs : Fields) → fs.Canonical → (bm : List Bool) →
    Canon (fs.decode bm) fs.encode fs.SizesKept
  | .nil, _, _ => by
    intro s v s' h0 h _ u u' hu he
    cases h; cases he
    exact ⟨[], .refl h0, by simp⟩
  | .required k t rest, h, bm => by
    intro s v s' h0 hd ok u u' hu he
    obtain ⟨x, t1, h1, hd⟩ := bind_ok hd
    obtain ⟨_, t2, h2, hd⟩ := bind_ok hd
    obtain ⟨vs, t3, h3, hd⟩ := bind_ok hd
    cases hd
    obtain ⟨_, u1, e1, he⟩ := bind_ok he
    obtain ⟨w, hw, ew⟩ := t.canon h.1 s x t1 h0 h1 ok.1 u u1 hu e1
    obtain ⟨k1, k2⟩ := setKeyFrom_ok h2
    have hw := hw.congr k1 k2
    obtain ⟨w2, hw2, ew2⟩ := rest.canon h.2 bm t2 vs s' hw.end_le h3 ok.2 u1 u' (next_mod hw hu ew) he
    exact ⟨w ++ w2, hw.trans hw2, by rw [ew2, ew, List.append_assoc]⟩
  | .optional i t rest, h, bm => by
    intro s v s' h0 hd ok u u' hu he
    obtain ⟨b, t1, h1, hd1⟩ := bind_ok hd
    obtain ⟨-, rfl⟩ := present_ok h1
    obtain ⟨x, t2, h2, hd2⟩ := bind_ok hd1
    obtain ⟨vs, t3, h3, hd3⟩ := bind_ok hd2
    cases hd3
    obtain ⟨_, u1, e1, he⟩ := bind_ok he
    have hx : ∃ w, Eaten t1 t2 w ∧ u1.bits = u.bits ++ w := by
      cases b with
      | false =>
        cases h2
        cases e1
        exact ⟨[], .refl h0, by simp⟩
      | true =>
        obtain ⟨y, t4, h4, h2⟩ := bind_ok h2
        cases h2
        exact t.canon h.1 t1 y t2 h0 h4 ok.1 u u1 hu e1
    obtain ⟨w, hw, ew⟩ := hx
    obtain ⟨w2, hw2, ew2⟩ := rest.canon h.2 bm t2 vs s' hw.end_le h3 ok.2 u1 u' (next_mod hw hu ew) he
    exact ⟨w ++ w2, hw.trans hw2, by rw [ew2, ew, List.append_assoc]⟩

theorem Alts.canon : (as : Alts) → as.Canonical → (key : Int) →
    Canon (as.decode key) as.encode as.SizesKept
  | .nil, _, _ => by
    intro s v s' h0 h
    cases h
  | .cons k x t rest, h, key => by
    intro s v s' h0 hd ok u u' hu he
    simp only [Alts.decode] at hd
    split at hd
    · obtain ⟨y, t1, h1, hd⟩ := bind_ok hd
      cases hd
      exact t.canon h.1 s y s' h0 h1 ok u u' hu he
    · obtain ⟨y, t1, h1, hd⟩ := bind_ok hd
      cases hd
      exact rest.canon h.2 key s y s' h0 h1 ok u u' hu he

end

/-- **C107 (partial).** Full statement: whatever bits a derived decoder accepts, encoding the value it
returned gives those bits back. Proved: for every type without an encoding that leaves a choice to
the sender (`Ty.Canonical`), of any nesting and at any position, provided the lists that were decoded
have a size their type permits. Missing, because false: see the violations below. -/
theorem C107_canonical_partial (t : Ty) (ht : t.Canonical) (s s' : Codec) (v : t.Val)
    (h0 : s.off ≤ s.bits.length) (hd : t.decode s = .ok v s') (hv : t.SizesKept v)
    (u u' : Codec) (hu : u.bits.length % 8 = s.off % 8) (he : t.encode v u = .ok () u') :
    u'.bits = u.bits ++ consumed s s' := by
  obtain ⟨w, hw, ew⟩ := t.canon ht s v s' h0 hd hv u u' hu he
  rw [ew, hw.word]

/-- **C107 (partial), messages.** A message in octets: the encoder gives back the bits the decoder has
read. -/
theorem C107_message_partial (t : Ty) (ht : t.Canonical) (octets : List UInt8) (v : t.Val)
    (s' u : Codec) (hd : t.decode (Codec.fromSlice octets) = .ok v s') (hv : t.SizesKept v)
    (he : t.encode v Codec.new = .ok () u) : u.bits = (bytesBits octets).take s'.off := by
  have := C107_canonical_partial t ht _ s' v (Nat.zero_le _) hd hv Codec.new u rfl he
  simpa [consumed, Codec.fromSlice, Codec.new] using this

/-- **C107 (partial), no two messages for a value.** Two messages read as the same value, one the
encoder accepts, have the same bits. -/
theorem C107_one_message_partial (t : Ty) (ht : t.Canonical) (s1 s2 s1' s2' : Codec) (v : t.Val)
    (b1 : s1.off ≤ s1.bits.length) (b2 : s2.off ≤ s2.bits.length) (ho : s1.off % 8 = s2.off % 8)
    (h1 : t.decode s1 = .ok v s1') (h2 : t.decode s2 = .ok v s2') (hv : t.SizesKept v)
    (hp : t.Permitted v) : consumed s1 s1' = consumed s2 s2' := by
  obtain ⟨u', he⟩ := t.encode_ok v hp ⟨List.replicate (s1.off % 8) false, 0, none⟩
  have e1 := C107_canonical_partial t ht s1 s1' v b1 h1 hv _ u' (by simp) he
  have e2 := C107_canonical_partial t ht s2 s2' v b2 h2 hv _ u' (by simp; omega) he
  rw [e1] at e2
  exact List.append_cancel_left e2

/-- A record with an optional name, a list of choices, a number of 16 bits. -/
def Canonic : Ty :=
  .sequence false 2
    (.required false (.integer .u8 (some 1) (some 200) false)
    (.optional 0 (.charstring .printable (some 3) (some 20) false)
    (.required false (.sequenceOf (some 1) (some 4) false
      (.choice 0 1 true (.cons 0 false .boolean (.cons 1 false (.octetstring (some 0) (some 7) false) .nil))))
    (.optional 1 (.integer .u16 (some 0) (some 65535) false) .nil))))

example : Canonic.Canonical := by
  refine ⟨rfl, ?_, ⟨rfl, ?_⟩, ⟨rfl, ⟨?_, 20, rfl, by omega⟩, .inl ⟨3, rfl, by omega⟩⟩,
    ⟨rfl, ⟨?_, 4, rfl, by omega⟩, by decide, trivial, ⟨rfl, ?_, 7, rfl, by omega⟩, trivial⟩,
    ⟨rfl, ?_⟩, trivial⟩
  · intro i hi
    match i, hi with
    | 0, _ => decide
    | 1, _ => decide
  · exact ⟨by decide, by decide, by decide⟩
  · constructor <;> intro l h <;> cases h <;> decide
  · constructor <;> intro l h <;> cases h <;> decide
  · constructor <;> intro l h <;> cases h <;> decide
  · exact ⟨by decide, by decide, by decide⟩

/-- A message of it: the name is present, the number is 5, and there is a list of one octet string. -/
example : Canonic.decode (Codec.fromSlice [0x81, 0x00, 0x61, 0x62, 0x63, 0x13, 0x40]) =
    .ok ((show Int from 5), some (show String from "abc"),
      [.inr (.inl (show List UInt8 from [0xA0]))], none, ())
      ⟨bytesBits [0x81, 0x00, 0x61, 0x62, 0x63, 0x13, 0x40], 55, none⟩ := by
  rfl

/-! ## Where it fails -/

/-- **C107 is violated**: the extension bit of every extensible SEQUENCE is ignored. A message in which
it is set is read as the same value as the message in which it is not, and only the latter is ever
written. -/
theorem C107_extension_bit_violated (n : Nat) (fs : Fields) (v : fs.Val) (pre rest : List Bool)
    (key : Option Int) (s' : Codec)
    (h : (Ty.sequence true n fs).decode ⟨pre ++ false :: rest, pre.length, key⟩ = .ok v s') :
    (Ty.sequence true n fs).decode ⟨pre ++ true :: rest, pre.length, key⟩ =
      .ok v ⟨pre ++ true :: rest, s'.off, s'.key⟩ := by
  have step : ∀ b : Bool, (Ty.sequence true n fs).decode ⟨pre ++ b :: rest, pre.length, key⟩ =
      (decodeBitmap n >>= fun bm => fs.decode bm) ⟨pre ++ b :: rest, pre.length + 1, key⟩ := by
    intro b
    have := Decodes.boolM pre.length b pre rest key rfl
    simp only [List.append_assoc, List.singleton_append, List.length_singleton] at this
    show ((decodeExtBit true >>= fun e => decodeBitmap n >>= fun bm => Pure.pure (bm, e)) >>=
      fun h => fs.decode h.1) _ = _
    rw [M.bind_apply, M.bind_apply]
    unfold decodeExtBit
    rw [if_pos rfl, this]
    dsimp only
    rw [M.bind_apply, M.bind_apply]
    cases decodeBitmap n ⟨pre ++ b :: rest, pre.length + 1, key⟩ <;> rfl
  have hr : IsReader (decodeBitmap n >>= fun bm => fs.decode bm) := by
    refine .bind ?_ fun bm => fs.decode_reader bm
    unfold decodeBitmap
    exact .ite (IsDec.bitvec n).reader (.pure _)
  rw [step] at h ⊢
  have hs := hr.shift (pre ++ [false]) (pre ++ [true]) rest 0 key (by simp)
  simp only [List.append_assoc, List.singleton_append, List.length_append, List.length_singleton,
    Nat.add_zero] at hs
  rw [hs, h]
  have hf := hr.frame ⟨pre ++ false :: rest, pre.length + 1, key⟩
  rw [h] at hf
  have h2 : pre.length + 1 ≤ s'.off := hf.2.1
  simp only [Res.shift, List.length_append, List.length_singleton, List.append_assoc,
    List.singleton_append]
  congr 2
  omega

/-- **C107 is violated**: a string without an upper bound and below 128 octets is read from the
length in one octet and from the length in two. -/
theorem C107_long_length_violated (octets : List UInt8) (h : octets.length < 128) :
    let short := UInt8.ofNat octets.length :: octets
    let long := 0x80 :: UInt8.ofNat octets.length :: octets
    (∃ s', (Ty.octetstring none none false).decode (Codec.fromSlice short) = .ok octets s' ∧
      s'.off = 8 * short.length) ∧
    (∃ s', (Ty.octetstring none none false).decode (Codec.fromSlice long) = .ok octets s' ∧
      s'.off = 8 * long.length) := by
  intro short long
  have hget : ∀ p : Nat, p % 8 = 0 → Decodes (decodeChunk 2 getBytes octets.length) p (bytesBits octets) octets := by
    intro p hp
    unfold decodeChunk
    split
    · have h0 : padLen p = 0 := by unfold padLen; omega
      have := Decodes.bind (g := fun _ => getBytes octets.length) (.alignIf p (2 < octets.length))
        (.bytes _ octets)
      have e : (if decide (2 < octets.length) then pad p else []) = [] := by
        unfold pad; rw [h0]; split <;> rfl
      rwa [e, List.nil_append] at this
    · have e : octets = [] := List.length_eq_zero_iff.mp (by omega)
      rw [e]
      exact .pure p []
  have hloop : ∀ (w : List Bool), w.length % 8 = 0 → Decodes decodeIndefiniteLength 0 w octets.length →
      (Ty.octetstring none none false).decode ⟨w ++ bytesBits octets, 0, none⟩ =
        .ok octets ⟨w ++ bytesBits octets, w.length + 8 * octets.length, none⟩ := by
    intro w hw hd
    have e : (Ty.octetstring none none false).decode =
        decodeFragments decodeIndefiniteLength 2 getBytes := by
      funext s
      rfl
    rw [e]
    have hd2 := Decodes.bind (g := fun n => decodeChunk 2 getBytes n >>= fun c =>
        if 16384 ≤ n then fragLoop decodeIndefiniteLength 2 getBytes
          (w ++ bytesBits octets).length ([] ++ c) else Pure.pure ([] ++ c)) (w2 := bytesBits octets)
        (b := octets) hd (by
      have h1 := hget (0 + w.length) (by omega)
      have h2 := Decodes.bind (g := fun c =>
        if 16384 ≤ octets.length then fragLoop decodeIndefiniteLength 2 getBytes
          (w ++ bytesBits octets).length ([] ++ c) else Pure.pure ([] ++ c)) (w2 := []) (b := octets) h1 (by
          rw [if_neg (by omega)]
          exact .pure _ _)
      rwa [List.append_nil] at h2)
    have := hd2 [] [] none rfl
    simp only [List.nil_append, List.append_nil, List.length_nil, Nat.zero_add, List.length_append,
      bytesBits_length] at this
    unfold decodeFragments fragLoop
    simp only [List.nil_append, List.length_append, bytesBits_length]
    exact this
  have hbits : byteBits (UInt8.ofNat octets.length) = false :: natToBits 7 octets.length := by
    unfold byteBits
    rw [UInt8.toNat_ofNat_of_lt' (show _ < 256 by omega)]
    simp only [natToBits]
    rw [Nat.testBit_lt_two_pow (i := 7) (by omega)]
  have hshort : Decodes decodeIndefiniteLength 0 (byteBits (UInt8.ofNat octets.length)) octets.length := by
    have := decodeIndefinite_decodes (n := octets.length) (by omega) 0
    unfold indefWord at this
    rw [if_pos h, pad_zero rfl, List.nil_append] at this
    rw [hbits]
    exact this
  have hlong : Decodes decodeIndefiniteLength 0 (byteBits 0x80 ++ byteBits (UInt8.ofNat octets.length))
      octets.length := by
    unfold decodeIndefiniteLength
    have e : byteBits 0x80 ++ byteBits (UInt8.ofNat octets.length) =
        pad 0 ++ ([true] ++ ([false] ++ natToBits 14 octets.length)) := by
      have : natToBits 14 octets.length = natToBits 6 0 ++ (false :: natToBits 7 octets.length) := by
        rw [natToBits_add 6 8, Nat.div_eq_of_lt (by omega)]
        congr 1
        simp only [natToBits]
        rw [Nat.testBit_lt_two_pow (i := 7) (by omega)]
      rw [this, hbits, pad_zero rfl]
      rfl
    rw [e]
    refine .bind (.align 0) (.bind (.boolM _ true) (.bind (.boolM _ false) ?_))
    exact Decodes.map (Decodes.nat _ (n := 14) (x := octets.length) (by omega) (by omega) (by omega))
      Int.toNat
  have hl := hloop _ (by simp) hlong
  have e : byteBits 0x80 ++ byteBits (UInt8.ofNat octets.length) ++ bytesBits octets = bytesBits long := by
    show _ = bytesBits (_ :: _ :: _)
    rw [bytesBits_cons, bytesBits_cons, List.append_assoc]
  rw [e] at hl
  refine ⟨⟨_, hloop _ (by simp) hshort, ?_⟩, ⟨_, hl, ?_⟩⟩
  · simp [short]; omega
  · simp [long]; omega

/-- **C107 is violated**: INTEGER without a lower bound is read with leading zero octets, and so is
INTEGER with more than 64K values. -/
theorem C107_leading_zeros_violated :
    (Ty.integer .i32 none none false).decode (Codec.fromSlice [1, 5]) =
      .ok (5 : Int) ⟨bytesBits [1, 5], 16, none⟩ ∧
    (Ty.integer .i32 none none false).decode (Codec.fromSlice [2, 0, 5]) =
      .ok (5 : Int) ⟨bytesBits [2, 0, 5], 24, none⟩ ∧
    (Ty.integer .u32 (some 0) (some 4294967295) false).decode (Codec.fromSlice [0x00, 5]) =
      .ok (5 : Int) ⟨bytesBits [0x00, 5], 16, none⟩ ∧
    (Ty.integer .u32 (some 0) (some 4294967295) false).decode (Codec.fromSlice [0x20, 0, 5]) =
      .ok (5 : Int) ⟨bytesBits [0x20, 0, 5], 24, none⟩ := by
  refine ⟨?_, ?_, ?_, ?_⟩ <;> rfl

/-- **C107 is violated**: a list longer than its SIZE permits is read; writing it again succeeds but
leaves the length out, so that the receiver gets another list. -/
theorem C107_oversized_list_violated :
    let t := Ty.sequenceOf (some 0) (some 4) false .boolean
    t.decode (Codec.fromSlice [0xE2, 0x00]) =
      .ok ([false, false, false, true, false, false, false] : List Bool) ⟨bytesBits [0xE2, 0x00], 10, none⟩ ∧
    t.encode ([false, false, false, true, false, false, false] : List Bool) Codec.new =
      .ok () ⟨[false, false, false, true, false, false, false], 0, none⟩ := by
  refine ⟨?_, ?_⟩ <;> rfl

end Hampi
