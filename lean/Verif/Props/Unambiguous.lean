import Verif.Lemmas.Tells
/-!
# C120: no two values share an encoding
-/
namespace Hampi
open Spec (SizeBounds)

theorem tells_listLength {lb ub : Option Int} {ext : Bool} {m n : Nat}
    (h : if ext then m < 16384 else SizeOk lb ub m) (h' : if ext then n < 16384 else SizeOk lb ub n) :
    Tells (M.ignoreErr (encodeLength lb ub ext m)) (M.ignoreErr (encodeLength lb ub ext n)) (m = n) := by
  cases ext with
  | false =>
    exact .of_rt (.ignoreErr (.length h.1 false m) fun s => encodeLength_sizeOk h s)
      (.ignoreErr (.length h'.1 false n) fun s => encodeLength_sizeOk h' s)
  | true =>
    by_cases hm : m = 0
    · subst hm
      intro s sa sb x y h1; cases h1
    by_cases hn : n = 0
    · subst hn
      intro s sa sb x y _ h1; cases h1
    exact .of_rt (.listLength (lb := lb) (ub := ub) (ext := true) (by omega) h)
      (.listLength (lb := lb) (ub := ub) (ext := true) (by omega) h')

mutual

theorem Ty.tells : (t : Ty) → (a b : t.Val) → (k : Option Int) → t.Sendable a → t.Sendable b →
    t.KeysOk a k → t.KeysOk b k → Tells (t.encode a) (t.encode b) (a = b)
  | .boolean, a, b, k, _, _, _, _ => .of_rt (RT.boolM a) (RT.boolM b)
  | .null, a, b, k, _, _, _, _ => (Tells.same _).imp fun _ => rfl
  | .integer w lb ub ext, a, b, k, ha, hb, _, _ => .integer (fits_i128 ha) (fits_i128 hb) ext
  | .enumerated w lb ub ext, a, b, k, ha, hb, _, _ => .enumerated (fits_i128 ha) (fits_i128 hb) ext
  | .bitstring lb ub ext, a, b, k, ha, hb, _, _ => .of_rt (RT.bitstring ha a ext false) (RT.bitstring ha b ext false)
  | .octetstring lb ub ext, a, b, k, ha, hb, _, _ =>
    .of_rt (RT.octetstring ha a ext false) (RT.octetstring ha b ext false)
  | .charstring kind lb ub ext, a, b, k, ha, hb, _, _ => by
    have h : Tells (encodeString lb ub ext a false) (encodeString lb ub ext b false) (a = b) := .string ha a b ext
    cases kind <;> exact h
  | .objectIdentifier, a, b, k, _, _, _, _ => .failLeft
  | .sequence ext n fs, a, b, k, ha, hb, ka, kb => by
    show Tells (encodeHeader fs a ext n >>= fun _ => fs.encode a) (encodeHeader fs b ext n >>= fun _ => fs.encode b) _
    unfold encodeHeader
    cases hm : fs.mark a (List.replicate n false) with
    | none => intro s sa sb x y h1; cases h1
    | some bm =>
      cases hm' : fs.mark b (List.replicate n false) with
      | none => intro s sa sb x y _ h1; cases h1
      | some bm' =>
        have hlen : bm.length = n := by simpa using Fields.mark_length fs a _ bm hm
        have hlen' : bm'.length = n := by simpa using Fields.mark_length fs b _ bm' hm'
        have hz : ∀ i ∈ fs.indexes, (List.replicate n false)[i]? = some false := fun i hi => by
          rw [List.getElem?_replicate, if_pos (ha.1.2 i hi)]
        have hmk := Fields.mark_marked fs a _ bm hm ha.1.1 hz
        have hmk' := Fields.mark_marked fs b _ bm' hm' ha.1.1 hz
        have h1 := RT.sequenceHeader ext bm false
        have h2 := RT.sequenceHeader ext bm' false
        rw [hlen] at h1
        rw [hlen'] at h2
        refine (Tells.bind (R' := a = b) (.of_rt h1 h2) (fs.encode_writer a) (fs.encode_writer b) fun e => ?_).imp
          And.right
        have e : bm = bm' := congrArg Prod.fst e
        subst e
        exact Fields.tells fs a b bm k ha.2 hb.2 ka kb hmk hmk'
  | .sequenceOf lb ub ext e, a, b, k, ha, hb, ka, kb => by
    refine (Tells.bind (R' := (show List e.Val from a) = b) (tells_listLength ha.1 hb.1)
      (.encodeAll e.encode_writer a) (.encodeAll e.encode_writer b) fun h => ?_).imp And.right
    exact Tells.all e.encode_writer (ok := e.KeysOk) (f := e.keyAfter) (good := e.Sendable)
      (fun x y k hx hy h1 h2 => Ty.tells e x y k hx hy h1 h2) a b k h ha.2 hb.2 ka kb
  | .choice lb ub ext as, a, b, k, ha, hb, ka, kb => by
    show Tells (encodeChoiceIdx lb ub ext (as.keyOf a) (as.extendedOf a) >>= fun _ => as.encode a)
      (encodeChoiceIdx lb ub ext (as.keyOf b) (as.extendedOf b) >>= fun _ => as.encode b) _
    refine (Tells.bind (R' := a = b) (.of_rt (RT.choiceIdx ha.2.1 ext _) (RT.choiceIdx hb.2.1 ext _))
      (as.encode_writer a) (as.encode_writer b) fun e => ?_).imp And.right
    have e : as.keyOf a = as.keyOf b := congrArg Prod.fst e
    refine Alts.tells as a b (as.keyOf a) k ha.1 ?_ ha.2.2 hb.2.2 ka kb
    rw [e]
    exact hb.1
  | .openType as, a, b, k, ha, hb, ka, kb => by
    obtain ⟨⟨x, h1, h2⟩, h3⟩ := ka
    obtain ⟨⟨y, h4, h5⟩, h6⟩ := kb
    rw [h1] at h4
    cases h4
    exact .open (as.encode_writer a) (as.encode_writer b) (Alts.tells as a b x k h2 h5 ha hb h3 h6)

theorem Fields.tells : (fs : Fields) → (a b : fs.Val) → (bm : List Bool) → (k : Option Int) → fs.Sendable a →
    fs.Sendable b → fs.KeysOk a k → fs.KeysOk b k → fs.Marked a bm → fs.Marked b bm →
    Tells (fs.encode a) (fs.encode b) (a = b)
  | .nil, a, b, bm, k, _, _, _, _, _, _ => (Tells.same _).imp fun _ => rfl
  | .required kf t rest, (a, v), (b, w), bm, k, ha, hb, ka, kb, ma, mb => by
    refine (Tells.bind (R' := v = w) (Ty.tells t a b k ha.1 hb.1 ka.1 kb.1) (rest.encode_writer v)
      (rest.encode_writer w) fun e => ?_).imp fun h => by rw [h.1, h.2]
    subst e
    exact Fields.tells rest v w bm _ ha.2 hb.2 ka.2 kb.2 ma mb
  | .optional i t rest, (some a, v), (some b, w), bm, k, ha, hb, ka, kb, ma, mb => by
    refine (Tells.bind (R' := v = w) (Ty.tells t a b k ha.1 hb.1 ka.1 kb.1) (rest.encode_writer v)
      (rest.encode_writer w) fun e => ?_).imp fun h => by rw [h.1, h.2]
    subst e
    exact Fields.tells rest v w bm _ ha.2 hb.2 ka.2 kb.2 ma.2 mb.2
  | .optional i t rest, (none, v), (none, w), bm, k, ha, hb, ka, kb, ma, mb => by
    refine (Tells.bind (R' := v = w) (.same _) (rest.encode_writer v)
      (rest.encode_writer w) fun e => ?_).imp fun h => by rw [h.2]
    exact Fields.tells rest v w bm _ ha.2 hb.2 ka.2 kb.2 ma.2 mb.2
  | .optional i t rest, (some a, v), (none, w), bm, k, ha, hb, ka, kb, ma, mb => by
    have h1 := ma.1
    rw [mb.1] at h1
    cases h1
  | .optional i t rest, (none, v), (some b, w), bm, k, ha, hb, ka, kb, ma, mb => by
    have h1 := ma.1
    rw [mb.1] at h1
    cases h1

theorem Alts.tells : (as : Alts) → (a b : as.Val) → (key : Int) → (k : Option Int) → as.Selects key a →
    as.Selects key b → as.Sendable a → as.Sendable b → as.KeysOk a k → as.KeysOk b k →
    Tells (as.encode a) (as.encode b) (a = b)
  | .cons _ _ t _, .inl a, .inl b, _, k, _, _, ha, hb, ka, kb => (Ty.tells t a b k ha hb ka kb).imp (congrArg _)
  | .cons _ _ _ rest, .inr a, .inr b, key, k, sa, sb, ha, hb, ka, kb =>
    (Alts.tells rest a b key k sa.2 sb.2 ha hb ka kb).imp (congrArg _)
  | .cons _ _ _ _, .inl _, .inr _, _, _, sa, sb, _, _, _, _ => absurd sa sb.1
  | .cons _ _ _ _, .inr _, .inl _, _, _, sa, sb, _, _, _, _ => absurd sb sa.1

end

/-- Of two different values written to the same buffer, neither result is the beginning of the other, whatever
the type and whatever the buffer holds. `k` is the key in force for open types (`KeysOk`: each open type holds the
variant its key announces). -/
theorem C120_no_shared_encoding (t : Ty) (a b : t.Val) (k : Option Int) (ha : t.Sendable a) (hb : t.Sendable b)
    (ka : t.KeysOk a k) (kb : t.KeysOk b k) (hne : a ≠ b) (s sa sb : Codec) (h1 : t.encode a s = .ok () sa)
    (h2 : t.encode b s = .ok () sb) : ¬ sa.bits <+: sb.bits := by
  rintro ⟨x, h⟩
  exact hne (t.tells a b k ha hb ka kb s sa sb x [] h1 h2 (by rw [h, List.append_nil])).1

/-- A message of octets, padding included, is the encoding of at most one value. -/
theorem C120_no_shared_message (t : Ty) (a b : t.Val) (ha : t.Sendable a) (hb : t.Sendable b)
    (ka : t.KeysOk a none) (kb : t.KeysOk b none) (sa sb : Codec) (h1 : t.encode a Codec.new = .ok () sa)
    (h2 : t.encode b Codec.new = .ok () sb) (h : sa.intoBytes = sb.intoBytes) : a = b := by
  have h3 := congrArg bytesBits h
  unfold Codec.intoBytes at h3
  rw [bytesBits_bitsBytes, bytesBits_bitsBytes] at h3
  exact (t.tells a b none ha hb ka kb Codec.new sa sb _ _ h1 h2 h3).1

/-- Messages sent one after the other on a stream, without anything between them, are the encodings of at most one
sequence of values of given types: two histories of writes that give the same bits wrote the same values. -/
theorem C120_no_shared_stream (ts : List Ty) : ∀ (as bs : List ((t : Ty) × t.Val)) (s sa sb : Codec) (x y : List Bool),
    as.map (·.1) = ts → bs.map (·.1) = ts →
    (∀ p ∈ as, p.1.Sendable p.2 ∧ p.1.KeysOk p.2 none) → (∀ p ∈ bs, p.1.Sendable p.2 ∧ p.1.KeysOk p.2 none) →
    encodeAll (fun p : (t : Ty) × t.Val => p.1.encode p.2) as s = .ok () sa →
    encodeAll (fun p : (t : Ty) × t.Val => p.1.encode p.2) bs s = .ok () sb →
    sa.bits ++ x = sb.bits ++ y → as = bs := by
  have key : ∀ (as bs : List ((t : Ty) × t.Val)), as.map (·.1) = bs.map (·.1) →
      (∀ p ∈ as, p.1.Sendable p.2 ∧ p.1.KeysOk p.2 none) → (∀ p ∈ bs, p.1.Sendable p.2 ∧ p.1.KeysOk p.2 none) →
      Tells (encodeAll (fun p : (t : Ty) × t.Val => p.1.encode p.2) as)
        (encodeAll (fun p : (t : Ty) × t.Val => p.1.encode p.2) bs) (as = bs) := by
    intro as
    induction as with
    | nil =>
      intro bs h _ _
      cases bs with
      | nil => exact (Tells.same _).imp fun _ => rfl
      | cons b bs => cases h
    | cons a as ih =>
      intro bs h h1 h2
      cases bs with
      | nil => cases h
      | cons b bs =>
        simp only [List.map_cons, List.cons.injEq] at h
        obtain ⟨t, v⟩ := a
        obtain ⟨u, w⟩ := b
        obtain ⟨h3, h4⟩ := h
        simp only at h3
        subst h3
        have g1 := h1 _ List.mem_cons_self
        have g2 := h2 _ List.mem_cons_self
        have hw : ∀ p : (t : Ty) × t.Val, IsWriter (p.1.encode p.2) := fun p => p.1.encode_writer p.2
        refine (Tells.bind (R' := as = bs) (Ty.tells t v w none g1.1 g2.1 g1.2 g2.2)
          (.encodeAll hw as) (.encodeAll hw bs) fun _ => ?_).imp fun h => by rw [h.1, h.2]
        exact ih bs h4 (fun p hp => h1 p (List.mem_cons_of_mem _ hp)) fun p hp => h2 p (List.mem_cons_of_mem _ hp)
  intro as bs s sa sb x y h1 h2 h3 h4 h5 h6 h7
  exact (key as bs (h1.trans h2.symm) h3 h4 s sa sb x y h5 h6 h7).1

/-! ## The hypotheses -/

/-- A key, an optional short string (whose decoder is wrong, `C13_short_unaligned_violated`), a list, and an open
type. -/
def exampleMessage : Ty :=
  .sequence true 1 (.required true (.integer .u8 (some 0) (some 255) false)
    (.optional 0 (.charstring .printable (some 1) (some 20) false)
      (.required false (.sequenceOf (some 0) (some 3) false .boolean)
        (.required false (.openType (.cons 1 false (.integer .i64 none none false)
          (.cons 2 false .boolean .nil))) .nil))))

/-- One value, -/
def exampleOne : exampleMessage.Val := ((1 : Int), some "a", ([true] : List Bool), .inl (-5 : Int), ())
/-- and another. -/
def exampleTwo : exampleMessage.Val := ((2 : Int), none, ([] : List Bool), .inr (.inl true), ())

theorem sizeOf_lt {l u : Int} {n : Nat} (h1 : 0 ≤ l) (h2 : l ≤ n) (h3 : n ≤ u) (h4 : u < 65536) :
    SizeOk (some l) (some u) n :=
  ⟨⟨fun _ h => by cases h; omega, fun _ h => by cases h; omega⟩,
    ⟨fun _ h => by cases h; omega, fun _ h => by cases h; omega⟩, .inl ⟨u, rfl, h4⟩⟩

example : exampleMessage.Sendable exampleOne ∧ exampleMessage.KeysOk exampleOne none :=
  ⟨⟨⟨by decide, by decide⟩, (by decide : Width.u8.Fits 1), (sizeOf_lt (n := 2) (by decide) (by decide) (by decide) (by decide)).1,
    ⟨sizeOf_lt (by decide) (by decide) (by decide) (by decide), fun _ _ => trivial⟩,
    (by decide : Width.i64.Fits (-5)), trivial⟩,
    trivial, trivial, ⟨trivial, trivial⟩, ⟨⟨1, rfl, rfl⟩, trivial⟩, trivial⟩

example : exampleMessage.Sendable exampleTwo ∧ exampleMessage.KeysOk exampleTwo none :=
  ⟨⟨⟨by decide, by decide⟩, (by decide : Width.u8.Fits 2), trivial,
    ⟨sizeOf_lt (by decide) (by decide) (by decide) (by decide), fun _ _ => trivial⟩, trivial, trivial⟩,
    trivial, trivial, trivial, ⟨⟨2, rfl, by decide, rfl⟩, trivial⟩, trivial⟩

example : (match exampleMessage.encode exampleOne Codec.new,
      exampleMessage.encode exampleTwo Codec.new with
    | .ok _ sa, .ok _ sb => decide (¬ sa.bits <+: sb.bits ∧ sa.intoBytes ≠ sb.intoBytes)
    | _, _ => false) = true := by decide +kernel

/-- Outside the sizes two values do share an encoding: the error for three elements where two are allowed is
dropped (`C41`), and the elements alone read as a list of one. -/
theorem C120_too_long_shares :
    let t := Ty.sequenceOf (some 0) (some 2) false .boolean
    ∃ s, t.encode ([false, true, true] : List Bool) Codec.new = .ok () s ∧
      t.encode ([true] : List Bool) Codec.new = .ok () s := ⟨_, rfl, rfl⟩

end Hampi
