import Verif.Spec.Obeys
import Verif.Lemmas.Relay
import Verif.Lemmas.Canonical
import Verif.Props.Layout
import Verif.Props.Integers
/-!
# Values that get through obey their type
-/
namespace Hampi
open Spec (SizeBounds Within)

/-! ## Characters and octets -/

theorem utf8_length (v : String) : (utf8 v).length = (v.toList.map Char.utf8Size).sum := by
  have h : utf8 v = v.toList.flatMap String.utf8EncodeChar := by
    unfold utf8
    rw [String.toUTF8_eq_toByteArray, ← String.utf8Encode_toList, List.utf8Encode]
    simp
  rw [h, List.length_flatMap]
  congr 1
  exact List.map_congr_left fun c _ => String.length_utf8EncodeChar c

theorem utf8Sizes_ge : (l : List Char) → l.length ≤ (l.map Char.utf8Size).sum
  | [] => Nat.le_refl _
  | c :: l => by
    have := utf8Sizes_ge l
    have := Char.utf8Size_pos c
    simp only [List.map_cons, List.sum_cons, List.length_cons]
    omega

theorem utf8Sizes_ascii : (l : List Char) → (∀ c ∈ l, c.toNat < 128) → (l.map Char.utf8Size).sum = l.length
  | [], _ => rfl
  | c :: l, h => by
    have h1 := utf8Sizes_ascii l fun x hx => h x (.tail _ hx)
    have h2 : c.utf8Size = 1 := by
      rw [Char.utf8Size_eq_one_iff]
      have := h c (.head _)
      have hc : c.toNat = c.val.toNat := rfl
      exact UInt32.le_iff_toNat_le.mpr (by simp; omega)
    simp only [List.map_cons, List.sum_cons, List.length_cons]
    omega

/-- Characters of these alphabets are ASCII. -/
theorem inAlphabet_ascii {k : CharKind} {c : Char} (hk : k ≠ .utf8) (h : inAlphabet k c = true) : c.toNat < 128 := by
  cases k with
  | utf8 => exact absurd rfl hk
  | visible =>
    have := of_decide_eq_true h
    omega
  | printable =>
    have h' : c.isAlphanum = true ∨ [' ', '\'', '(', ')', '+', ',', '-', '.', '/', ':', '=', '?'].contains c = true := by
      simpa [inAlphabet] using h
    rcases h' with h | h
    · simp only [Char.isAlphanum, Char.isAlpha, Char.isUpper, Char.isLower, Char.isDigit, Bool.or_eq_true,
        Bool.and_eq_true, decide_eq_true_eq, UInt32.le_iff_toNat_le, ge_iff_le] at h
      have hc : c.toNat = c.val.toNat := rfl
      rw [hc]
      rcases h with (⟨-, h⟩ | ⟨-, h⟩) | ⟨-, h⟩ <;> simp at h <;> omega
    · simp at h
      rcases h with rfl | rfl | rfl | rfl | rfl | rfl | rfl | rfl | rfl | rfl | rfl | rfl <;> decide

/-- Text whose octets are within the bounds has so many characters. -/
theorem text_within {k : CharKind} {lb ub : Option Int} {v : String} (h : Within lb ub (utf8 v).length)
    (hv : (Ty.charstring k lb ub ext).Careful lists v) : Within lb ub v.length := by
  have hl : v.length = v.toList.length := String.length_toList.symm
  have hge := utf8Sizes_ge v.toList
  rw [utf8_length] at h
  refine ⟨?_, fun u hu => by have := h.2 u hu; omega⟩
  intro l hl'
  have h1 := h.1 l hl'
  by_cases hk : k = .utf8
  · rcases hv.2 hk with hv | hv
    · have := hv l hl'
      omega
    · rw [utf8Sizes_ascii _ hv] at h1
      omega
  · rw [utf8Sizes_ascii _ fun c hc => inAlphabet_ascii hk (hv.1 c hc)] at h1
    omega

/-! ## Sending -/

theorem encodeInteger_obeys {lb ub : Option Int} {ext : Bool} (hf : (ext || lb.isSome || ub.isNone) = true) {v : Int}
    {s s' : Codec} (h : encodeInteger lb ub ext v false s = .ok () s') : ext = true ∨ Within lb ub v := by
  cases lb with
  | none =>
    cases ext with
    | true => exact .inl rfl
    | false =>
      cases ub with
      | none => exact .inr ⟨fun _ h => by (cases h), fun _ h => by (cases h)⟩
      | some u => simp at hf
  | some l =>
    right
    cases ub with
    | none =>
      refine ⟨fun l' hl => ?_, fun _ h => by (cases h)⟩
      cases hl
      apply Classical.byContradiction
      intro hlt
      obtain ⟨w, -, hw⟩ := C03_below_lower_bound_refused l v ext s (by omega)
      rw [hw] at h
      cases h
    | some u =>
      have : ¬ (v < l ∨ u < v) := by
        intro hlt
        obtain ⟨w, -, hw⟩ := C03_out_of_bounds_refused l u v ext s hlt
        rw [hw] at h
        cases h
      refine ⟨fun l' hl => ?_, fun u' hu => ?_⟩
      · cases hl; omega
      · cases hu; omega

theorem encodeEnumerated_obeys {lb ub : Option Int} {ext : Bool} (hf : (ext || lb.isSome || ub.isNone) = true) {v : Int}
    {s s' : Codec} (h : encodeEnumerated lb ub ext v false s = .ok () s') : ext = true ∨ Within lb ub v := by
  unfold encodeEnumerated at h
  simp only [Bool.false_eq_true, if_false] at h
  obtain ⟨_, t, -, h⟩ := bind_ok h
  cases ext with
  | true => exact .inl rfl
  | false => exact encodeInteger_obeys hf h

theorem encodeCharstring_size {k : CharKind} {lb ub : Option Int} {ext : Bool} (hb : SizeBounds lb ub) {v : String}
    {s s' : Codec} (h : encodeCharstring k lb ub ext v false s = .ok () s') : Within lb ub (utf8 v).length := by
  cases k <;> exact C34_string_size lb ub hb ext v false s s' h

theorem encodeAll_inv {α : Type} {enc : α → M Unit} {P : α → Prop} :
    (l : List α) → (∀ x ∈ l, ∀ s s', enc x s = .ok () s' → P x) → (s s' : Codec) → encodeAll enc l s = .ok () s' →
      ∀ x ∈ l, P x
  | [], _, _, _, _, x, hx => by cases hx
  | x :: xs, hP, s, s', h, y, hy => by
    obtain ⟨_, s1, h1, h⟩ := bind_ok (m := enc x) h
    rcases List.mem_cons.mp hy with rfl | hy
    · exact hP _ (.head _) _ _ h1
    · exact encodeAll_inv xs (fun z hz => hP z (.tail _ hz)) _ _ h y hy

theorem encodeOpen_inv {m : M Unit} {s s' : Codec} (h : encodeOpen m s = .ok () s') : ∃ t, m Codec.new = .ok () t := by
  unfold encodeOpen at h
  cases hm : m Codec.new with
  | ok a t => exact ⟨t, rfl⟩
  | err t => rw [hm] at h; cases h
  | panic => rw [hm] at h; cases h

mutual

theorem Ty.encode_obeys : (t : Ty) → t.Floored = true → (v : t.Val) → t.Careful true v → (s s' : Codec) →
    t.encode v s = .ok () s' → t.Obeys v
  | .boolean, _, _, _, _, _, _ => trivial
  | .null, _, _, _, _, _, _ => trivial
  | .integer w lb ub ext, hf, v, _, s, s', h => encodeInteger_obeys hf h
  | .enumerated w lb ub ext, hf, v, _, s, s', h => encodeEnumerated_obeys hf h
  | .bitstring lb ub ext, hf, v, _, s, s', h => by
    have hf := Bool.and_eq_true _ _ ▸ hf
    exact .inr (C34_bitstring_size lb ub (usizeBound_spec hf.1 hf.2) ext v false s s' h)
  | .octetstring lb ub ext, hf, v, _, s, s', h => by
    have hf := Bool.and_eq_true _ _ ▸ hf
    exact .inr (C34_octetstring_size lb ub (usizeBound_spec hf.1 hf.2) ext v false s s' h)
  | .charstring k lb ub ext, hf, v, hv, s, s', h => by
    have hf := Bool.and_eq_true _ _ ▸ hf
    exact ⟨.inr (text_within (encodeCharstring_size (usizeBound_spec hf.1 hf.2) h) hv), hv.1⟩
  | .objectIdentifier, _, _, _, _, _, _ => trivial
  | .sequence ext n fs, hf, v, hv, s, s', h => by
    obtain ⟨_, s1, -, h⟩ := bind_ok (m := encodeHeader fs v ext n) h
    exact Fields.encode_obeys fs hf v hv _ _ h
  | .sequenceOf lb ub ext e, hf, v, hv, s, s', h => by
    obtain ⟨_, s1, -, h⟩ := bind_ok (m := M.ignoreErr (encodeLength lb ub ext (List.length v))) h
    exact ⟨hv.1 rfl, encodeAll_inv _ (fun x hx s s' h => Ty.encode_obeys e hf x (hv.2 x hx) s s' h) _ _ h⟩
  | .choice lb ub ext as, hf, v, hv, s, s', h => by
    obtain ⟨_, s1, -, h⟩ := bind_ok (m := encodeChoiceIdx lb ub ext (as.keyOf v) (as.extendedOf v)) h
    exact Alts.encode_obeys as hf v hv _ _ h
  | .openType as, hf, v, hv, s, s', h => by
    obtain ⟨t, ht⟩ := encodeOpen_inv h
    exact Alts.encode_obeys as hf v hv _ _ ht

theorem Fields.encode_obeys : (fs : Fields) → fs.Floored = true → (v : fs.Val) → fs.Careful true v → (s s' : Codec) →
    fs.encode v s = .ok () s' → fs.Obeys v
  | .nil, _, _, _, _, _, _ => trivial
  | .required k t rest, hf, v, hv, s, s', h => by
    simp only [Fields.Floored, Bool.and_eq_true] at hf
    obtain ⟨_, s1, h1, h⟩ := bind_ok (m := t.encode v.1) h
    exact ⟨Ty.encode_obeys t hf.1 v.1 hv.1 _ _ h1, Fields.encode_obeys rest hf.2 v.2 hv.2 _ _ h⟩
  | .optional i t rest, hf, (some x, v), hv, s, s', h => by
    simp only [Fields.Floored, Bool.and_eq_true] at hf
    obtain ⟨_, s1, h1, h⟩ := bind_ok (m := t.encode x) h
    exact ⟨Ty.encode_obeys t hf.1 x hv.1 _ _ h1, Fields.encode_obeys rest hf.2 v hv.2 _ _ h⟩
  | .optional i t rest, hf, (none, v), hv, s, s', h => by
    simp only [Fields.Floored, Bool.and_eq_true] at hf
    obtain ⟨_, s1, h1, h⟩ := bind_ok (m := pure ()) h
    exact ⟨trivial, Fields.encode_obeys rest hf.2 v hv.2 _ _ h⟩

theorem Alts.encode_obeys : (as : Alts) → as.Floored = true → (v : as.Val) → as.Careful true v → (s s' : Codec) →
    as.encode v s = .ok () s' → as.Obeys v
  | .cons _ _ t rest, hf, .inl v, hv, s, s', h => by
    simp only [Alts.Floored, Bool.and_eq_true] at hf
    exact Ty.encode_obeys t hf.1 v hv _ _ h
  | .cons _ _ t rest, hf, .inr v, hv, s, s', h => by
    simp only [Alts.Floored, Bool.and_eq_true] at hf
    exact Alts.encode_obeys rest hf.2 v hv _ _ h

end

/-! ## Receiving -/

theorem fillsField_spec {R : Int} (h : fillsField R = true) : FullRange R := by
  unfold fillsField at h
  simp at h
  rcases h with rfl | rfl | rfl | rfl | rfl | rfl | rfl | rfl | rfl | rfl
  · exact .inl ⟨0, by omega, rfl⟩
  · exact .inl ⟨1, by omega, rfl⟩
  · exact .inl ⟨2, by omega, rfl⟩
  · exact .inl ⟨3, by omega, rfl⟩
  · exact .inl ⟨4, by omega, rfl⟩
  · exact .inl ⟨5, by omega, rfl⟩
  · exact .inl ⟨6, by omega, rfl⟩
  · exact .inl ⟨7, by omega, rfl⟩
  · exact .inl ⟨8, by omega, rfl⟩
  · exact .inr rfl

theorem Width.fits_between {w : Width} {l u v : Int} (hl : w.Fits l) (hu : w.Fits u) (h1 : l ≤ v) (h2 : v ≤ u) :
    w.Fits v := by
  unfold Width.Fits at *
  split at hl <;> simp_all <;> omega

theorem Width.least_le (w : Width) (n : Int) : w.least ≤ w.cast n := by
  have h := (w.cast_spec n).1
  unfold Width.Fits at h
  unfold Width.least
  split at h <;> simp_all

theorem decodeIntegerValue_obeys {w : Width} {lb ub : Option Int} (hf : numberFilled w lb ub = true) {v : Int}
    {s s' : Codec} (h : decodeIntegerValue lb ub false s = .ok v s') : Within lb ub (w.cast v) := by
  unfold numberFilled at hf
  split at hf
  · exact ⟨fun _ h => by (cases h), fun _ h => by (cases h)⟩
  · cases hf
  · rename_i l
    refine ⟨fun l' hl => ?_, fun _ h => by (cases h)⟩
    cases hl
    have := of_decide_eq_true hf
    have := w.least_le v
    omega
  · rename_i l u
    simp only [Bool.and_eq_true, decide_eq_true_eq] at hf
    have hd : decodeInteger (some l) (some u) false s = .ok (v, false) s' := by
      show (decodeIntegerValue (some l) (some u) false >>= fun value => pure (value, false)) s = _
      rw [M.bind_apply, h]
      rfl
    have hv := C06_decoded_in_bounds_partial l u v s s' false (fillsField_spec hf.1.1) hd
    rw [Width.cast_of_fits (Width.fits_between hf.1.2 hf.2 hv.1 hv.2)]
    refine ⟨fun l' hl => ?_, fun u' hu => ?_⟩
    · cases hl; exact hv.1
    · cases hu; exact hv.2

theorem decodeInteger_obeys {w : Width} {lb ub : Option Int} {ext : Bool} (hf : (ext || numberFilled w lb ub) = true)
    {r : Int × Bool} {s s' : Codec} (h : decodeInteger lb ub ext s = .ok r s') : ext = true ∨ Within lb ub (w.cast r.1) := by
  cases ext with
  | true => exact .inl rfl
  | false =>
    unfold decodeInteger at h
    obtain ⟨e, s1, h1, h⟩ := bind_ok h
    cases h1
    obtain ⟨x, s2, h2, h⟩ := bind_ok h
    cases h
    exact .inr (decodeIntegerValue_obeys hf h2)

theorem decodeEnumerated_obeys {w : Width} {lb ub : Option Int} {ext : Bool} (hf : (ext || numberFilled w lb ub) = true)
    {r : Int × Bool} {s s' : Codec} (h : decodeEnumerated lb ub ext s = .ok r s') :
    ext = true ∨ Within lb ub (w.cast r.1) := by
  cases ext with
  | true => exact .inl rfl
  | false =>
    unfold decodeEnumerated at h
    obtain ⟨e, s1, h1, h⟩ := bind_ok h
    cases h1
    obtain ⟨x, s2, h2, h⟩ := bind_ok h
    cases h
    obtain ⟨y, s3, h3, h2⟩ := bind_ok (m := decodeInteger lb ub false) h2
    cases h2
    exact decodeInteger_obeys (ext := false) (r := y) hf h3

theorem decodeLength_size {below least : Int} (hb : below ≤ 65536) {lb ub : Option Int}
    (hf : sizeFilled below least lb ub = true)
    {n : Nat} {s s' : Codec} (h : decodeLength lb ub false s = .ok n s') :
    (least ≤ n → Within lb ub n) ∧ (ub ≠ none → n < below) := by
  unfold decodeLength at h
  simp only [Bool.false_eq_true, if_false] at h
  obtain ⟨l, s1, h1, h⟩ := bind_ok h
  have hl : (l : Int) = lb.getD 0 := by
    cases lb with
    | none => cases h1; rfl
    | some l' =>
      simp only [lengthLowerBound, toUsizeOrPanic] at h1
      split at h1
      · cases h1
        simp
        omega
      · cases h1
  have hlb : ∀ l', lb = some l' → l' = l := by rintro _ rfl; simpa using hl.symm
  cases ub with
  | none =>
    have hf := of_decide_eq_true hf
    refine ⟨fun hn => ⟨fun l' hl' => ?_, fun _ h => by (cases h)⟩, fun h => absurd rfl h⟩
    rw [hlb l' hl']
    omega
  | some u =>
    simp only [sizeFilled, Bool.and_eq_true, decide_eq_true_eq] at hf
    obtain ⟨u', s2, h2, h⟩ := bind_ok h
    have hu : (u' : Int) = u := by
      simp only [toUsizeOrPanic] at h2
      split at h2
      · cases h2
        omega
      · cases h2
    rw [if_pos (by omega)] at h
    have hn : (l : Int) ≤ n ∧ (n : Int) ≤ u := by
      split at h
      · cases h
        omega
      · unfold decodeConstrainedLength at h
        split at h
        · cases h
        · split at h
          · obtain ⟨x, s3, h3, h⟩ := bind_ok h
            cases h
            have hd : decodeInteger (some (l : Int)) (some (u' : Int)) false s2 = .ok (x, false) s' := by
              show (decodeConstrained l u' >>= fun value => pure (value, false)) s2 = _
              rw [M.bind_apply, h3]
              rfl
            have hx := C06_decoded_in_bounds_partial l u' x _ _ _ (by rw [hu, hl]; exact fillsField_spec hf.2) hd
            unfold asUsize
            omega
          · cases h
    refine ⟨fun _ => ⟨fun l' hl' => ?_, fun u'' hu' => ?_⟩, fun _ => by omega⟩
    · rw [hlb l' hl']; exact hn.1
    · cases hu'; exact hn.2

theorem decodeFragments_size {α : Type} {lb ub : Option Int} (hf : sizeFilled 16384 0 lb ub = true) {k : Nat}
    {units : Nat → M (List α)} (hu : ∀ n s l s', units n s = .ok l s' → l.length = n) {v : List α} {s s' : Codec}
    (h : decodeFragments (decodeLength lb ub false) k units s = .ok v s') : Within lb ub v.length := by
  cases ub with
  | none =>
    have hf := of_decide_eq_true hf
    refine ⟨fun l' hl' => ?_, fun _ h => by (cases h)⟩
    subst hl'
    simp at hf
    omega
  | some u =>
    unfold decodeFragments at h
    rw [fragLoop] at h
    obtain ⟨n, s1, h1, h⟩ := bind_ok h
    obtain ⟨c, s2, h2, h⟩ := bind_ok h
    have hn := decodeLength_size (by omega) hf h1
    have hn2 := hn.2 (by simp)
    rw [if_neg (by omega)] at h
    cases h
    have hc : c.length = n := by
      unfold decodeChunk at h2
      split at h2
      · obtain ⟨_, s3, h3, h2⟩ := bind_ok h2
        exact hu _ _ _ _ h2
      · cases h2
        simp
        omega
    rw [List.nil_append, hc]
    exact hn.1 (by omega)

theorem getBitvec_size (n : Nat) (s : Codec) (l : List Bool) (s' : Codec) (h : getBitvec n s = .ok l s') :
    l.length = n := by
  rw [getBitvec_eq] at h
  exact (takeBits_length h).1

theorem getBytes_size (n : Nat) (s : Codec) (l : List UInt8) (s' : Codec) (h : getBytes n s = .ok l s') :
    l.length = n := by
  rw [getBytes_eq] at h
  obtain ⟨b, t, h1, h2⟩ := bind_ok h
  cases h2
  exact (bytesBits_bitsBytes_of (takeBits_length h1).1).1

theorem loadChunks_size (h : Nat) : (n : Nat) → (l : List Bool) → l.length = n * 8 → (loadChunks h l).length = n
  | 0, l, hl => by
    have : l = [] := List.length_eq_zero_iff.mp (by omega)
    subst this
    rfl
  | n + 1, l, hl => by
    match l, hl with
    | b0 :: b1 :: b2 :: b3 :: b4 :: b5 :: b6 :: b7 :: rest, hl =>
      simp only [loadChunks, List.length_cons]
      rw [loadChunks_size h n rest (by simp at hl; omega)]
    | [], hl | [_], hl | [_, _], hl | [_, _, _], hl | [_, _, _, _], hl | [_, _, _, _, _], hl
    | [_, _, _, _, _, _], hl | [_, _, _, _, _, _, _], hl => simp at hl <;> omega

theorem decodeString_size {lb ub : Option Int} (hf : sizeFilled 16384 0 lb ub = true) {v : String} {s s' : Codec}
    (h : decodeString lb ub false s = .ok v s') : Within lb ub (utf8 v).length := by
  unfold decodeString at h
  obtain ⟨e, s1, h1, h⟩ := bind_ok h
  cases h1
  obtain ⟨n, s2, h2, h⟩ := bind_ok h
  obtain ⟨_, s3, h3, h⟩ := bind_ok h
  obtain ⟨b, s4, h4, h⟩ := bind_ok h
  have hb : b.2.length = n * 8 := by
    unfold getBitvecStored at h4
    obtain ⟨l, s5, h5, h4⟩ := bind_ok h4
    cases h4
    exact getBitvec_size _ _ _ _ h5
  have hv : (utf8 v).length = n := by
    unfold decodeText at h
    cases hstr : fromUtf8 (loadChunks b.1 b.2) with
    | some str =>
      rw [hstr] at h
      cases h
      rw [fromUtf8_eq_some_iff.mp hstr]
      exact loadChunks_size _ _ _ hb
    | none =>
      rw [hstr] at h
      cases h
  rw [hv]
  exact (decodeLength_size (by omega) hf h2).1 (by omega)

mutual

theorem Ty.decode_obeys : (t : Ty) → t.Filled = true → (s : Codec) → (v : t.Val) → (s' : Codec) →
    t.decode s = .ok v s' → t.Careful false v → t.Obeys v
  | .boolean, _, _, _, _, _, _ => trivial
  | .null, _, _, _, _, _, _ => trivial
  | .integer w lb ub ext, hr, s, v, s', h, _ => by
    obtain ⟨d, s1, h1, h⟩ := bind_ok (m := decodeInteger lb ub ext) h
    cases h
    exact decodeInteger_obeys hr h1
  | .enumerated w lb ub ext, hr, s, v, s', h, _ => by
    obtain ⟨d, s1, h1, h⟩ := bind_ok (m := decodeEnumerated lb ub ext) h
    cases h
    exact decodeEnumerated_obeys hr h1
  | .bitstring lb ub true, hr, s, v, s', h, _ => .inl rfl
  | .bitstring lb ub false, hr, s, v, s', h, _ => .inr (decodeFragments_size hr getBitvec_size h)
  | .octetstring lb ub true, hr, s, v, s', h, _ => .inl rfl
  | .octetstring lb ub false, hr, s, v, s', h, _ => .inr (decodeFragments_size hr getBytes_size h)
  | .charstring k lb ub true, hr, s, v, s', h, hv => ⟨.inl rfl, hv.1⟩
  | .charstring k lb ub false, hr, s, v, s', h, hv => by
    have hd : decodeString lb ub false s = .ok v s' := by cases k <;> exact h
    exact ⟨.inr (text_within (decodeString_size hr hd) hv), hv.1⟩
  | .objectIdentifier, _, _, _, _, _, _ => trivial
  | .sequence ext n fs, hr, s, v, s', h, hv => by
    obtain ⟨hd, s1, h1, h⟩ := bind_ok (m := decodeSequenceHeader ext n) h
    exact Fields.decode_obeys fs hr _ _ v _ h hv
  | .sequenceOf lb ub ext e, hr, s, v, s', h, hv => by
    simp only [Ty.Filled, Bool.and_eq_true] at hr
    obtain ⟨n, s1, h1, h⟩ := bind_ok (m := decodeLength lb ub ext) h
    obtain ⟨hn, h⟩ := decodeLoop_ok h
    refine ⟨?_, ?_⟩
    · cases ext with
      | true => exact .inl rfl
      | false =>
        right
        have hl := decodeTimes_length n _ _ _ h
        have := (decodeLength_size (by omega) hr.1 h1).1 (by omega)
        rw [← hl] at this
        exact this
    · exact fun x hx => decodeTimes_all (fun s x s' hx => Ty.decode_obeys e hr.2 s x s' hx) n _ _ _ h x hx (hv.2 x hx)
  | .choice lb ub ext as, hr, s, v, s', h, hv => by
    obtain ⟨⟨k, b⟩, s1, h1, h⟩ := bind_ok (m := decodeChoiceIdx lb ub ext) h
    cases b with
    | true => cases h
    | false => exact Alts.decode_obeys as hr k s1 v s' h hv
  | .openType as, hr, s, v, s', h, hv => by
    obtain ⟨n, s1, h1, h⟩ := bind_ok (m := decodeLength none none false) h
    obtain ⟨k, s2, h2, h⟩ := bind_ok (m := requireKey) h
    exact Alts.decode_obeys as hr k s2 v s' h hv

theorem Fields.decode_obeys : (fs : Fields) → fs.Filled = true → (bm : List Bool) → (s : Codec) → (v : fs.Val) →
    (s' : Codec) → fs.decode bm s = .ok v s' → fs.Careful false v → fs.Obeys v
  | .nil, _, _, _, _, _, _, _ => trivial
  | .required k t rest, hr, bm, s, v, s', h, hv => by
    simp only [Fields.Filled, Bool.and_eq_true] at hr
    obtain ⟨x, s1, h1, h⟩ := bind_ok (m := t.decode) h
    obtain ⟨_, s2, h2, h⟩ := bind_ok (m := setKeyFrom k t x) h
    obtain ⟨vs, s3, h3, h⟩ := bind_ok (m := rest.decode bm) h
    cases h
    exact ⟨Ty.decode_obeys t hr.1 _ _ _ h1 hv.1, Fields.decode_obeys rest hr.2 _ _ _ _ h3 hv.2⟩
  | .optional i t rest, hr, bm, s, v, s', h, hv => by
    simp only [Fields.Filled, Bool.and_eq_true] at hr
    obtain ⟨b, s1, h1, h⟩ := bind_ok (m := present bm i) h
    obtain ⟨x, s2, h2, h⟩ := bind_ok
      (m := if b then t.decode >>= fun x => pure (some x) else pure none) h
    obtain ⟨vs, s3, h3, h⟩ := bind_ok (m := rest.decode bm) h
    cases h
    refine ⟨?_, Fields.decode_obeys rest hr.2 _ _ _ _ h3 hv.2⟩
    cases b with
    | false => cases h2; trivial
    | true =>
      obtain ⟨y, s4, h4, h2⟩ := bind_ok (m := t.decode) h2
      cases h2
      exact Ty.decode_obeys t hr.1 _ _ _ h4 hv.1

theorem Alts.decode_obeys : (as : Alts) → as.Filled = true → (k : Int) → (s : Codec) → (v : as.Val) → (s' : Codec) →
    as.decode k s = .ok v s' → as.Careful false v → as.Obeys v
  | .nil, _, _, _, _, _, h, _ => by cases h
  | .cons key x t rest, hr, k, s, v, s', h, hv => by
    simp only [Alts.Filled, Bool.and_eq_true] at hr
    unfold Alts.decode at h
    split at h
    · obtain ⟨y, s1, h1, h⟩ := bind_ok (m := t.decode) h
      cases h
      exact Ty.decode_obeys t hr.1 _ _ _ h1 hv
    · obtain ⟨y, s1, h1, h⟩ := bind_ok (m := rest.decode k) h
      cases h
      exact Alts.decode_obeys rest hr.2 _ _ _ _ h1 hv

end

end Hampi
