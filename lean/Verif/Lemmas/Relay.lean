import Verif.Spec.Relay
import Verif.Props.Derived
/-!
# What a decoder returns is well-formed
-/
namespace Hampi
open Spec (SizeBounds Within)

theorem usizeBound_spec {lb ub : Option Int} (h1 : usizeBound lb = true) (h2 : usizeBound ub = true) :
    SizeBounds lb ub := by
  constructor
  · rintro l rfl
    exact of_decide_eq_true h1
  · rintro l rfl
    exact of_decide_eq_true h2

theorem chkI128_inv {v w : Int} {s s' : Codec} (h : chkI128 v s = .ok w s') : IsI128 w := by
  unfold chkI128 at h
  split at h
  · cases h; assumption
  · cases h

/-- A number read with both bounds is an `i128`. -/
theorem decodeConstrained_i128 {lb ub v : Int} {s s' : Codec} (h : decodeConstrained lb ub s = .ok v s') : IsI128 v := by
  unfold decodeConstrained decodeConstrainedWith at h
  obtain ⟨d, s1, h1, h⟩ := bind_ok h
  obtain ⟨r, s2, h2, h⟩ := bind_ok h
  split at h
  · cases h
  · obtain ⟨x, s3, h3, h⟩ := bind_ok h
    exact chkI128_inv h

theorem decodeChoiceIdx_i128 {lb ub : Int} {ext : Bool} {r : Int × Bool} {s s' : Codec}
    (h : decodeChoiceIdx lb ub ext s = .ok r s') (hr : r.2 = false) : IsI128 r.1 := by
  have hi : ∀ {s s' : Codec} {v : Int × Bool}, decodeInteger (some lb) (some ub) false s = .ok v s' → IsI128 v.1 := by
    intro s s' v h
    unfold decodeInteger at h
    obtain ⟨e, s1, h1, h⟩ := bind_ok h
    obtain ⟨x, s2, h2, h⟩ := bind_ok h
    cases h
    cases h1
    exact decodeConstrained_i128 h2
  unfold decodeChoiceIdx at h
  cases ext with
  | true =>
    obtain ⟨e, s1, h1, h⟩ := bind_ok h
    cases e with
    | false =>
      obtain ⟨x, s2, h2, h⟩ := bind_ok h
      cases h
      exact hi (v := x) h2
    | true =>
      obtain ⟨x, s2, h2, h⟩ := bind_ok h
      cases h
      cases hr
  | false =>
    obtain ⟨x, s2, h2, h⟩ := bind_ok h
    cases h
    exact hi (v := x) h2

theorem cast_ok {w : Width} {lb : Option Int} (h : (lb.isSome || decide (w ≠ .u64)) = true) (n : Int) :
    IntValueOk w lb (w.cast n) := by
  refine ⟨(w.cast_spec n).1, ?_⟩
  rintro rfl
  have hw : w ≠ .u64 := by simpa using h
  have := (w.cast_spec n).1
  revert this
  unfold Width.Fits
  cases w <;> simp [Width.signed, Width.bits] at hw ⊢ <;> omega

theorem decodeTimes_all {α : Type} {dec : M α} {P : α → Prop} (h : ∀ s x s', dec s = .ok x s' → P x) :
    (n : Nat) → (s : Codec) → (l : List α) → (s' : Codec) → decodeTimes dec n s = .ok l s' → ∀ x ∈ l, P x
  | 0, s, l, s', hd => by cases hd; exact fun x hx => by cases hx
  | n + 1, s, l, s', hd => by
    obtain ⟨x, s1, h1, hd⟩ := bind_ok hd
    obtain ⟨xs, s2, h2, hd⟩ := bind_ok hd
    cases hd
    intro y hy
    rcases List.mem_cons.mp hy with rfl | hy
    · exact h _ _ _ h1
    · exact decodeTimes_all h n _ _ _ h2 y hy

mutual

theorem Ty.decode_wf : (t : Ty) → t.Usual = true → (s : Codec) → (v : t.Val) → (s' : Codec) → t.decode s = .ok v s' →
    t.Relayable v → t.Wf v
  | .boolean, _, _, _, _, _, _ => trivial
  | .null, _, _, _, _, _, _ => trivial
  | .integer w lb ub ext, hr, s, v, s', h, _ => by
    obtain ⟨d, s1, h1, h⟩ := bind_ok (m := decodeInteger lb ub ext) h
    cases h
    exact cast_ok hr _
  | .enumerated w lb ub ext, hr, s, v, s', h, _ => by
    obtain ⟨d, s1, h1, h⟩ := bind_ok (m := decodeEnumerated lb ub ext) h
    cases h
    exact cast_ok hr _
  | .bitstring lb ub ext, hr, s, v, s', h, _ => by
    have hr := Bool.and_eq_true _ _ ▸ hr
    exact usizeBound_spec hr.1 hr.2
  | .octetstring lb ub ext, hr, s, v, s', h, _ => by
    have hr := Bool.and_eq_true _ _ ▸ hr
    exact usizeBound_spec hr.1 hr.2
  | .charstring _ lb ub ext, hr, s, v, s', h, hv => by
    have hr := Bool.and_eq_true _ _ ▸ hr
    exact ⟨usizeBound_spec hr.1 hr.2, hv⟩
  | .objectIdentifier, _, _, _, _, _, _ => trivial
  | .sequence ext n fs, hr, s, v, s', h, hv => by
    obtain ⟨hd, s1, h1, h⟩ := bind_ok (m := decodeSequenceHeader ext n) h
    simp only [Ty.Usual, Bool.and_eq_true, decide_eq_true_eq, List.all_eq_true] at hr
    exact ⟨⟨hr.1.1, hr.1.2⟩, Fields.decode_wf fs hr.2 _ _ v _ h hv⟩
  | .sequenceOf lb ub ext e, hr, s, v, s', h, hv => by
    obtain ⟨n, s1, h1, h⟩ := bind_ok (m := decodeLength lb ub ext) h
    obtain ⟨hn, h⟩ := decodeLoop_ok h
    refine ⟨?_, hv.1, ?_⟩
    · rintro rfl
      exact hn (decodeTimes_length n _ _ _ h).symm
    · exact fun x hx => decodeTimes_all (fun s x s' hx => Ty.decode_wf e hr s x s' hx) n _ _ _ h x hx (hv.2 x hx)
  | .choice lb ub ext as, hr, s, v, s', h, hv => by
    obtain ⟨⟨k, b⟩, s1, h1, h⟩ := bind_ok (m := decodeChoiceIdx lb ub ext) h
    cases b with
    | true => cases h
    | false =>
      have hs := (Alts.decode_keyed as k s1 v s' h).2.2
      have hk := Alts.Selects.keyOf as k v hs
      show as.Selects (as.keyOf v) v ∧ IsI128 (as.keyOf v) ∧ as.Wf v
      rw [hk]
      exact ⟨hs, decodeChoiceIdx_i128 h1 rfl, Alts.decode_wf as hr k s1 v s' h hv⟩
  | .openType as, hr, s, v, s', h, hv => by
    obtain ⟨n, s1, h1, h⟩ := bind_ok (m := decodeLength none none false) h
    obtain ⟨k, s2, h2, h⟩ := bind_ok (m := requireKey) h
    exact Alts.decode_wf as hr k s2 v s' h hv

theorem Fields.decode_wf : (fs : Fields) → fs.Usual = true → (bm : List Bool) → (s : Codec) → (v : fs.Val) →
    (s' : Codec) → fs.decode bm s = .ok v s' → fs.Relayable v → fs.Wf v
  | .nil, _, _, _, _, _, _, _ => trivial
  | .required k t rest, hr, bm, s, v, s', h, hv => by
    simp only [Fields.Usual, Bool.and_eq_true] at hr
    obtain ⟨x, s1, h1, h⟩ := bind_ok (m := t.decode) h
    obtain ⟨_, s2, h2, h⟩ := bind_ok (m := setKeyFrom k t x) h
    obtain ⟨vs, s3, h3, h⟩ := bind_ok (m := rest.decode bm) h
    cases h
    exact ⟨Ty.decode_wf t hr.1 _ _ _ h1 hv.1, Fields.decode_wf rest hr.2 _ _ _ _ h3 hv.2⟩
  | .optional i t rest, hr, bm, s, v, s', h, hv => by
    simp only [Fields.Usual, Bool.and_eq_true] at hr
    obtain ⟨b, s1, h1, h⟩ := bind_ok (m := present bm i) h
    obtain ⟨x, s2, h2, h⟩ := bind_ok
      (m := if b then t.decode >>= fun x => pure (some x) else pure none) h
    obtain ⟨vs, s3, h3, h⟩ := bind_ok (m := rest.decode bm) h
    cases h
    refine ⟨?_, Fields.decode_wf rest hr.2 _ _ _ _ h3 hv.2⟩
    cases b with
    | false => cases h2; trivial
    | true =>
      obtain ⟨y, s4, h4, h2⟩ := bind_ok (m := t.decode) h2
      cases h2
      exact Ty.decode_wf t hr.1 _ _ _ h4 hv.1

theorem Alts.decode_wf : (as : Alts) → as.Usual = true → (k : Int) → (s : Codec) → (v : as.Val) → (s' : Codec) →
    as.decode k s = .ok v s' → as.Relayable v → as.Wf v
  | .nil, _, _, _, _, _, h, _ => by cases h
  | .cons key x t rest, hr, k, s, v, s', h, hv => by
    simp only [Alts.Usual, Bool.and_eq_true] at hr
    unfold Alts.decode at h
    split at h
    · obtain ⟨y, s1, h1, h⟩ := bind_ok (m := t.decode) h
      cases h
      exact Ty.decode_wf t hr.1 _ _ _ h1 hv
    · obtain ⟨y, s1, h1, h⟩ := bind_ok (m := rest.decode k) h
      cases h
      exact Alts.decode_wf rest hr.2 _ _ _ _ h1 hv

end

end Hampi
