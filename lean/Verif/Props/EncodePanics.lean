import Verif.Spec.EncodePanics
import Verif.Props.Panics
import Verif.Props.Derived
import Verif.Lemmas.DeriveOk
import Verif.Examples.Ngap
/-!
# C114: derived encoders do not panic
-/
namespace Hampi

open Spec (SizeBounds)

theorem Width.Fits.wide {w : Width} {v : Int} (h : w.Fits v) : -(2 ^ 64) ≤ v ∧ v < 2 ^ 64 := by
  cases w <;> simp only [Width.Fits, Width.signed, Width.bits] at h <;> simp at h <;> omega

theorem Returns.spanned {w : Width} {lb ub : Option Int} {v : Int} (h : w.Fits v ∧ SpanOk lb ub) (e x : Bool) :
    Returns (encodeInteger lb ub e v x) := by
  obtain ⟨hw, hs⟩ := h
  have hv := hw.wide
  refine .integer ⟨by omega, by omega⟩ ?_ ?_ e x
  · intro l hl hu
    subst hl hu
    obtain ⟨h1, h2⟩ := hs
    exact ⟨by omega, by omega⟩
  · intro l u hl hu
    subst hl hu
    exact hs

theorem Returns.ignoreErr {m : M Unit} (h : Returns m) : Returns m.ignoreErr := by
  intro s hs
  unfold M.ignoreErr at hs
  cases hm : m s with
  | ok a t => rw [hm] at hs; cases hs
  | err t => rw [hm] at hs; cases hs
  | panic => exact h s hm

theorem Returns.all {α : Type} {enc : α → M Unit} : (l : List α) → (∀ x ∈ l, Returns (enc x)) →
    Returns (encodeAll enc l)
  | [], _ => .pure
  | x :: l, h => .bind (h x List.mem_cons_self) (Returns.all l fun y hy => h y (List.mem_cons_of_mem _ hy))

theorem Returns.header {ext : Bool} {n : Nat} {fs : Fields} {v : fs.Val} (h : ∀ i ∈ fs.indexes, i < n) :
    Returns (encodeHeader fs v ext n) := by
  obtain ⟨bm, hb⟩ := fs.mark_ok v (List.replicate n false) (by simpa using h)
  unfold encodeHeader
  rw [hb]
  exact .ite (fun _ => .fail) fun _ => .bind (.extBit _ _) (.append _)

theorem Returns.charstring (k : CharKind) {lb ub : Option Int} (h : SizeBounds lb ub) (e : Bool) (v : String) (x : Bool) :
    Returns (encodeCharstring k lb ub e v x) := by
  cases k <;> exact .string h e v x

theorem Returns.enumerated {w : Width} {lb ub : Option Int} {v : Int} (h : w.Fits v ∧ SpanOk lb ub) (e x : Bool) :
    Returns (encodeEnumerated lb ub e v x) :=
  .ite (fun _ => .fail) fun _ => .bind (.extBit _ _) (.spanned h _ _)

theorem Returns.choiceIdx {lb ub v : Int} (h : ub - lb + 1 < 2 ^ 127) (hv : IsI128 v) (e x : Bool) :
    Returns (encodeChoiceIdx lb ub e v x) :=
  C25_no_encode_panic_partial (.choiceIdx lb ub e) v
    ⟨hv, fun _ _ hu => (by cases hu), fun _ _ hl hu => by cases hl; cases hu; exact h⟩ x

mutual

theorem Ty.returns : (t : Ty) → (v : t.Val) → t.Encodable v → Returns (t.encode v)
  | .boolean, _, _ => .push _
  | .null, _, _ => .pure
  | .integer .., _, h => .spanned h _ _
  | .enumerated .., _, h => .enumerated h _ _
  | .bitstring lb ub e, v, h => C25_no_encode_panic_partial (.bitstring lb ub e) v h false
  | .octetstring lb ub e, v, h => C25_no_encode_panic_partial (.octetstring lb ub e) v h false
  | .charstring k .., v, h => .charstring k h _ v _
  | .objectIdentifier, _, _ => .fail
  | .sequence _ _ fs, v, h => .bind (.header h.1) (fs.returns v h.2)
  | .sequenceOf _ _ _ e, v, h =>
      .bind (.ignoreErr (.length h.1 fun hx hn => h.2.1 hx (List.length_eq_zero_iff.1 hn)))
        (.all v fun x hx => e.returns x (h.2.2 x hx))
  | .choice _ _ _ as, v, h =>
      .bind (.choiceIdx h.1 h.2.1 _ _) (as.returns v h.2.2)
  | .openType as, v, h => C48_open_type_no_panic_partial as v (as.returns v h.1 _) h.2

theorem Fields.returns : (fs : Fields) → (v : fs.Val) → fs.Encodable v → Returns (fs.encode v)
  | .nil, _, _ => .pure
  | .required _ t rest, v, h => .bind (t.returns v.1 h.1) (rest.returns v.2 h.2)
  | .optional _ t rest, (some x, v), h => .bind (t.returns x h.1) (rest.returns v h.2)
  | .optional _ _ rest, (none, v), h => .bind .pure (rest.returns v h.2)

theorem Alts.returns : (as : Alts) → (v : as.Val) → as.Encodable v → Returns (as.encode v)
  | .cons _ _ t _, .inl v, h => t.returns v h
  | .cons _ _ _ rest, .inr v, h => rest.returns v h

end

/-- **C114 (partial).** Full statement: the encoder of a derived type returns `Ok` or `Err` for every value of the Rust
type. Proved for the values of `Ty.Encodable`, whether they satisfy their constraints or not. Missing, because false: empty
lists of an extensible size, open types whose content is written in no bits, bounds 2^127 apart. -/
theorem C114_no_panic_partial (t : Ty) (v : t.Val) (h : t.Encodable v) (s : Codec) : t.encode v s ≠ .panic :=
  t.returns v h s

-- A value out of its constraints meets the hypothesis: the list is too long, the number too large.
example : (Ty.sequence false 0 (.required false (.sequenceOf (some 1) (some 2) false (.integer .u8 (some 0) (some 7) false))
    .nil)).Encodable (show List Int × Unit from ([1, 9, 200], ())) := by
  refine ⟨nofun, ⟨⟨fun l h => ?_, fun u h => ?_⟩, nofun, ?_⟩, trivial⟩
  · cases h; decide
  · cases h; decide
  · have h : ∀ x ∈ ([1, 9, 200] : List Int), Width.Fits .u8 x := by decide
    exact fun x hx => ⟨h x hx, show (7 : Int) - 0 + 1 < 2 ^ 127 by decide⟩

/-- **C114 is violated** by every type SEQUENCE (SIZE (…, ...)) OF: its empty list makes the encoder panic. -/
theorem C114_empty_extensible_violated (lb ub : Option Int) (e : Ty) (s : Codec) :
    (Ty.sequenceOf lb ub true e).encode ([] : List e.Val) s = .panic := rfl

/-- **C114 is violated** by every open type one of whose alternatives is a list with a least size: that list, empty, makes the
encoder panic, for the error about its size is dropped and nothing is written. -/
theorem C114_empty_list_in_open_type_violated (lb ub key : Int) (extended : Bool) (e : Ty) (rest : Alts)
    (hl : 1 ≤ lb) (hu : ub < 65536) (s : Codec) :
    (Ty.openType (.cons key extended (.sequenceOf (some lb) (some ub) false e) rest)).encode
      (.inl (show List e.Val from [])) s = .panic := by
  refine C48_empty_content_panics_violated _ _ Codec.new ?_ rfl s
  show ((encodeLength (some lb) (some ub) false 0).ignoreErr >>= fun _ => encodeAll e.encode []) Codec.new = _
  have h : encodeLength (some lb) (some ub) false 0 Codec.new = .err Codec.new := by
    show (if ub < 65536 then encodeConstrained lb ub 0 else _) Codec.new = _
    rw [if_pos hu]
    unfold encodeConstrained encodeConstrainedWith
    rw [if_pos (by omega)]
    rfl
  show M.bind _ _ _ = _
  unfold M.bind M.ignoreErr
  rw [h]
  rfl

/-- **C114 is violated** by NGAP: the encoder panics on an NG SETUP REQUEST whose list of supported tracking areas is
empty. -/
theorem C114_ngap_violated (s : Codec) :
    Ngap.NGSetupRequestProtocolIEs_EntryValue.encode
      (.inr (.inr (.inr (.inr (.inr (.inl (show List Ngap.SupportedTAItem.Val from []))))))) s = .panic :=
  C48_empty_content_panics_violated _ _ Codec.new rfl rfl s

end Hampi
