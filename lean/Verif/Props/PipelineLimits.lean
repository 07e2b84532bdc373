import Verif.Props.Pipeline
/-!
# C96: what fails

The provisos of `C96_wire_partial` cannot be dropped: the schema that is its example has permitted values for which each
of its two conclusions is false.
-/
namespace Hampi.Compiler.Props
open Hampi
open _root_.Hampi.Compiler.Spec

/-- `list : { }`, of `Body`. -/
def emptyVal : bodyTy.Val := show List UInt8 ⊕ List Int ⊕ Unit ⊕ Empty from .inr (.inl [])

/-- **C96, the part that fails.** A proper schema has a type with a permitted value that is sent, but that the reader
refuses: `Body` of the schema above and `list : { }`. -/
theorem C96_empty_list_violated : ∃ (ms : List Module) (M : Module) (x : Text) (ty : AsnType) (t : Ty) (v : t.Val)
    (s : Codec), ReadAs ms ms ∧ ProperSchema ms ∧ M ∈ ms ∧ (x, ⟨.type ty, none⟩) ∈ M.definitions ∧
      (∀ lax, Describes lax ms (.module M) ty t) ∧ t.Permitted v ∧ t.encode v Codec.new = .ok () s ∧
      _root_.Hampi.Spec.Refuses (t.decode (Codec.fromSlice s.intoBytes)) := by
  refine ⟨schema, mainModule, "Body".toList, bodyType, bodyTy, emptyVal, ⟨[false, true, false, false], 0, none⟩,
    schema_read, schema_proper, by simp [schema], by simp [mainModule, plainModule], fun _ => body_described, ?_, ?_, ?_⟩
  · refine ⟨by decide, by decide, by decide, rfl, ?_, ?_⟩
    · exact ⟨⟨by rintro l ⟨⟩; decide, by rintro u ⟨⟩; decide⟩, ⟨by rintro l ⟨⟩; decide, by rintro u ⟨⟩; decide⟩,
        .inr (by decide)⟩
    · intro x hx
      have hx : x ∈ ([] : List Int) := hx
      cases hx
  · rfl
  · exact ⟨_, rfl⟩

/-- `raw : 'AB'H`, of `Body`. -/
def shortVal : bodyTy.Val := show List UInt8 ⊕ List Int ⊕ Unit ⊕ Empty from .inl [0xAB]

/-- A whole number with few possible values takes the least width. -/
theorem word_length {p R x b : Nat} {w : List Bool} (h : _root_.Hampi.Spec.ConstrainedWord p R x w) (hR : R ≤ 255)
    (hb : _root_.Hampi.Spec.IsWidth R b) : w.length = b := by
  unfold _root_.Hampi.Spec.ConstrainedWord at h
  rw [if_pos hR] at h
  obtain ⟨b', h1, rfl⟩ := h
  rw [be_length]
  exact isWidth_unique h1 hb

/-- **C96, the other part that fails.** A proper schema has a type with a permitted value that is not sent as X.691
says: `Body` of the schema above and `raw : 'AB'H`, of which two bits are missing. -/
theorem C96_short_string_violated : ∃ (ms : List Module) (M : Module) (x : Text) (ty : AsnType) (t : Ty) (v : t.Val)
    (s : Codec), ReadAs ms ms ∧ ProperSchema ms ∧ M ∈ ms ∧ (x, ⟨.type ty, none⟩) ∈ M.definitions ∧
      (∀ lax, Describes lax ms (.module M) ty t) ∧ t.Permitted v ∧ t.encode v Codec.new = .ok () s ∧
      (∃ w, t.Layout v 0 w) ∧ ∀ w, t.Layout v 0 w → w.length = s.bits.length + 2 := by
  have w2 : _root_.Hampi.Spec.IsWidth 2 1 := ⟨by decide, fun c hc => by
    match c with
    | 0 => simp at hc
    | c + 1 => omega⟩
  have w10 : _root_.Hampi.Spec.IsWidth 10 4 := ⟨by decide, fun c hc => by
    match c with
    | 0 | 1 | 2 | 3 => simp at hc
    | c + 4 => omega⟩
  refine ⟨schema, mainModule, "Body".toList, bodyType, bodyTy, shortVal, ⟨[false, false, false, false, false, false] ++
    _root_.Hampi.Spec.be 8 0xAB, 0, none⟩,
    schema_read, schema_proper, by simp [schema], by simp [mainModule, plainModule], fun _ => body_described, ?_, rfl, ?_, ?_⟩
  · exact ⟨by decide, by decide, by decide, rfl,
      ⟨by rintro l ⟨⟩; decide, by rintro u ⟨⟩; decide⟩, ⟨by rintro l ⟨⟩; decide, by rintro u ⟨⟩; decide⟩, by decide⟩
  · refine ⟨[false] ++ _root_.Hampi.Spec.be 1 0 ++ ([] ++ _root_.Hampi.Spec.be 4 0 ++ ([false, false] ++ _root_.Hampi.Spec.octetBits [0xAB])), rfl, _, _, ?_,
      .inr ⟨?_, _, ?_, rfl⟩, rfl⟩
    · exact ⟨_, w2, rfl⟩
    · rintro ⟨k, h1, h2, -⟩
      injection h1 with h1; injection h2 with h2; omega
    · exact ⟨_, w10, rfl⟩
  · rintro w ⟨-, i, body, hi, hb, rfl⟩
    have hi' := word_length hi (by decide) w2
    rcases hb with ⟨k, h1, h2, -⟩ | ⟨-, l, hl, rfl⟩
    · injection h1 with h1; injection h2 with h2; omega
    · have hl' := word_length (p := 0) (R := 10) hl (by decide) w10
      simp [extRoot, _root_.Hampi.Spec.octetBits, be_length, _root_.Hampi.Spec.alignment, hi', hl']

end Hampi.Compiler.Props
