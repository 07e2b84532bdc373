import Verif.Spec.Derived
import Verif.Lemmas.Items
import Verif.Lemmas.Text
import Verif.Props.Lengths
import Verif.Props.Align
/-!
# Round trip of derived codecs: infrastructure
-/
namespace Hampi

open Spec (SizeBounds Within)

variable {α β : Type}

/-! ## Writers -/

theorem IsWriter.charstring (k : CharKind) (lb ub : Option Int) (e : Bool) (v : String) (x : Bool) :
    IsWriter (encodeCharstring k lb ub e v x) := by
  cases k <;> exact .string lb ub e v x

theorem IsWriter.ignoreErr {m : M Unit} (h : IsWriter m) : IsWriter (M.ignoreErr m) := by
  obtain ⟨f, hf, hm⟩ := h
  refine ⟨fun p => match f p with | .ok _ w => .ok () w | .err w => .ok () w | .panic => .panic,
    fun p q hpq => by simp only [hf p q hpq], fun s => ?_⟩
  unfold M.ignoreErr
  rw [hm s]
  dsimp only
  cases f s.bits.length <;> rfl

theorem IsWriter.appendAligned (o : Codec) : IsWriter (appendAligned o) := by
  unfold Hampi.appendAligned
  refine .bind .align fun _ => ?_
  rw [IsWriter.align_eq]
  exact .appendBits _

theorem IsWriter.encodeOpen (payload : M Unit) : IsWriter (encodeOpen payload) := by
  have h : Hampi.encodeOpen payload = (match payload Codec.new with
    | .err _ => M.fail
    | .panic => M.panic
    | .ok _ inner => match lengthInBytes inner with
      | .ok n inner => encodeLength none none false n >>= fun _ => Hampi.appendAligned inner
      | .err _ => M.fail
      | .panic => M.panic) := by
    funext s
    unfold Hampi.encodeOpen
    cases payload Codec.new with
    | ok _ inner => cases h : lengthInBytes inner <;> simp only [h] <;> rfl
    | err _ => rfl
    | panic => rfl
  rw [h]
  split
  · exact .fail
  · exact .panic
  · split
    · exact .bind (.length _ _ _ _) fun _ => .appendAligned _
    · exact .fail
    · exact .panic

theorem IsWriter.encodeAll {enc : α → M Unit} (h : ∀ a, IsWriter (enc a)) (l : List α) :
    IsWriter (encodeAll enc l) := by
  induction l with
  | nil => exact .pure ()
  | cons x xs ih => exact .bind (h x) fun _ => ih

theorem IsWriter.encodeHeader (fs : Fields) (v : fs.Val) (e : Bool) (n : Nat) :
    IsWriter (encodeHeader fs v e n) := by
  unfold Hampi.encodeHeader
  split
  · exact .sequenceHeader _ _ _
  · exact .panic

mutual

theorem Ty.encode_writer : (t : Ty) → (v : t.Val) → IsWriter (t.encode v)
  | .boolean, v => .bool v
  | .null, _ => .pure ()
  | .integer _ lb ub ext, v => .integer lb ub ext v false
  | .enumerated _ lb ub ext, v => .enumerated lb ub ext v false
  | .bitstring lb ub ext, v => .bitstring lb ub ext v false
  | .octetstring lb ub ext, v => .octetstring lb ub ext v false
  | .charstring k lb ub ext, v => .charstring k lb ub ext v false
  | .objectIdentifier, _ => .fail
  | .sequence ext n fs, v => .bind (.encodeHeader fs v ext n) fun _ => fs.encode_writer v
  | .sequenceOf lb ub ext e, v =>
      .bind (.ignoreErr (.length lb ub ext _)) fun _ => .encodeAll (fun a => e.encode_writer a) v
  | .choice lb ub ext as, v => .bind (.choiceIdx lb ub ext _ _) fun _ => as.encode_writer v
  | .openType as, v => .encodeOpen _

theorem Fields.encode_writer : (fs : Fields) → (v : fs.Val) → IsWriter (fs.encode v)
  | .nil, _ => .pure ()
  | .required _ t rest, v => .bind (t.encode_writer v.1) fun _ => rest.encode_writer v.2
  | .optional _ t rest, (some x, v) => .bind (t.encode_writer x) fun _ => rest.encode_writer v
  | .optional _ t rest, (none, v) => .bind (.pure ()) fun _ => rest.encode_writer v

theorem Alts.encode_writer : (as : Alts) → (v : as.Val) → IsWriter (as.encode v)
  | .cons _ _ t _, .inl v => t.encode_writer v
  | .cons _ _ _ rest, .inr v => rest.encode_writer v

end

/-! ## Readers -/

theorem IsReader.setKey (k : Int) : IsReader (setKey k) where
  frame s := ⟨rfl, Nat.le_refl _, id⟩
  local_ := by intro bits off key a s' h suf; cases h; rfl
  shift := by
    intro p p' r o k _
    simp only [Hampi.setKey, Res.shift]
    congr 2
    omega

theorem IsReader.setKeyFrom (k : Bool) (t : Ty) (v : t.Val) : IsReader (setKeyFrom k t v) := by
  unfold Hampi.setKeyFrom
  split
  · exact .setKey _
  · exact .pure _

theorem IsReader.requireKey : IsReader requireKey where
  frame s := by unfold Hampi.requireKey; split <;> exact Steps.refl s
  local_ := by
    intro bits off key a s' h suf
    unfold Hampi.requireKey at *
    cases key with
    | none => cases h
    | some k => cases h; rfl
  shift := by
    intro p p' r o k _
    unfold Hampi.requireKey
    cases k with
    | none => simp only [Res.shift]; congr 2; omega
    | some k => simp only [Res.shift]; congr 2; omega

theorem IsReader.present (bm : List Bool) (i : Nat) : IsReader (present bm i) := by
  unfold Hampi.present
  split
  · exact .pure _
  · exact .panic

theorem IsReader.decodeTimes {dec : M α} (h : IsReader dec) (n : Nat) : IsReader (decodeTimes dec n) := by
  induction n with
  | zero => exact .pure _
  | succ n ih => exact .bind h fun _ => .bind ih fun _ => .pure _

theorem IsReader.decodeLoop {dec : M α} (h : IsReader dec) (n : Nat) : IsReader (decodeLoop dec n) := by
  unfold Hampi.decodeLoop
  split
  · exact .bind (.decodeTimes h _) fun _ => .panic
  · exact .decodeTimes h n

theorem IsDec.charstring (k : CharKind) (lb ub : Option Int) (e : Bool) :
    IsDec (decodeCharstring k lb ub e) := by
  cases k <;> exact .string lb ub e

mutual

theorem Ty.decode_reader : (t : Ty) → IsReader t.decode
  | .boolean => IsDec.bool.reader
  | .null => .pure _
  | .integer w lb ub ext => .bind (IsDec.integer lb ub ext).reader fun _ => .pure _
  | .enumerated w lb ub ext => .bind (IsDec.enumerated lb ub ext).reader fun _ => .pure _
  | .bitstring lb ub ext => (IsDec.bitstring lb ub ext).reader
  | .octetstring lb ub ext => (IsDec.octetstring lb ub ext).reader
  | .charstring k lb ub ext => (IsDec.charstring k lb ub ext).reader
  | .objectIdentifier => .fail
  | .sequence ext n fs => .bind (IsDec.sequenceHeader ext n).reader fun h => fs.decode_reader h.1
  | .sequenceOf lb ub ext e => .bind (IsDec.length lb ub ext).reader fun n => .decodeLoop e.decode_reader n
  | .choice lb ub ext as =>
      .bind (IsDec.choiceIdx lb ub ext).reader fun r => .ite (as.decode_reader r.1) .fail
  | .openType as =>
      .bind (IsDec.length none none false).reader fun _ => .bind .requireKey fun k => as.decode_reader k

theorem Fields.decode_reader : (fs : Fields) → (bm : List Bool) → IsReader (fs.decode bm)
  | .nil, _ => .pure _
  | .required k t rest, bm =>
      .bind t.decode_reader fun v => .bind (.setKeyFrom k t v) fun _ =>
        .bind (rest.decode_reader bm) fun _ => .pure _
  | .optional i t rest, bm =>
      .bind (.present bm i) fun _ => .bind (.ite (.bind t.decode_reader fun _ => .pure _) (.pure _))
        fun _ => .bind (rest.decode_reader bm) fun _ => .pure _

theorem Alts.decode_reader : (as : Alts) → (key : Int) → IsReader (as.decode key)
  | .nil, _ => .fail
  | .cons _ _ t rest, key =>
      .ite (.bind t.decode_reader fun _ => .pure _) (.bind (rest.decode_reader key) fun _ => .pure _)

end

end Hampi
