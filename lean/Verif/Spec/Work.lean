import Verif.Derive.Model
/-!
# How much a derived decoder does

`Ty.work`: the number of decoding functions that are called to decode a `t` from `s`, and of absent components passed
over, up to the end or the first error.
-/
namespace Hampi

/-- What is done after `m` has returned a result. -/
def after {α : Type} (m : M α) (work : α → Codec → Nat) (s : Codec) : Nat :=
  match m s with
  | .ok a s1 => work a s1
  | .err _ | .panic => 0

/-- What `n` turns of a loop do, up to the first error. -/
def workTimes {α : Type} (dec : M α) (work : Codec → Nat) : Nat → Codec → Nat
  | 0, _ => 0
  | n + 1, s => work s + after dec (fun _ => workTimes dec work n) s

mutual

/-- The call itself, and the calls it makes. A list goes on for 2^64 turns when its length is 0
(codecs_derive/src/aper/seqof.rs:48-54, see `decodeLoop`). -/
def Ty.work : Ty → Codec → Nat
  | .boolean, _ | .null, _ | .integer .., _ | .enumerated .., _ | .bitstring .., _ | .octetstring .., _
  | .charstring .., _ | .objectIdentifier, _ => 1
  | .sequence ext n fs, s => 1 + after (decodeSequenceHeader ext n) (fun h => fs.work h.1) s
  | .sequenceOf lb ub ext e, s =>
      1 + after (decodeLength lb ub ext) (fun n => workTimes e.decode e.work (if n = 0 then 2 ^ 64 else n)) s
  | .choice lb ub ext as, s =>
      1 + after (decodeChoiceIdx lb ub ext) (fun r s1 => if r.2 then 0 else as.work r.1 s1) s
  | .openType as, s => 1 + after (decodeLength none none false) (fun _ => after requireKey as.work) s

/-- All fields up to the first error. -/
def Fields.work : Fields → List Bool → Codec → Nat
  | .nil, _, _ => 0
  | .required k t rest, bm, s =>
      t.work s + after t.decode (fun v => after (setKeyFrom k t v) (fun _ => rest.work bm)) s
  | .optional i t rest, bm, s =>
      match bm[i]? with
      | some true => 1 + t.work s + after t.decode (fun _ => rest.work bm) s
      | some false => 1 + rest.work bm s
      | none => 1

/-- The variant with the key. -/
def Alts.work : Alts → Int → Codec → Nat
  | .nil, _, _ => 0
  | .cons k _ t rest, key, s => if key = k then t.work s else rest.work key s

end

mutual

/-- The values in a value, absent components included. -/
def Ty.parts : (t : Ty) → t.Val → Nat
  | .boolean, _ | .null, _ | .integer .., _ | .enumerated .., _ | .bitstring .., _ | .octetstring .., _
  | .charstring .., _ | .objectIdentifier, _ => 1
  | .sequence _ _ fs, v => 1 + fs.parts v
  | .sequenceOf _ _ _ e, v => 1 + (List.map e.parts v).sum
  | .choice _ _ _ as, v => 1 + as.parts v
  | .openType as, v => 1 + as.parts v

/-- All fields; an optional one counts one more. -/
def Fields.parts : (fs : Fields) → fs.Val → Nat
  | .nil, _ => 0
  | .required _ t rest, v => t.parts v.1 + rest.parts v.2
  | .optional _ t rest, v => 1 + (match v.1 with | some x => t.parts x | none => 0) + rest.parts v.2

/-- The variant at hand. -/
def Alts.parts : (as : Alts) → as.Val → Nat
  | .cons _ _ t _, .inl v => t.parts v
  | .cons _ _ _ rest, .inr v => rest.parts v

end

end Hampi
