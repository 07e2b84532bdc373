import Verif.Spec.Short
import Verif.Spec.X691
/-!
# Why a derived decoder panics

Which component of a message a decoder comes to (`Ty.Reaches`), and which octets there make it panic (`Ty.Breaks`).
-/
namespace Hampi

open Spec (be alignment IntPanics IntegerPanics)

/-- `w` is read as the length `n`: one octet, two octets, or a number of blocks of 16384. -/
def Spec.ReceivedLength (n : Nat) (w : List Bool) : Prop :=
  (n < 128 ∧ w = [false] ++ be 7 n) ∨ (n < 16384 ∧ w = [true, false] ++ be 14 n) ∨
    ∃ m, 1 ≤ m ∧ m ≤ 4 ∧ n = 16384 * m ∧ w = [true, true] ++ be 6 m

/-- Next comes the index of an extension, not a small one, in 17 octets or more: the extension bit, the bit for a large
number, zero bits up to the next octet, a length of at least 17 and that many octets. -/
def HugeIndex (s : Codec) : Prop :=
  ∃ n w body rest, s.bits.drop s.off = [true, true] ++ alignment (s.off + 2) ++ w ++ body ++ rest ∧
    Spec.ReceivedLength n w ∧ 17 ≤ n ∧ body.length = 8 * n

/-- Decoding a component of this type panics at once: the index of an extension is huge; or a list of length 0 is
announced and one can read elements until the counter of the loop overflows. -/
def Ty.Breaks : Ty → Codec → Prop
  | .enumerated _ _ _ ext, s => ext = true ∧ HugeIndex s
  | .choice _ _ ext _, s => ext = true ∧ HugeIndex s
  | .sequenceOf lb ub ext e, s => ∃ s1 vs s2, decodeLength lb ub ext s = .ok 0 s1 ∧
      decodeTimes e.decode (2 ^ 64) s1 = .ok vs s2
  | _, _ => False

/-- A type with an index of extensions: an extensible ENUMERATED or CHOICE. -/
def Ty.Indexed : Ty → Prop
  | .enumerated _ _ _ ext | .choice _ _ ext _ => ext = true
  | _ => False

mutual

/-- Decoding a `t` from `s` comes to a component `t'` at `s'`, because all before it is read without error. -/
inductive Ty.Reaches : Ty → Codec → Ty → Codec → Prop
  | here {t s} : Ty.Reaches t s t s
  | sequence {ext n fs s h s1 t' s'} : decodeSequenceHeader ext n s = .ok h s1 → Fields.Reaches fs h.1 s1 t' s' →
      Ty.Reaches (.sequence ext n fs) s t' s'
  | element {lb ub ext e s n s1 i vs s2 t' s'} : decodeLength lb ub ext s = .ok n s1 → (i < n ∨ n = 0 ∧ i < 2 ^ 64) →
      decodeTimes e.decode i s1 = .ok vs s2 → Ty.Reaches e s2 t' s' → Ty.Reaches (.sequenceOf lb ub ext e) s t' s'
  | choice {lb ub ext as s k s1 t' s'} : decodeChoiceIdx lb ub ext s = .ok (k, false) s1 → Alts.Reaches as k s1 t' s' →
      Ty.Reaches (.choice lb ub ext as) s t' s'
  | openType {as s n s1 k t' s'} : decodeLength none none false s = .ok n s1 → s1.key = some k →
      Alts.Reaches as k s1 t' s' → Ty.Reaches (.openType as) s t' s'

/-- The same for the fields of a SEQUENCE with the given bitmap. -/
inductive Fields.Reaches : Fields → List Bool → Codec → Ty → Codec → Prop
  | required {k t rest bm s t' s'} : Ty.Reaches t s t' s' → Fields.Reaches (.required k t rest) bm s t' s'
  | later {k t rest bm s v s1 s2 t' s'} : t.decode s = .ok v s1 → setKeyFrom k t v s1 = .ok () s2 →
      Fields.Reaches rest bm s2 t' s' → Fields.Reaches (.required k t rest) bm s t' s'
  | optional {i t rest bm s t' s'} : bm[i]? = some true → Ty.Reaches t s t' s' →
      Fields.Reaches (.optional i t rest) bm s t' s'
  | present {i t rest bm s v s1 t' s'} : bm[i]? = some true → t.decode s = .ok v s1 → Fields.Reaches rest bm s1 t' s' →
      Fields.Reaches (.optional i t rest) bm s t' s'
  | absent {i t rest bm s t' s'} : bm[i]? = some false → Fields.Reaches rest bm s t' s' →
      Fields.Reaches (.optional i t rest) bm s t' s'

/-- The same for the first alternative with the given key. -/
inductive Alts.Reaches : Alts → Int → Codec → Ty → Codec → Prop
  | this {k x t rest s t' s'} : Ty.Reaches t s t' s' → Alts.Reaches (.cons k x t rest) k s t' s'
  | other {k x t rest key s t' s'} : key ≠ k → Alts.Reaches rest key s t' s' → Alts.Reaches (.cons k x t rest) key s t' s'

end

mutual

/-- The bounds keep clear of the panics of C24 and the indexes are inside the bitmap. As `Ty.sane true`, but for the
elements of lists. -/
def Ty.fit : Ty → Bool
  | .boolean | .null | .objectIdentifier => true
  | .integer _ lb ub _ | .enumerated _ lb ub _ => i128Bounds lb ub && decide (¬ IntegerPanics lb ub)
  | .bitstring lb ub _ | .octetstring lb ub _ | .charstring _ lb ub _ => !sizePanics lb ub
  | .sequence _ n fs => fs.fit n
  | .sequenceOf lb ub ext e => (ext || !sizePanics lb ub) && e.fit
  | .choice lb ub _ as => decide (IsI128 lb) && decide (¬ IntPanics lb ub) && as.fit
  | .openType as => as.fit

/-- All fields; `n` is the size of the bitmap. -/
def Fields.fit (n : Nat) : Fields → Bool
  | .nil => true
  | .required _ t rest => t.fit && rest.fit n
  | .optional i t rest => decide (i < n) && t.fit && rest.fit n

/-- All variants. -/
def Alts.fit : Alts → Bool
  | .nil => true
  | .cons _ _ t rest => t.fit && rest.fit

end

end Hampi
