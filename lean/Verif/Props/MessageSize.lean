import Verif.Props.Hostile
import Verif.Props.Messages
/-!
# C106 for NGAP, S1AP and RANAP: how large the message is that octets decode to
-/
namespace Hampi

open Spec (SizeBounds)

variable {α β : Type}

/-! ## The least number of bits of a value -/

/-- Of a field for `range` values. -/
def fieldLeast (range : Int) : Nat :=
  if range < 256 then decFieldBits range else if range = 256 then 8 else if range ≤ 65536 then 16 else 8

/-- Of an INTEGER. -/
def intLeast (lb ub : Option Int) (ext : Bool) : Nat :=
  if ext then 1 else
    match lb, ub with
    | some l, some u => fieldLeast (u - l + 1)
    | _, _ => 8

mutual

/-- Of a value of a type. -/
def Ty.least : Ty → Nat
  | .boolean => 1
  | .null => 0
  | .integer _ lb ub ext => intLeast lb ub ext
  | .enumerated _ lb ub ext => if ext || intSolid lb ub then 1 else 0
  | .bitstring lb ub ext | .octetstring lb ub ext | .charstring _ lb ub ext =>
    if ext || stringSolid lb ub then 1 else 0
  | .objectIdentifier => 1
  | .sequence ext n fs => (if ext then 1 else 0) + n + fs.least
  | .sequenceOf lb ub ext e =>
    if ext || lengthSolid lb ub then 1 else if e.solid then 1 else 0
  | .choice lb ub ext as => (if ext || decide (lb ≠ ub) then 1 else 0) + as.least
  | .openType as => 8 + as.least

/-- The sum over the required fields. -/
def Fields.least : Fields → Nat
  | .nil => 0
  | .required _ t rest => t.least + rest.least
  | .optional _ _ rest => rest.least

/-- The minimum. -/
def Alts.least : Alts → Nat
  | .nil => 0
  | .cons _ _ t .nil => t.least
  | .cons _ _ t rest => min t.least rest.least

end

namespace Costs

theorem fieldLeast {large : Int → M Int} (hl : ∀ R, Takes (large R) 8) (R : Int) :
    Takes (decodeConstrainedField large R) (fieldLeast R) := by
  unfold decodeConstrainedField Hampi.fieldLeast
  split
  · exact unsigned _
  · split
    · exact right IsDec.align.reader fun _ => unsigned 8
    · split
      · exact right IsDec.align.reader fun _ => unsigned 16
      · exact hl R

theorem constrainedLeast {large : Int → M Int} (hl : ∀ R, Takes (large R) 8) (lb ub : Int) :
    Takes (decodeConstrainedWith large lb ub) (Hampi.fieldLeast (ub - lb + 1)) := by
  intro s a s' hs
  unfold decodeConstrainedWith at hs
  obtain ⟨d, t, h1, hs⟩ := bind_ok hs
  obtain ⟨R, t2, h2, hs⟩ := bind_ok hs
  have e1 : d = ub - lb ∧ t = s := by
    unfold chkI128 at h1; split at h1 <;> cases h1; exact ⟨rfl, rfl⟩
  have e2 : R = d + 1 ∧ t2 = t := by
    unfold chkI128 at h2; split at h2 <;> cases h2; exact ⟨rfl, rfl⟩
  rw [M.ite_apply] at hs
  split at hs
  · cases hs
  · obtain ⟨v, t3, h3, hs⟩ := bind_ok hs
    have : t2.off + Hampi.fieldLeast R ≤ t3.off := fieldLeast hl R _ _ _ h3
    show s.off + Hampi.fieldLeast (ub - lb + 1) ≤ s'.off
    have h4 : s'.off = t3.off := by
      unfold chkI128 at hs; split at hs <;> cases hs; rfl
    rw [e2.2, e1.2, e2.1, e1.1] at this
    omega

theorem largeLeast (R : Int) : Takes (do
    let length ← decodeConstrainedLengthSmall 1 (bytesNeededForRange R)
    decodeAlign
    decodeBitsAsInteger (length * 8) false) 8 := by
  intro s a s' hs
  obtain ⟨l, t, h1, hs⟩ := bind_ok hs
  by_cases hl : l = 0
  · exfalso
    subst hl
    unfold decodeConstrainedLengthSmall at h1
    rw [M.ite_apply] at h1
    split at h1
    · cases h1
    · rw [M.ite_apply] at h1
      split at h1
      · next h2 h3 =>
        obtain ⟨v, t2, h4, h5⟩ := bind_ok h1
        unfold decodeConstrainedSmall at h4
        have hn : bytesNeededForRange R ≤ 17 := by
          unfold bytesNeededForRange
          dsimp only
          split <;> omega
        rw [decodeConstrainedWith_eq _ (R := bytesNeededForRange R) (by omega) (by omega) (by omega)] at h4
        obtain ⟨a, t3, h6, rfl⟩ := chk_ok h4
        obtain ⟨h7, -, h8⟩ := decodeField_small_range (by omega) h6
        have h9 : asUsize (a + ((1 : Nat) : Int)) = 0 := by injection h5
        unfold asUsize at h9
        omega
      · cases h1
  · have h2 := (IsDec.constrainedLengthSmall 1 (bytesNeededForRange R)).reader.frame s
    rw [h1] at h2
    obtain ⟨_, t2, h3, hs⟩ := bind_ok hs
    have h4 := IsDec.align.reader.frame t
    rw [h3] at h4
    have : t2.off + l * 8 ≤ s'.off := unsigned _ _ _ _ hs
    have := h2.2.1
    have := h4.2.1
    show s.off + 8 ≤ s'.off
    omega

theorem intLeast (lb ub : Option Int) (e : Bool) : Takes (decodeInteger lb ub e) (intLeast lb ub e) := by
  unfold decodeInteger Hampi.intLeast
  cases e with
  | true => exact left boolM fun x => (IsDec.bind (.integerValue lb ub x) fun _ => .pure _).reader
  | false =>
    simp only [Bool.false_eq_true, if_false]
    show Takes ((Pure.pure false : M Bool) >>= _) _
    rw [M.pure_bind']
    refine left ?_ fun _ => .pure _
    unfold decodeIntegerValue
    simp only [Bool.false_eq_true, if_false]
    cases lb with
    | none => exact unconstrained
    | some l =>
      cases ub with
      | none => exact semiConstrained l
      | some u => exact constrainedLeast largeLeast l u

theorem headerLeast (e : Bool) (n : Nat) :
    Takes (decodeSequenceHeader e n) ((if e then 1 else 0) + n) := by
  unfold decodeSequenceHeader
  have hb : Takes (decodeBitmap n) n := by
    unfold decodeBitmap
    refine ite (fun _ => ?_) fun h => ?_
    · rw [getBitvec_eq]; exact takeBits n
    · intro s a s' hs; cases hs; show s.off + n ≤ s.off; omega
  have he : Takes (decodeExtBit e) (if e then 1 else 0) := by
    cases e with
    | true => exact boolM
    | false => intro s a s' hs; cases hs; exact Nat.le_refl _
  exact bind he (fun x => left hb fun _ => .pure _) fun _ _ => Nat.le_refl _

end Costs

theorem takes_if {m : M α} (h : IsReader m) {c : Bool} (hc : c = true → Takes m 1) :
    Takes m (if c then 1 else 0) := by
  cases c with
  | true => exact hc rfl
  | false => exact Costs.zero h

mutual

theorem Ty.takes_least : (t : Ty) → Takes t.decode t.least
  | .boolean => Costs.boolM
  | .null => Costs.zero Ty.null.decode_reader
  | .integer w lb ub ext => Costs.left (Costs.intLeast lb ub ext) fun _ => .pure _
  | .enumerated w lb ub ext => takes_if (Ty.enumerated w lb ub ext).decode_reader fun h =>
      (Ty.enumerated w lb ub ext).takes h
  | .bitstring lb ub ext => takes_if (Ty.bitstring lb ub ext).decode_reader fun h =>
      (Ty.bitstring lb ub ext).takes h
  | .octetstring lb ub ext => takes_if (Ty.octetstring lb ub ext).decode_reader fun h =>
      (Ty.octetstring lb ub ext).takes h
  | .charstring k lb ub ext => takes_if (Ty.charstring k lb ub ext).decode_reader fun h =>
      (Ty.charstring k lb ub ext).takes h
  | .objectIdentifier => Costs.fail
  | .sequence ext n fs =>
    Costs.bind (Costs.headerLeast ext n) (fun r => fs.takes_least r.1) fun _ _ => Nat.le_refl _
  | .sequenceOf lb ub ext e => by
    unfold Ty.least
    split
    · next h => exact (Ty.sequenceOf lb ub ext e).takes (by simp only [Ty.solid, h, Bool.true_or])
    · exact takes_if (Ty.sequenceOf lb ub ext e).decode_reader fun h =>
        (Ty.sequenceOf lb ub ext e).takes (by simp only [Ty.solid, h, Bool.or_true])
  | .choice lb ub ext as =>
    Costs.bind (takes_if (IsDec.choiceIdx lb ub ext).reader Costs.choiceIdx)
      (fun r => Costs.ite (fun _ => as.takes_least r.1) fun _ => Costs.fail) fun _ _ => Nat.le_refl _
  | .openType as => by
    have h8 : Takes (decodeLength none none false) 8 := Costs.indefinite
    exact Costs.bind h8 (fun _ => Costs.right .requireKey fun k => as.takes_least k)
      fun _ _ => Nat.le_refl _

theorem Fields.takes_least : (fs : Fields) → (bm : List Bool) → Takes (fs.decode bm) fs.least
  | .nil, _ => Costs.zero (IsReader.pure _)
  | .required k t rest, bm =>
    Costs.bind t.takes_least (fun v => Costs.right (.setKeyFrom k t v) fun _ =>
      Costs.left (rest.takes_least bm) fun _ => .pure _) fun _ _ => Nat.le_refl _
  | .optional i t rest, bm =>
    Costs.right (.present bm i) fun _ =>
      Costs.right (.ite (.bind t.decode_reader fun _ => .pure _) (.pure _)) fun _ =>
        Costs.left (rest.takes_least bm) fun _ => .pure _

theorem Alts.takes_least : (as : Alts) → (key : Int) → Takes (as.decode key) as.least
  | .nil, _ => Costs.fail
  | .cons _ _ t .nil, _ =>
    Costs.ite (fun _ => Costs.left t.takes_least fun _ => .pure _) fun _ =>
      Costs.bind (f := fun _ => t.least) (k := fun _ _ => 0) Costs.fail (fun _ => Costs.zero (.pure _))
        fun _ _ => Nat.le_refl _
  | .cons _ _ t (.cons k2 x2 t2 rest), key =>
    Costs.ite (fun _ => Costs.mono (Costs.left t.takes_least fun _ => .pure _) fun _ =>
        Nat.min_le_left _ _) fun _ =>
      Costs.mono (Costs.left ((Alts.cons k2 x2 t2 rest).takes_least key) fun _ => .pure _) fun _ =>
        Nat.min_le_right _ _

end

/-! ## The size a bit can stand for -/

mutual

/-- The size of a value, where NULL and a SEQUENCE without components count `z`. -/
def Ty.weight (z : Nat) : (t : Ty) → t.Val → Nat
  | .null, _ => z
  | .sequence _ _ .nil, _ => z
  | .boolean, _ | .integer .., _ | .enumerated .., _ => 1
  | .bitstring .., v => 1 + List.length v
  | .octetstring .., v => 1 + List.length v
  | .charstring .., v => 1 + String.utf8ByteSize v
  | .objectIdentifier, v => 1 + List.length v
  | .sequence _ _ fs, v => 1 + fs.weight z v
  | .sequenceOf _ _ _ e, v => 1 + (List.map (e.weight z) v).sum
  | .choice _ _ _ as, v => 1 + as.weight z v
  | .openType as, v => 1 + as.weight z v

/-- All fields. -/
def Fields.weight (z : Nat) : (fs : Fields) → fs.Val → Nat
  | .nil, _ => 0
  | .required _ t rest, v => t.weight z v.1 + rest.weight z v.2
  | .optional _ t rest, v =>
    1 + (match v.1 with | some x => t.weight z x | none => 0) + rest.weight z v.2

/-- The variant at hand. -/
def Alts.weight (z : Nat) : (as : Alts) → as.Val → Nat
  | .cons _ _ t _, .inl v => t.weight z v
  | .cons _ _ _ rest, .inr v => rest.weight z v

end

theorem map_sum_congr {f g : α → Nat} (h : ∀ v, f v = g v) (l : List α) : (l.map f).sum = (l.map g).sum := by
  rw [funext h]

mutual

theorem Ty.weight_one : (t : Ty) → (v : t.Val) → t.weight 1 v = t.size v
  | .null, _ | .boolean, _ | .integer .., _ | .enumerated .., _ | .bitstring .., _
  | .octetstring .., _ | .charstring .., _ | .objectIdentifier, _ | .sequence _ _ .nil, _ => rfl
  | .sequence _ _ (.required k t rest), v =>
    congrArg (1 + ·) (Fields.weight_one (.required k t rest) v)
  | .sequence _ _ (.optional i t rest), v =>
    congrArg (1 + ·) (Fields.weight_one (.optional i t rest) v)
  | .sequenceOf _ _ _ e, v => congrArg (1 + ·) (map_sum_congr e.weight_one v)
  | .choice _ _ _ as, v => congrArg (1 + ·) (as.weight_one v)
  | .openType as, v => congrArg (1 + ·) (as.weight_one v)

theorem Fields.weight_one : (fs : Fields) → (v : fs.Val) → fs.weight 1 v = fs.size v
  | .nil, _ => rfl
  | .required _ t rest, v => by
    show t.weight 1 v.1 + rest.weight 1 v.2 = t.size v.1 + rest.size v.2
    rw [t.weight_one, rest.weight_one]
  | .optional _ t rest, (none, xs) => by
    show 1 + 0 + rest.weight 1 xs = 1 + 0 + rest.size xs
    rw [rest.weight_one]
  | .optional _ t rest, (some x, xs) => by
    show 1 + t.weight 1 x + rest.weight 1 xs = 1 + t.size x + rest.size xs
    rw [t.weight_one, rest.weight_one]

theorem Alts.weight_one : (as : Alts) → (v : as.Val) → as.weight 1 v = as.size v
  | .cons _ _ t _, .inl v => t.weight_one v
  | .cons _ _ _ rest, .inr v => rest.weight_one v

end

mutual

theorem Ty.weight_zero : (t : Ty) → (v : t.Val) → t.weight 0 v = t.stored v
  | .null, _ | .boolean, _ | .integer .., _ | .enumerated .., _ | .bitstring .., _
  | .octetstring .., _ | .charstring .., _ | .objectIdentifier, _ | .sequence _ _ .nil, _ => rfl
  | .sequence _ _ (.required k t rest), v =>
    congrArg (1 + ·) (Fields.weight_zero (.required k t rest) v)
  | .sequence _ _ (.optional i t rest), v =>
    congrArg (1 + ·) (Fields.weight_zero (.optional i t rest) v)
  | .sequenceOf _ _ _ e, v => congrArg (1 + ·) (map_sum_congr e.weight_zero v)
  | .choice _ _ _ as, v => congrArg (1 + ·) (as.weight_zero v)
  | .openType as, v => congrArg (1 + ·) (as.weight_zero v)

theorem Fields.weight_zero : (fs : Fields) → (v : fs.Val) → fs.weight 0 v = fs.stored v
  | .nil, _ => rfl
  | .required _ t rest, v => by
    show t.weight 0 v.1 + rest.weight 0 v.2 = t.stored v.1 + rest.stored v.2
    rw [t.weight_zero, rest.weight_zero]
  | .optional _ t rest, (none, xs) => by
    show 1 + 0 + rest.weight 0 xs = 1 + 0 + rest.stored xs
    rw [rest.weight_zero]
  | .optional _ t rest, (some x, xs) => by
    show 1 + t.weight 0 x + rest.weight 0 xs = 1 + t.stored x + rest.stored xs
    rw [t.weight_zero, rest.weight_zero]

theorem Alts.weight_zero : (as : Alts) → (v : as.Val) → as.weight 0 v = as.stored v
  | .cons _ _ t _, .inl v => t.weight_zero v
  | .cons _ _ _ rest, .inr v => rest.weight_zero v

end

mutual

/-- The part of the weight that takes no bits. -/
def Ty.floor (z : Nat) : Ty → Nat
  | .null | .sequence _ _ .nil => z
  | .boolean | .integer .. | .enumerated .. | .bitstring .. | .octetstring ..
  | .charstring .. | .objectIdentifier | .sequenceOf .. => 1
  | .sequence _ _ fs => 1 + fs.floor z
  | .choice _ _ _ as | .openType as => 1 + as.floor z

/-- The sum. -/
def Fields.floor (z : Nat) : Fields → Nat
  | .nil => 0
  | .required _ t rest => t.floor z + rest.floor z
  | .optional _ t rest => 1 + t.floor z + rest.floor z

/-- The maximum. -/
def Alts.floor (z : Nat) : Alts → Nat
  | .nil => 0
  | .cons _ _ t rest => max (t.floor z) (rest.floor z)

end

/-- A list with a length of 16 bits. -/
def wide (lb ub : Option Int) (ext : Bool) : Bool :=
  match lb, ub with
  | some l, some u => !ext && decide (0 ≤ l ∧ 256 ≤ u - l ∧ u < 65536)
  | _, _ => false

/-- What an element of a list adds to the weight per bit, in units of `1 / K`: `b` is what an element
weighs without taking bits, `m` the least number of bits of an element. -/
def listDensity (K : Nat) (lb : Option Int) (b m : Nat) : Nat :=
  if m = 0 then (K * ((65535 + (lb.getD 0).toNat) * b) + 15) / 16 else (K * b + m - 1) / m

mutual

/-- The weight per bit, in units of `1 / K`. -/
def Ty.density (z K : Nat) : Ty → Nat
  | .boolean | .null | .integer .. | .enumerated .. => 0
  | .bitstring .. | .octetstring .. | .charstring .. | .objectIdentifier => K
  | .sequenceOf lb _ _ e => listDensity K lb (e.floor z) e.least + e.density z K
  | .sequence _ _ fs => fs.density z K
  | .choice _ _ _ as | .openType as => as.density z K

/-- The maximum. -/
def Fields.density (z K : Nat) : Fields → Nat
  | .nil => 0
  | .required _ t rest | .optional _ t rest => max (t.density z K) (rest.density z K)

/-- The maximum. -/
def Alts.density (z K : Nat) : Alts → Nat
  | .nil => 0
  | .cons _ _ t rest => max (t.density z K) (rest.density z K)

end

mutual

/-- The elements of every list in the type occupy at least one bit or weigh nothing, or the length of
the list takes 16 bits. -/
def Ty.dense (z : Nat) : Ty → Bool
  | .sequenceOf lb ub ext e =>
    (decide (0 < e.least) || decide (e.floor z = 0) || wide lb ub ext) && e.dense z
  | .sequence _ _ fs => fs.dense z
  | .choice _ _ _ as | .openType as => as.dense z
  | .boolean | .null | .integer .. | .enumerated .. | .bitstring .. | .octetstring ..
  | .charstring .. | .objectIdentifier => true

/-- In all fields. -/
def Fields.dense (z : Nat) : Fields → Bool
  | .nil => true
  | .required _ t rest | .optional _ t rest => t.dense z && rest.dense z

/-- In all variants. -/
def Alts.dense (z : Nat) : Alts → Bool
  | .nil => true
  | .cons _ _ t rest => t.dense z && rest.dense z

end

theorem Sized.timesLeast {dec : M α} {size : α → Nat} {b r m q : Nat} (h : Sized dec size b r)
    (ht : Takes dec m) (hq : b ≤ q * m) :
    (n : Nat) → Sized (decodeTimes dec n) (fun v => (v.map size).sum) 0 (q + r)
  | 0 => by intro s v s' hs; cases hs; simp
  | n + 1 => by
    intro s v s' hs
    obtain ⟨x, t, h1, hs⟩ := bind_ok hs
    obtain ⟨xs, t2, h2, hs⟩ := bind_ok hs
    cases hs
    have a0 : s.off + m ≤ t.off := ht _ _ _ h1
    obtain ⟨a1, a2⟩ := h _ _ _ h1
    obtain ⟨a3, a4⟩ := Sized.timesLeast h ht hq n _ _ _ h2
    refine ⟨by omega, ?_⟩
    dsimp only at a4 ⊢
    simp only [List.map_cons, List.sum_cons]
    have e : s'.off - s.off = (t.off - s.off) + (s'.off - t.off) := by omega
    rw [e, Nat.mul_add]
    have : b + r * (t.off - s.off) ≤ (q + r) * (t.off - s.off) := by
      rw [Nat.add_mul]
      have : q * m ≤ q * (t.off - s.off) := Nat.mul_le_mul_left q (by omega)
      omega
    omega

theorem Sized.timesCount {dec : M α} {size : α → Nat} {b r : Nat} (h : Sized dec size b r) :
    (n : Nat) → Sized (decodeTimes dec n) (fun v => (v.map size).sum) (n * b) r
  | 0 => by intro s v s' hs; cases hs; simp
  | n + 1 => by
    intro s v s' hs
    obtain ⟨x, t, h1, hs⟩ := bind_ok hs
    obtain ⟨xs, t2, h2, hs⟩ := bind_ok hs
    cases hs
    obtain ⟨a1, a2⟩ := h _ _ _ h1
    obtain ⟨a3, a4⟩ := Sized.timesCount h n _ _ _ h2
    refine ⟨by omega, ?_⟩
    dsimp only at a4 ⊢
    simp only [List.map_cons, List.sum_cons]
    have e : s'.off - s.off = (t.off - s.off) + (s'.off - t.off) := by omega
    rw [e, Nat.mul_add, Nat.add_mul, Nat.one_mul]
    omega

theorem Sized.scale {dec : M α} {size : α → Nat} {b r : Nat} (K : Nat) (h : Sized dec size b r) :
    Sized dec (fun v => K * size v) (K * b) (K * r) := by
  intro s v s' hs
  obtain ⟨h1, h2⟩ := h s v s' hs
  refine ⟨h1, ?_⟩
  have := Nat.mul_le_mul_left K h2
  rw [Nat.mul_add, ← Nat.mul_assoc] at this
  exact this

theorem Sized.const {dec : M α} (h : IsReader dec) (z : Nat) : Sized dec (fun _ => z) z 0 := by
  intro s v s' hs
  have := Costs.zero h _ _ _ hs
  exact ⟨by omega, by dsimp only; omega⟩

theorem sum_scale (K : Nat) (f : α → Nat) : (l : List α) →
    (l.map fun v => K * f v).sum = K * (l.map f).sum
  | [] => by simp
  | x :: l => by simp only [List.map_cons, List.sum_cons, sum_scale K f l, Nat.mul_add]

theorem ceil_mul {a m : Nat} (h : 0 < m) : a ≤ (a + m - 1) / m * m := by
  have h1 := Nat.div_add_mod (a + m - 1) m
  have h2 := Nat.mod_lt (a + m - 1) h
  rw [Nat.mul_comm] at h1
  omega

/-- A length of 16 bits, and what it can say. -/
theorem decodeLength_wide {lb ub : Option Int} {ext : Bool} (h : wide lb ub ext = true) {s t : Codec}
    {n : Nat} (hs : decodeLength lb ub ext s = .ok n t) :
    s.off + 16 ≤ t.off ∧ n ≤ 65535 + (lb.getD 0).toNat := by
  unfold wide at h
  split at h
  · next l u =>
    simp only [Bool.and_eq_true, Bool.not_eq_true', decide_eq_true_eq] at h
    obtain ⟨rfl, h0, h1, h2⟩ := h
    have hb : SizeBounds (some l) (some u) := by
      constructor <;> intro x hx <;> cases hx <;> omega
    have hu := hb.2 u rfl
    unfold decodeLength at hs
    rw [if_neg (by decide), lengthLowerBound_eq hb, M.pure_bind'] at hs
    dsimp only at hs
    have e : toUsizeOrPanic u = Pure.pure u.toNat := by unfold toUsizeOrPanic; rw [if_pos hu]
    rw [e, M.pure_bind', if_pos (by omega)] at hs
    simp only [Option.getD_some] at hs ⊢
    rw [if_neg (by omega)] at hs
    unfold decodeConstrainedLength at hs
    rw [if_neg (by omega), if_pos (by omega)] at hs
    obtain ⟨v, t2, h3, h4⟩ := bind_ok hs
    unfold decodeConstrained at h3
    have hk := Costs.constrainedLeast Costs.largeLeast _ _ _ _ _ h3
    dsimp only at hk
    have hw : fieldLeast ((u.toNat : Int) - (l.toNat : Int) + 1) = 16 := by
      unfold fieldLeast
      rw [if_neg (by omega), if_neg (by omega), if_pos (by omega)]
    rw [hw] at hk
    rw [decodeConstrainedWith_eq _ (R := u.toNat - l.toNat + 1) (by omega) (by omega) (by omega)] at h3
    obtain ⟨a, t3, h5, rfl⟩ := chk_ok h3
    obtain ⟨h6, -, h7⟩ := decodeField_small_range (by omega) h5
    have h9 : asUsize (a + (l.toNat : Int)) = n := by injection h4
    have h10 : t2 = t := by injection h4
    subst h10
    unfold asUsize at h9
    exact ⟨hk, by omega⟩
  · cases h

mutual

theorem Ty.sized_dense (z K : Nat) : (t : Ty) → t.dense z = true →
    Sized t.decode (fun v => K * t.weight z v) (K * t.floor z) (t.density z K)
  | .boolean, _ => (Sized.of Ty.boolean.decode_reader).scale K
  | .null, _ => (Sized.const Ty.null.decode_reader z).scale K
  | .integer w lb ub ext, _ => (Sized.of (Ty.integer w lb ub ext).decode_reader).scale K
  | .enumerated w lb ub ext, _ => (Sized.of (Ty.enumerated w lb ub ext).decode_reader).scale K
  | .bitstring lb ub ext, _ => by
    have h := (Sized.costs (Costs.bitstring lb ub ext)).scale K
    have e : Ty.density z K (.bitstring lb ub ext) = K * 1 := (Nat.mul_one K).symm
    rw [e]
    exact h
  | .octetstring lb ub ext, _ => by
    have h := (Sized.costs (Costs.octetstring lb ub ext)).scale K
    have e : Ty.density z K (.octetstring lb ub ext) = K * 1 := (Nat.mul_one K).symm
    rw [e]
    exact h
  | .charstring k lb ub ext, _ => by
    have h := (Sized.costs (Costs.charstring k lb ub ext)).scale K
    have e : Ty.density z K (.charstring k lb ub ext) = K * 1 := (Nat.mul_one K).symm
    rw [e]
    exact h
  | .objectIdentifier, _ => by intro s v s' h; cases h
  | .sequence ext n .nil, _ =>
    (Sized.const (Ty.sequence ext n .nil).decode_reader z).scale K
  | .sequence ext n (.required k f rest), h => by
    intro s v s' hs
    obtain ⟨r, t, h1, h2⟩ := bind_ok hs
    have a1 : s.off + 0 ≤ t.off := Costs.zero (IsDec.sequenceHeader ext n).reader _ _ _ h1
    obtain ⟨a2, a3⟩ := Fields.sized_dense z K (.required k f rest) h r.1 _ _ _ h2
    refine ⟨by omega, ?_⟩
    show K * (1 + (Fields.required k f rest).weight z v) ≤ K * (1 + (Fields.required k f rest).floor z) +
      (Fields.required k f rest).density z K * (s'.off - s.off)
    have := grow (b := K * (Fields.required k f rest).floor z)
      (Nat.le_refl ((Fields.required k f rest).density z K)) (c := s'.off - t.off)
      (c' := s'.off - s.off) (by omega)
    dsimp only at a3
    rw [Nat.mul_add, Nat.mul_add]
    omega
  | .sequence ext n (.optional i f rest), h => by
    intro s v s' hs
    obtain ⟨r, t, h1, h2⟩ := bind_ok hs
    have a1 : s.off + 0 ≤ t.off := Costs.zero (IsDec.sequenceHeader ext n).reader _ _ _ h1
    obtain ⟨a2, a3⟩ := Fields.sized_dense z K (.optional i f rest) h r.1 _ _ _ h2
    refine ⟨by omega, ?_⟩
    show K * (1 + (Fields.optional i f rest).weight z v) ≤ K * (1 + (Fields.optional i f rest).floor z) +
      (Fields.optional i f rest).density z K * (s'.off - s.off)
    have := grow (b := K * (Fields.optional i f rest).floor z)
      (Nat.le_refl ((Fields.optional i f rest).density z K)) (c := s'.off - t.off)
      (c' := s'.off - s.off) (by omega)
    dsimp only at a3
    rw [Nat.mul_add, Nat.mul_add]
    omega
  | .sequenceOf lb ub ext e, h => by
    obtain ⟨he, hd⟩ := Bool.and_eq_true_iff.mp h
    intro s v s' hs
    obtain ⟨n, t, h1, h2⟩ := bind_ok hs
    have a1 : s.off + 0 ≤ t.off := Costs.zero (IsDec.length lb ub ext).reader _ _ _ h1
    obtain ⟨-, h2⟩ := decodeLoop_ok h2
    have hsum := sum_scale K (e.weight z) v
    have key : t.off ≤ s'.off ∧ (List.map (fun v => K * e.weight z v) v).sum ≤
        (listDensity K lb (e.floor z) e.least + e.density z K) * (s'.off - s.off) := by
      by_cases hm : e.least = 0
      · obtain ⟨a2, a3⟩ := Sized.timesCount (e.sized_dense z K hd) n _ _ _ h2
        dsimp only at a3
        refine ⟨a2, ?_⟩
        have hle := Nat.mul_le_mul_left (e.density z K) (show s'.off - t.off ≤ s'.off - s.off by omega)
        rw [Nat.add_mul]
        refine Nat.le_trans a3 (Nat.add_le_add ?_ hle)
        simp only [Bool.or_eq_true, decide_eq_true_eq] at he
        rcases he with (he | he) | he
        · omega
        · rw [he]; simp
        · obtain ⟨b1, b2⟩ := decodeLength_wide he h1
          unfold listDensity
          rw [if_pos hm]
          have c1 : n * (K * e.floor z) ≤ K * ((65535 + (lb.getD 0).toNat) * e.floor z) := by
            have := Nat.mul_le_mul_right (K * e.floor z) b2
            rw [Nat.mul_left_comm K]
            exact this
          have c2 := ceil_mul (a := K * ((65535 + (lb.getD 0).toNat) * e.floor z)) (m := 16) (by omega)
          have c3 := Nat.mul_le_mul_left
            ((K * ((65535 + (lb.getD 0).toNat) * e.floor z) + 16 - 1) / 16)
            (show 16 ≤ s'.off - s.off by omega)
          exact Nat.le_trans c1 (Nat.le_trans c2 c3)
      · obtain ⟨a2, a3⟩ := Sized.timesLeast (e.sized_dense z K hd) e.takes_least
          (ceil_mul (Nat.pos_of_ne_zero hm)) n _ _ _ h2
        dsimp only at a3
        refine ⟨a2, ?_⟩
        unfold listDensity
        rw [if_neg hm]
        have := grow (b := 0) (Nat.le_refl ((K * e.floor z + e.least - 1) / e.least + e.density z K))
          (c := s'.off - t.off) (c' := s'.off - s.off) (by omega)
        omega
    refine ⟨by omega, ?_⟩
    show K * (1 + (List.map (e.weight z) v).sum) ≤ K * 1 +
      (listDensity K lb (e.floor z) e.least + e.density z K) * (s'.off - s.off)
    rw [Nat.mul_add, ← hsum]
    omega
  | .choice lb ub ext as, h => by
    intro s v s' hs
    obtain ⟨r, t, h1, h2⟩ := bind_ok hs
    have a1 : s.off + 0 ≤ t.off := Costs.zero (IsDec.choiceIdx lb ub ext).reader _ _ _ h1
    obtain ⟨idx, x⟩ := r
    cases x with
    | false =>
      have h2 : as.decode idx t = .ok v s' := h2
      obtain ⟨a2, a3⟩ := as.sized_dense z K h idx _ _ _ h2
      dsimp only at a3
      refine ⟨by omega, ?_⟩
      show K * (1 + as.weight z v) ≤ K * (1 + as.floor z) + as.density z K * (s'.off - s.off)
      have := grow (b := K * as.floor z) (Nat.le_refl (as.density z K)) (c := s'.off - t.off)
        (c' := s'.off - s.off) (by omega)
      rw [Nat.mul_add, Nat.mul_add]
      omega
    | true => cases h2
  | .openType as, h => by
    intro s v s' hs
    obtain ⟨r, t, h1, h2⟩ := bind_ok hs
    obtain ⟨k, t2, h3, h4⟩ := bind_ok h2
    have a1 : s.off + 0 ≤ t.off := Costs.zero (IsDec.length none none false).reader _ _ _ h1
    obtain ⟨-, rfl⟩ := requireKey_ok h3
    obtain ⟨a2, a3⟩ := as.sized_dense z K h k _ _ _ h4
    dsimp only at a3
    refine ⟨by omega, ?_⟩
    show K * (1 + as.weight z v) ≤ K * (1 + as.floor z) + as.density z K * (s'.off - s.off)
    have := grow (b := K * as.floor z) (Nat.le_refl (as.density z K)) (c := s'.off - t2.off)
      (c' := s'.off - s.off) (by omega)
    rw [Nat.mul_add, Nat.mul_add]
    omega

theorem Fields.sized_dense (z K : Nat) : (fs : Fields) → fs.dense z = true → (bm : List Bool) →
    Sized (fs.decode bm) (fun v => K * fs.weight z v) (K * fs.floor z) (fs.density z K)
  | .nil, _, _ => by intro s v s' h; cases h; simp [Fields.weight]
  | .required k t rest, h, bm => by
    obtain ⟨ht, hr⟩ := Bool.and_eq_true_iff.mp h
    intro s v s' hs
    obtain ⟨x, t1, h1, hs⟩ := bind_ok hs
    obtain ⟨_, t2, h2, hs⟩ := bind_ok hs
    obtain ⟨xs, t3, h3, hs⟩ := bind_ok hs
    cases hs
    have e := setKeyFrom_off h2
    obtain ⟨a1, a2⟩ := t.sized_dense z K ht _ _ _ h1
    obtain ⟨a3, a4⟩ := rest.sized_dense z K hr bm _ _ _ h3
    dsimp only at a2 a4
    refine ⟨by omega, ?_⟩
    show K * (t.weight z x + rest.weight z xs) ≤ K * (t.floor z + rest.floor z) +
      max (t.density z K) (rest.density z K) * (s'.off - s.off)
    have e2 : s'.off - s.off = (t1.off - s.off) + (s'.off - t2.off) := by omega
    rw [e2, Nat.mul_add, Nat.mul_add, Nat.mul_add]
    have := grow (b := K * t.floor z) (Nat.le_max_left (t.density z K) (rest.density z K))
      (Nat.le_refl (t1.off - s.off))
    have := grow (b := K * rest.floor z) (Nat.le_max_right (t.density z K) (rest.density z K))
      (Nat.le_refl (s'.off - t2.off))
    omega
  | .optional i t rest, h, bm => by
    obtain ⟨ht, hr⟩ := Bool.and_eq_true_iff.mp h
    intro s v s' hs
    obtain ⟨b, t0, h0, hs⟩ := bind_ok hs
    obtain ⟨x, t1, h1, hs⟩ := bind_ok hs
    obtain ⟨xs, t3, h3, hs⟩ := bind_ok hs
    cases hs
    obtain ⟨-, rfl⟩ := present_ok h0
    obtain ⟨a3, a4⟩ := rest.sized_dense z K hr bm _ _ _ h3
    dsimp only at a4
    have hx : t0.off ≤ t1.off ∧
        K * (x.map (t.weight z)).getD 0 ≤ K * t.floor z + t.density z K * (t1.off - t0.off) := by
      rw [M.ite_apply] at h1
      split at h1
      · obtain ⟨y, t4, h5, h6⟩ := bind_ok h1
        cases h6
        exact t.sized_dense z K ht _ _ _ h5
      · cases h1
        exact ⟨Nat.le_refl _, by simp⟩
    obtain ⟨a1, a2⟩ := hx
    refine ⟨by omega, ?_⟩
    have ex : (Fields.optional i t rest).weight z (x, xs) =
        1 + (x.map (t.weight z)).getD 0 + rest.weight z xs := by
      cases x <;> rfl
    dsimp only
    rw [ex]
    show K * (1 + (x.map (t.weight z)).getD 0 + rest.weight z xs) ≤
      K * (1 + t.floor z + rest.floor z) + max (t.density z K) (rest.density z K) * (s'.off - t0.off)
    have e2 : s'.off - t0.off = (t1.off - t0.off) + (s'.off - t1.off) := by omega
    rw [e2, Nat.mul_add, Nat.mul_add, Nat.mul_add, Nat.mul_add, Nat.mul_add]
    have := grow (b := K * t.floor z) (Nat.le_max_left (t.density z K) (rest.density z K))
      (Nat.le_refl (t1.off - t0.off))
    have := grow (b := K * rest.floor z) (Nat.le_max_right (t.density z K) (rest.density z K))
      (Nat.le_refl (s'.off - t1.off))
    omega

theorem Alts.sized_dense (z K : Nat) : (as : Alts) → as.dense z = true → (key : Int) →
    Sized (as.decode key) (fun v => K * as.weight z v) (K * as.floor z) (as.density z K)
  | .nil, _, _ => by intro s v s' h; cases h
  | .cons k x t rest, h, key => by
    obtain ⟨ht, hr⟩ := Bool.and_eq_true_iff.mp h
    intro s v s' hs
    simp only [Alts.decode] at hs
    rw [M.ite_apply] at hs
    split at hs
    · obtain ⟨y, t1, h1, hs⟩ := bind_ok hs
      cases hs
      obtain ⟨a1, a2⟩ := t.sized_dense z K ht _ _ _ h1
      refine ⟨a1, ?_⟩
      show K * t.weight z y ≤ K * max (t.floor z) (rest.floor z) +
        max (t.density z K) (rest.density z K) * (s'.off - s.off)
      have := grow (b := K * t.floor z) (Nat.le_max_left (t.density z K) (rest.density z K))
        (Nat.le_refl (s'.off - s.off))
      have := Nat.mul_le_mul_left K (Nat.le_max_left (t.floor z) (rest.floor z))
      dsimp only at a2
      omega
    · obtain ⟨y, t1, h1, hs⟩ := bind_ok hs
      cases hs
      obtain ⟨a1, a2⟩ := rest.sized_dense z K hr key _ _ _ h1
      refine ⟨a1, ?_⟩
      show K * rest.weight z y ≤ K * max (t.floor z) (rest.floor z) +
        max (t.density z K) (rest.density z K) * (s'.off - s.off)
      have := grow (b := K * rest.floor z) (Nat.le_max_right (t.density z K) (rest.density z K))
        (Nat.le_refl (s'.off - s.off))
      have := Nat.mul_le_mul_left K (Nat.le_max_right (t.floor z) (rest.floor z))
      dsimp only at a2
      omega

end

/-! ## The messages -/

theorem consumed_le {m : M α} (h : IsReader m) {octets : List UInt8} {v : α} {s' : Codec}
    (hs : m (Codec.fromSlice octets) = .ok v s') : s'.off ≤ 8 * octets.length := by
  have hf := h.frame (Codec.fromSlice octets)
  rw [hs] at hf
  obtain ⟨-, -, h3⟩ := hf
  have h3 := h3 (Nat.zero_le _)
  have : (Codec.fromSlice octets).bits.length = 8 * octets.length := bytesBits_length octets
  omega

theorem Ty.size_octets (t : Ty) (z : Nat) {d : Nat} (h1 : t.dense z = true) {b : Nat} (h2 : t.floor z = b)
    (h3 : 8 * t.density z 1000 ≤ 1000 * d) {octets : List UInt8} {v : t.Val} {s' : Codec}
    (h : t.decode (Codec.fromSlice octets) = .ok v s') : t.weight z v ≤ b + d * octets.length := by
  obtain ⟨-, h5⟩ := t.sized_dense z 1000 h1 _ _ _ h
  have h6 := consumed_le t.decode_reader h
  have h7 : t.density z 1000 * (s'.off - (Codec.fromSlice octets).off) ≤ t.density z 1000 * (8 * octets.length) :=
    Nat.mul_le_mul_left _ (show s'.off - 0 ≤ _ by omega)
  have h8 : t.density z 1000 * (8 * octets.length) ≤ 1000 * (d * octets.length) := by
    rw [← Nat.mul_assoc, Nat.mul_comm _ 8, ← Nat.mul_assoc]
    exact Nat.mul_le_mul_right _ h3
  dsimp only at h5
  rw [h2] at h5
  omega

/-- **C106 for NGAP.** A message of `n` octets decodes to at most `7 + 70 * n` values that take memory,
and to at most `7 + 32830 * n` values at all. -/
theorem C106_ngap_partial (octets : List UInt8) (v : Ngap.NGAP_PDU.Val) (s' : Codec)
    (h : Ngap.NGAP_PDU.decode (Codec.fromSlice octets) = .ok v s') :
    Ngap.NGAP_PDU.stored v ≤ 7 + 70 * octets.length ∧
    Ngap.NGAP_PDU.size v ≤ 7 + 32830 * octets.length := by
  rw [← Ty.weight_zero, ← Ty.weight_one]
  exact ⟨Ty.size_octets _ 0 (by decide +kernel) (by decide +kernel) (by decide +kernel) h,
    Ty.size_octets _ 1 (by decide +kernel) (by decide +kernel) (by decide +kernel) h⟩

/-- **C106 for S1AP.** -/
theorem C106_s1ap_partial (octets : List UInt8) (v : S1ap.S1AP_PDU.Val) (s' : Codec)
    (h : S1ap.S1AP_PDU.decode (Codec.fromSlice octets) = .ok v s') :
    S1ap.S1AP_PDU.stored v ≤ 7 + 62 * octets.length ∧
    S1ap.S1AP_PDU.size v ≤ 7 + 32814 * octets.length := by
  rw [← Ty.weight_zero, ← Ty.weight_one]
  exact ⟨Ty.size_octets _ 0 (by decide +kernel) (by decide +kernel) (by decide +kernel) h,
    Ty.size_octets _ 1 (by decide +kernel) (by decide +kernel) (by decide +kernel) h⟩

/-- **C106 for RANAP.** -/
theorem C106_ranap_partial (octets : List UInt8) (v : Ranap.RANAP_PDU.Val) (s' : Codec)
    (h : Ranap.RANAP_PDU.decode (Codec.fromSlice octets) = .ok v s') :
    Ranap.RANAP_PDU.stored v ≤ 9 + 62 * octets.length ∧
    Ranap.RANAP_PDU.size v ≤ 9 + 32830 * octets.length := by
  rw [← Ty.weight_zero, ← Ty.weight_one]
  exact ⟨Ty.size_octets _ 0 (by decide +kernel) (by decide +kernel) (by decide +kernel) h,
    Ty.size_octets _ 1 (by decide +kernel) (by decide +kernel) (by decide +kernel) h⟩

/-- The hypothesis is met by an NG SETUP REQUEST. -/
example : ∃ v s', Ngap.NGAP_PDU.decode (Codec.fromSlice setupRequest) = .ok v s' := by
  have h : (match Ngap.NGAP_PDU.decode (Codec.fromSlice setupRequest) with
    | .ok _ _ => true | _ => false) = true := by decide +kernel
  split at h
  · next v s' e => exact ⟨v, s', e⟩
  · cases h

/-! ## Messages that decode to many values -/

mutual

/-- Decode, and count; the components of lists of empty sequences are not gone through. -/
def Ty.weigh : Ty → M Nat
  | .sequenceOf lb ub ext (.sequence false 0 .nil) =>
    decodeLength lb ub ext >>= fun n => if n = 0 then M.fail else pure (1 + n)
  | .sequenceOf lb ub ext e =>
    decodeLength lb ub ext >>= fun n => if n = 0 then M.fail else
      decodeTimes e.weigh n >>= fun l => pure (1 + l.sum)
  | .sequence ext n fs => decodeSequenceHeader ext n >>= fun h => fs.weigh h.1 >>= fun k => pure (1 + k)
  | .choice lb ub ext as => decodeChoiceIdx lb ub ext >>= fun r =>
      if !r.2 then as.weigh r.1 >>= fun k => pure (1 + k) else M.fail
  | .openType as => decodeLength none none false >>= fun _ => requireKey >>= fun k =>
      as.weigh k >>= fun n => pure (1 + n)
  | .boolean => Ty.boolean.decode >>= fun _ => pure 1
  | .null => Ty.null.decode >>= fun _ => pure 1
  | .integer w lb ub ext => (Ty.integer w lb ub ext).decode >>= fun _ => pure 1
  | .enumerated w lb ub ext => (Ty.enumerated w lb ub ext).decode >>= fun _ => pure 1
  | .bitstring lb ub ext => (Ty.bitstring lb ub ext).decode >>= fun v =>
      pure ((Ty.bitstring lb ub ext).size v)
  | .octetstring lb ub ext => (Ty.octetstring lb ub ext).decode >>= fun v =>
      pure ((Ty.octetstring lb ub ext).size v)
  | .charstring k lb ub ext => (Ty.charstring k lb ub ext).decode >>= fun v =>
      pure ((Ty.charstring k lb ub ext).size v)
  | .objectIdentifier => M.fail

/-- The fields. -/
def Fields.weigh : Fields → List Bool → M Nat
  | .nil, _ => pure 0
  | .required true t rest, bm => t.decode >>= fun v => setKeyFrom true t v >>= fun _ =>
      rest.weigh bm >>= fun n => pure (t.size v + n)
  | .required false t rest, bm => t.weigh >>= fun k => rest.weigh bm >>= fun n => pure (k + n)
  | .optional i t rest, bm => present bm i >>= fun b =>
      (if b then t.weigh else pure 0) >>= fun k => rest.weigh bm >>= fun n => pure (1 + k + n)

/-- The variant. -/
def Alts.weigh : Alts → Int → M Nat
  | .nil, _ => M.fail
  | .cons k _ t rest, key => if key = k then t.weigh else rest.weigh key

end

/-- A count is the size of what is decoded. -/
def Weighs (w : M Nat) (dec : M α) (size : α → Nat) : Prop :=
  ∀ s n s', w s = .ok n s' → ∃ v, dec s = .ok v s' ∧ size v = n

theorem bind_intro {m : M α} {f : α → M β} {s t : Codec} {a : α} (h : m s = .ok a t) :
    (m >>= f) s = f a t := by
  show M.bind m f s = _
  simp only [M.bind, h]

theorem Weighs.times {w : M Nat} {dec : M α} {size : α → Nat} (h : Weighs w dec size) :
    (n : Nat) → ∀ s l s', decodeTimes w n s = .ok l s' →
      ∃ v, decodeTimes dec n s = .ok v s' ∧ v.map size = l
  | 0 => by intro s l s' hs; cases hs; exact ⟨[], rfl, rfl⟩
  | n + 1 => by
    intro s l s' hs
    obtain ⟨x, t, h1, hs⟩ := bind_ok hs
    obtain ⟨xs, t2, h2, hs⟩ := bind_ok hs
    cases hs
    obtain ⟨y, h3, h4⟩ := h _ _ _ h1
    obtain ⟨ys, h5, h6⟩ := Weighs.times h n _ _ _ h2
    refine ⟨y :: ys, ?_, by rw [List.map_cons, h4, h6]⟩
    show (dec >>= fun x => decodeTimes dec n >>= fun xs => Pure.pure (x :: xs)) s = _
    rw [bind_intro h3, bind_intro h5]
    rfl

theorem times_empty (s : Codec) : (n : Nat) →
    decodeTimes (Ty.sequence false 0 .nil).decode n s = .ok (List.replicate n ()) s
  | 0 => rfl
  | n + 1 => by
    show ((Ty.sequence false 0 .nil).decode >>= fun x =>
      decodeTimes (Ty.sequence false 0 .nil).decode n >>= fun xs => Pure.pure (x :: xs)) s = _
    have h : (Ty.sequence false 0 .nil).decode s = .ok () s := rfl
    rw [bind_intro h, bind_intro (times_empty s n)]
    rfl

theorem Weighs.one {dec : M α} : Weighs (dec >>= fun _ => Pure.pure 1) dec (fun _ => 1) := by
  intro s n s' hs
  obtain ⟨v, t, h1, hs⟩ := bind_ok hs
  cases hs
  exact ⟨v, h1, rfl⟩

theorem Weighs.value {dec : M α} {size : α → Nat} : Weighs (dec >>= fun v => Pure.pure (size v)) dec size := by
  intro s n s' hs
  obtain ⟨v, t, h1, hs⟩ := bind_ok hs
  cases hs
  exact ⟨v, h1, rfl⟩

/-- A list, from its elements. -/
theorem Weighs.list {lb ub : Option Int} {ext : Bool} {e : Ty} (h : Weighs e.weigh e.decode e.size) :
    Weighs (decodeLength lb ub ext >>= fun n => if n = 0 then M.fail else
      decodeTimes e.weigh n >>= fun l => Pure.pure (1 + l.sum))
      (Ty.sequenceOf lb ub ext e).decode (Ty.sequenceOf lb ub ext e).size := by
  intro s n s' hs
  obtain ⟨k, t, h1, hs⟩ := bind_ok hs
  rw [M.ite_apply] at hs
  split at hs
  · cases hs
  · next hk =>
    obtain ⟨l, t2, h2, hs⟩ := bind_ok hs
    cases hs
    obtain ⟨v, h3, h4⟩ := Weighs.times h k _ _ _ h2
    refine ⟨v, ?_, congrArg (1 + List.sum ·) h4⟩
    show (decodeLength lb ub ext >>= fun n => decodeLoop e.decode n) s = _
    rw [bind_intro h1]
    unfold decodeLoop
    rw [if_neg hk]
    exact h3

mutual

theorem Ty.weighs : (t : Ty) → Weighs t.weigh t.decode t.size
  | .sequenceOf lb ub ext (.sequence false 0 .nil) => by
    intro s n s' hs
    obtain ⟨k, t, h1, hs⟩ := bind_ok hs
    rw [M.ite_apply] at hs
    split at hs
    · cases hs
    · next hk =>
      cases hs
      refine ⟨List.replicate k (), ?_, ?_⟩
      · show (decodeLength lb ub ext >>= fun n => decodeLoop (Ty.sequence false 0 .nil).decode n) s = _
        rw [bind_intro h1]
        unfold decodeLoop
        rw [if_neg hk]
        exact times_empty _ k
      · show 1 + (List.map (fun _ => 1 + 0) (List.replicate k ())).sum = 1 + k
        rw [List.map_replicate, List.sum_replicate_nat]
        omega
  | .sequenceOf lb ub ext (.sequence true n fs) => Weighs.list (Ty.weighs (.sequence true n fs))
  | .sequenceOf lb ub ext (.sequence false (n + 1) fs) =>
    Weighs.list (Ty.weighs (.sequence false (n + 1) fs))
  | .sequenceOf lb ub ext (.sequence false 0 (.required k t rest)) =>
    Weighs.list (Ty.weighs (.sequence false 0 (.required k t rest)))
  | .sequenceOf lb ub ext (.sequence false 0 (.optional i t rest)) =>
    Weighs.list (Ty.weighs (.sequence false 0 (.optional i t rest)))
  | .sequenceOf lb ub ext (.sequenceOf lb' ub' ext' e) => Weighs.list (Ty.weighs (.sequenceOf lb' ub' ext' e))
  | .sequenceOf lb ub ext (.choice lb' ub' ext' as) => Weighs.list (Ty.weighs (.choice lb' ub' ext' as))
  | .sequenceOf lb ub ext (.openType as) => Weighs.list (Ty.weighs (.openType as))
  | .sequenceOf lb ub ext .boolean => Weighs.list (e := .boolean) Weighs.one
  | .sequenceOf lb ub ext .null => Weighs.list (e := .null) Weighs.one
  | .sequenceOf lb ub ext (.integer w lb' ub' ext') =>
    Weighs.list (e := .integer w lb' ub' ext') Weighs.one
  | .sequenceOf lb ub ext (.enumerated w lb' ub' ext') =>
    Weighs.list (e := .enumerated w lb' ub' ext') Weighs.one
  | .sequenceOf lb ub ext (.bitstring lb' ub' ext') =>
    Weighs.list (e := .bitstring lb' ub' ext') Weighs.value
  | .sequenceOf lb ub ext (.octetstring lb' ub' ext') =>
    Weighs.list (e := .octetstring lb' ub' ext') Weighs.value
  | .sequenceOf lb ub ext (.charstring k lb' ub' ext') =>
    Weighs.list (e := .charstring k lb' ub' ext') Weighs.value
  | .sequenceOf lb ub ext .objectIdentifier =>
    Weighs.list (e := .objectIdentifier) (by intro s n s' hs; cases hs)
  | .sequence ext n fs => by
    intro s w s' hs
    obtain ⟨r, t, h1, hs⟩ := bind_ok hs
    obtain ⟨k, t2, h2, hs⟩ := bind_ok hs
    cases hs
    obtain ⟨v, h3, h4⟩ := fs.weighs r.1 _ _ _ h2
    refine ⟨v, ?_, congrArg (1 + ·) h4⟩
    show (decodeSequenceHeader ext n >>= fun h => fs.decode h.1) s = _
    rw [bind_intro h1]
    exact h3
  | .choice lb ub ext as => by
    intro s w s' hs
    obtain ⟨r, t, h1, hs⟩ := bind_ok hs
    rw [M.ite_apply] at hs
    split at hs
    · next hr =>
      obtain ⟨k, t2, h2, hs⟩ := bind_ok hs
      cases hs
      obtain ⟨v, h3, h4⟩ := as.weighs r.1 _ _ _ h2
      refine ⟨v, ?_, congrArg (1 + ·) h4⟩
      show (decodeChoiceIdx lb ub ext >>= fun r => if !r.2 then as.decode r.1 else M.fail) s = _
      rw [bind_intro h1, M.ite_apply, if_pos hr]
      exact h3
    · cases hs
  | .openType as => by
    intro s w s' hs
    obtain ⟨r, t, h1, hs⟩ := bind_ok hs
    obtain ⟨k, t2, h2, hs⟩ := bind_ok hs
    obtain ⟨n, t3, h3, hs⟩ := bind_ok hs
    cases hs
    obtain ⟨v, h4, h5⟩ := as.weighs k _ _ _ h3
    refine ⟨v, ?_, congrArg (1 + ·) h5⟩
    show (decodeLength none none false >>= fun _ => requireKey >>= fun k => as.decode k) s = _
    rw [bind_intro h1, bind_intro h2]
    exact h4
  | .boolean => Weighs.one
  | .null => Weighs.one
  | .integer .. => Weighs.one
  | .enumerated .. => Weighs.one
  | .bitstring .. => Weighs.value
  | .octetstring .. => Weighs.value
  | .charstring .. => Weighs.value
  | .objectIdentifier => by intro s n s' hs; cases hs

theorem Fields.weighs : (fs : Fields) → (bm : List Bool) → Weighs (fs.weigh bm) (fs.decode bm) fs.size
  | .nil, _ => by intro s n s' hs; cases hs; exact ⟨(), rfl, rfl⟩
  | .required true t rest, bm => by
    intro s n s' hs
    obtain ⟨v, t1, h1, hs⟩ := bind_ok hs
    obtain ⟨u, t2, h2, hs⟩ := bind_ok hs
    obtain ⟨k, t3, h3, hs⟩ := bind_ok hs
    cases hs
    obtain ⟨vs, h4, h5⟩ := rest.weighs bm _ _ _ h3
    refine ⟨(v, vs), ?_, congrArg (t.size v + ·) h5⟩
    show (t.decode >>= fun v => setKeyFrom true t v >>= fun _ => rest.decode bm >>= fun vs => Pure.pure (v, vs)) s = _
    rw [bind_intro h1, bind_intro h2, bind_intro h4]
    rfl
  | .required false t rest, bm => by
    intro s n s' hs
    obtain ⟨k, t1, h1, hs⟩ := bind_ok hs
    obtain ⟨m, t2, h2, hs⟩ := bind_ok hs
    cases hs
    obtain ⟨v, h3, h4⟩ := t.weighs _ _ _ h1
    obtain ⟨vs, h5, h6⟩ := rest.weighs bm _ _ _ h2
    refine ⟨(v, vs), ?_, ?_⟩
    · show (t.decode >>= fun v => setKeyFrom false t v >>= fun _ => rest.decode bm >>= fun vs => Pure.pure (v, vs)) s = _
      have e : setKeyFrom false t v t1 = .ok () t1 := rfl
      rw [bind_intro h3, bind_intro e, bind_intro h5]
      rfl
    · show t.size v + rest.size vs = k + m
      rw [h4, h6]
  | .optional i t rest, bm => by
    intro s n s' hs
    obtain ⟨b, t0, h0, hs⟩ := bind_ok hs
    obtain ⟨k, t1, h1, hs⟩ := bind_ok hs
    obtain ⟨m, t2, h2, hs⟩ := bind_ok hs
    cases hs
    obtain ⟨vs, h5, h6⟩ := rest.weighs bm _ _ _ h2
    cases b with
    | true =>
      have h1 : t.weigh t0 = .ok k t1 := h1
      obtain ⟨v, h3, h4⟩ := t.weighs _ _ _ h1
      refine ⟨(some v, vs), ?_, ?_⟩
      · show (present bm i >>= fun b => (if b then t.decode >>= fun x => Pure.pure (some x) else Pure.pure none) >>=
          fun v => rest.decode bm >>= fun vs => Pure.pure (v, vs)) s = _
        have e : (if (true : Bool) then t.decode >>= fun x => Pure.pure (some x) else Pure.pure none) t0 =
            .ok (some v) t1 := by
          show (t.decode >>= fun x => Pure.pure (some x)) t0 = _
          rw [bind_intro h3]
          rfl
        rw [bind_intro h0, bind_intro e, bind_intro h5]
        rfl
      · show 1 + t.size v + rest.size vs = 1 + k + m
        rw [h4, h6]
    | false =>
      cases h1
      refine ⟨(none, vs), ?_, ?_⟩
      · show (present bm i >>= fun b => (if b then t.decode >>= fun x => Pure.pure (some x) else Pure.pure none) >>=
          fun v => rest.decode bm >>= fun vs => Pure.pure (v, vs)) s = _
        have e : (if (false : Bool) then t.decode >>= fun x => Pure.pure (some x) else Pure.pure none) t0 =
            .ok none t0 := rfl
        rw [bind_intro h0, bind_intro e, bind_intro h5]
        rfl
      · show 1 + 0 + rest.size vs = 1 + 0 + m
        rw [h6]

theorem Alts.weighs : (as : Alts) → (key : Int) → Weighs (as.weigh key) (as.decode key) as.size
  | .nil, _ => by intro s n s' hs; cases hs
  | .cons k x t rest, key => by
    intro s n s' hs
    simp only [Alts.weigh] at hs
    rw [M.ite_apply] at hs
    split at hs
    · next hk =>
      obtain ⟨v, h1, h2⟩ := t.weighs _ _ _ hs
      refine ⟨.inl v, ?_, h2⟩
      simp only [Alts.decode]
      rw [M.ite_apply, if_pos hk, bind_intro h1]
      rfl
    · next hk =>
      obtain ⟨v, h1, h2⟩ := rest.weighs key _ _ _ hs
      refine ⟨.inr v, ?_, h2⟩
      simp only [Alts.decode]
      rw [M.ite_apply, if_neg hk, bind_intro h1]
      rfl

end

/-- A PRIVATE MESSAGE with 65535 entries, each of which takes no bits: the entries of the set
`PrivateIEs` have no components in the generated code. `code` is the code of the procedure. -/
def private_ (code : UInt8) : List UInt8 := [0x00, code, 0x40, 0x03, 0x00, 0xFF, 0xFE]

theorem Ty.weighs_ok {t : Ty} {octets : List UInt8} {n : Nat}
    (h : (match t.weigh (Codec.fromSlice octets) with | .ok k _ => k == n | _ => false) = true) :
    ∃ v s', t.decode (Codec.fromSlice octets) = .ok v s' ∧ t.size v = n := by
  split at h
  · next k s' hk =>
    obtain ⟨v, h1, h2⟩ := t.weighs _ _ _ hk
    exact ⟨v, s', h1, h2.trans (eq_of_beq h)⟩
  · cases h

/-- **C106 is violated by the messages of NGAP, S1AP and RANAP**, in the time they take: seven octets
decode to 65542 values. (The values that take memory are few, see `C106_ngap_partial`.) -/
theorem C106_messages_violated :
    (∃ v s', Ngap.NGAP_PDU.decode (Codec.fromSlice (private_ 31)) = .ok v s' ∧
      Ngap.NGAP_PDU.size v = 65542) ∧
    (∃ v s', S1ap.S1AP_PDU.decode (Codec.fromSlice (private_ 39)) = .ok v s' ∧
      S1ap.S1AP_PDU.size v = 65542) ∧
    (∃ v s', Ranap.RANAP_PDU.decode (Codec.fromSlice (private_ 25)) = .ok v s' ∧
      Ranap.RANAP_PDU.size v = 65542) :=
  ⟨Ty.weighs_ok (by decide +kernel), Ty.weighs_ok (by decide +kernel), Ty.weighs_ok (by decide +kernel)⟩

end Hampi
