import Verif.Spec.Release
import Verif.Derive.Release
/-!
# Release builds and debug builds, function by function
-/
namespace Hampi.Same
open Hampi

variable {α β : Type}

theorem refl (m : M α) : SameUnlessPanic m m := fun _ _ => rfl

theorem panic (r : M α) : SameUnlessPanic M.panic r := fun _ h => absurd rfl h

theorem bind_of {m m' : M α} {f g : α → M β} (h : SameUnlessPanic m m')
    (hf : ∀ a, (∃ s s', m s = .ok a s') → SameUnlessPanic (f a) (g a)) :
    SameUnlessPanic (m >>= f) (m' >>= g) := by
  intro s hs
  change M.bind m f s ≠ _ at hs
  show M.bind m' g s = M.bind m f s
  unfold M.bind at *
  cases hm : m s with
  | ok a s' =>
    rw [hm] at hs
    rw [h s (by rw [hm]; exact fun e => nomatch e), hm]
    exact hf a ⟨s, s', hm⟩ s' hs
  | err s' => rw [h s (by rw [hm]; exact fun e => nomatch e), hm]
  | panic => rw [hm] at hs; exact absurd rfl hs

theorem bind {m m' : M α} {f g : α → M β} (h : SameUnlessPanic m m')
    (hf : ∀ a, SameUnlessPanic (f a) (g a)) : SameUnlessPanic (m >>= f) (m' >>= g) :=
  bind_of h fun a _ => hf a

theorem ite {c : Prop} [Decidable c] {m m' k k' : M α} (h : SameUnlessPanic m m') (h' : SameUnlessPanic k k') :
    SameUnlessPanic (if c then m else k) (if c then m' else k') := by
  split <;> assumption

theorem chk (v : Int) : SameUnlessPanic (chkI128 v) (Release.chkI128 v) := by
  unfold chkI128
  split
  · rename_i h
    unfold Release.chkI128
    have e : signExtend 128 (v % 2 ^ 128).toNat = v := by
      obtain ⟨h1, h2⟩ := h
      simp only [signExtend]
      have : ((v % 2 ^ 128).toNat : Int) = v % 2 ^ 128 := Int.toNat_of_nonneg (Int.emod_nonneg _ (by decide))
      split <;> omega
    rw [e]
    exact refl _
  · exact panic _

theorem advance (n : Nat) (b : Bool) : SameUnlessPanic (advanceMaybeErr n b) (Release.advanceMaybeErr n b) := by
  intro s hs
  unfold advanceMaybeErr at hs
  unfold advanceMaybeErr Release.advanceMaybeErr
  split
  · rename_i h
    rw [if_pos h] at hs
    split
    · rfl
    · rename_i hb
      rw [if_neg hb] at hs
      split
      · rename_i h2
        rw [if_pos h2] at hs
        exact absurd rfl hs
      · rfl
  · rfl

theorem bitsAsInteger (n : Nat) (b : Bool) :
    SameUnlessPanic (decodeBitsAsInteger n b) (Release.decodeBitsAsInteger n b) := by
  intro s hs
  unfold Release.decodeBitsAsInteger
  split
  · rename_i h
    unfold decodeBitsAsInteger at hs
    rw [if_pos h] at hs
    exact absurd rfl hs
  · rfl

theorem bitvec (n : Nat) : SameUnlessPanic (getBitvec n) (Release.getBitvec n) := by
  intro s hs
  unfold getBitvec at hs
  unfold getBitvec Release.getBitvec
  split
  · rename_i h
    rw [if_pos h] at hs
    split
    · rename_i h2
      rw [if_pos h2] at hs
      exact absurd rfl hs
    · rfl
  · rename_i h
    rw [if_neg h] at hs
    exact bind (advance _ _) (fun _ => refl _) s hs

theorem bytes (n : Nat) : SameUnlessPanic (getBytes n) (Release.getBytes n) := by
  intro s hs
  unfold getBytes at hs
  unfold getBytes Release.getBytes
  dsimp only at *
  split
  · rename_i h
    rw [if_pos h] at hs
    split
    · rename_i h2
      rw [if_pos h2] at hs
      exact absurd rfl hs
    · rfl
  · rename_i h
    rw [if_neg h] at hs
    exact bind (advance _ _) (fun _ => refl _) s hs

theorem bit : SameUnlessPanic getBit Release.getBit := by
  intro s hs
  unfold getBit at hs
  unfold getBit Release.getBit
  split
  · rename_i h
    rw [if_pos h] at hs
    split
    · rename_i h2
      rw [if_pos h2] at hs
      exact absurd rfl hs
    · rfl
  · rfl

theorem lengthBytes : SameUnlessPanic lengthInBytes Release.lengthInBytes := by
  intro s hs
  unfold lengthInBytes at hs
  unfold lengthInBytes Release.lengthInBytes
  split
  · rename_i h
    rw [if_pos h] at hs
    exact absurd rfl hs
  · rfl

/-! ## Decoders -/

theorem indefinite : SameUnlessPanic decodeIndefiniteLength Release.decodeIndefiniteLength := by
  refine bind (refl _) fun _ => bind (refl _) fun _ => ite (bind (bitsAsInteger _ _) fun _ => refl _) ?_
  exact bind (refl _) fun _ => ite (bind (bitsAsInteger _ _) fun _ => refl _)
    (bind (bitsAsInteger _ _) fun _ => refl _)

theorem constrainedField {large large' : Int → M Int} (h : ∀ r, SameUnlessPanic (large r) (large' r)) (r : Int) :
    SameUnlessPanic (decodeConstrainedField large r) (Release.decodeConstrainedField large' r) :=
  ite (bitsAsInteger _ _) (ite (bind (refl _) fun _ => bitsAsInteger _ _)
    (ite (bind (refl _) fun _ => bitsAsInteger _ _) (h r)))

theorem constrainedWith {large large' : Int → M Int} (h : ∀ r, SameUnlessPanic (large r) (large' r)) (lb ub : Int) :
    SameUnlessPanic (decodeConstrainedWith large lb ub) (Release.decodeConstrainedWith large' lb ub) :=
  bind (chk _) fun _ => bind (chk _) fun _ => ite (refl _) (bind (constrainedField h _) fun _ => chk _)

/-- The wrapped range of a length is the range, when the debug build computes one. -/
theorem lengthRange (lb ub : Nat) (hl : lb < 2 ^ 64) {m m' : M Nat} (h : SameUnlessPanic m m') :
    SameUnlessPanic (if ub < lb then M.panic else if ub - lb + 1 ≤ 65536 then m else M.panic)
      (if (ub + (2 ^ 64 - lb) + 1) % 2 ^ 64 ≤ 65536 then m' else M.panic) := by
  split
  · exact panic _
  · split
    · rename_i h1 h2
      rw [if_pos (by omega)]
      exact h
    · exact panic _

theorem constrainedLengthSmall (ub : Nat) :
    SameUnlessPanic (decodeConstrainedLengthSmall 1 ub) (Release.decodeConstrainedLengthSmall 1 ub) :=
  lengthRange 1 ub (by decide) (bind (constrainedWith (fun _ => panic _) _ _) fun _ => refl _)

theorem constrained (lb ub : Int) : SameUnlessPanic (decodeConstrained lb ub) (Release.decodeConstrained lb ub) :=
  constrainedWith (fun _ => bind (constrainedLengthSmall _) fun _ => bind (refl _) fun _ => bitsAsInteger _ _) lb ub

theorem constrainedLength (lb ub : Nat) (hl : lb < 2 ^ 64) :
    SameUnlessPanic (decodeConstrainedLength lb ub) (Release.decodeConstrainedLength lb ub) :=
  lengthRange lb ub hl (bind (constrained _ _) fun _ => refl _)

theorem normallySmallLength : SameUnlessPanic decodeNormallySmallLength Release.decodeNormallySmallLength :=
  bind (refl _) fun _ => ite (bind (bitsAsInteger _ _) fun _ => refl _) indefinite

theorem lengthLowerBound_lt {lb : Option Int} {l : Nat} (h : ∃ s s', lengthLowerBound lb s = .ok l s') :
    l < 2 ^ 64 := by
  obtain ⟨s, s', h⟩ := h
  cases lb with
  | none => cases h; decide
  | some v =>
    change toUsizeOrPanic v s = _ at h
    unfold toUsizeOrPanic at h
    split at h
    · rename_i hv
      cases h
      omega
    · cases h

theorem length (lb ub : Option Int) (b : Bool) :
    SameUnlessPanic (decodeLength lb ub b) (Release.decodeLength lb ub b) := by
  refine ite normallySmallLength (bind_of (refl _) fun l hl => ?_)
  cases ub with
  | none => exact indefinite
  | some u => exact bind (refl _) fun u => ite (ite (refl _) (constrainedLength _ _ (lengthLowerBound_lt hl))) indefinite

theorem unconstrained : SameUnlessPanic decodeUnconstrained Release.decodeUnconstrained :=
  bind (length _ _ _) fun _ => bitsAsInteger _ _

theorem semiConstrained (lb : Int) : SameUnlessPanic (decodeSemiConstrained lb) (Release.decodeSemiConstrained lb) :=
  bind (length _ _ _) fun _ => bind (bitsAsInteger _ _) fun _ => chk _

theorem normallySmall : SameUnlessPanic decodeNormallySmallNonNegative Release.decodeNormallySmallNonNegative :=
  bind (refl _) fun _ => ite (bitsAsInteger _ _) (semiConstrained _)

theorem integerValue (lb ub : Option Int) (x : Bool) :
    SameUnlessPanic (decodeIntegerValue lb ub x) (Release.decodeIntegerValue lb ub x) := by
  refine ite unconstrained ?_
  cases lb with
  | none => exact unconstrained
  | some l => cases ub with
    | none => exact semiConstrained l
    | some u => exact constrained l u

theorem integer (lb ub : Option Int) (x : Bool) :
    SameUnlessPanic (decodeInteger lb ub x) (Release.decodeInteger lb ub x) :=
  bind (refl _) fun _ => bind (integerValue _ _ _) fun _ => refl _

theorem choiceIdx (lb ub : Int) (x : Bool) :
    SameUnlessPanic (decodeChoiceIdx lb ub x) (Release.decodeChoiceIdx lb ub x) :=
  ite (bind (refl _) fun _ => ite (bind (integer _ _ _) fun _ => refl _) (bind normallySmall fun _ => refl _))
    (bind (integer _ _ _) fun _ => refl _)

theorem sequenceHeader (x : Bool) (n : Nat) :
    SameUnlessPanic (decodeSequenceHeader x n) (Release.decodeSequenceHeader x n) :=
  bind (refl _) fun _ => bind (ite (bitvec _) (refl _)) fun _ => refl _

theorem enumerated (lb ub : Option Int) (x : Bool) :
    SameUnlessPanic (decodeEnumerated lb ub x) (Release.decodeEnumerated lb ub x) :=
  bind (refl _) fun _ => bind (ite (bind (integer _ _ _) fun _ => refl _) normallySmall) fun _ => refl _

theorem stringLength (x : Bool) (lb ub : Option Int) :
    SameUnlessPanic (decodeStringLength x lb ub) (Release.decodeStringLength x lb ub) :=
  ite (length _ _ _) (length _ _ _)

theorem frags {len len' : M Nat} (hl : SameUnlessPanic len len') (above : Nat) {get get' : Nat → M (List α)}
    (hg : ∀ n, SameUnlessPanic (get n) (get' n)) (fuel : Nat) (acc : List α) :
    SameUnlessPanic (fragLoop len above get fuel acc) (fragLoop len' above get' fuel acc) := by
  induction fuel generalizing acc with
  | zero => exact panic _
  | succ n ih =>
    exact bind hl fun _ => bind (ite (bind (refl _) fun _ => hg _) (refl _)) fun _ => ite (ih _) (refl _)

theorem fragments {len len' : M Nat} (hl : SameUnlessPanic len len') (above : Nat) {get get' : Nat → M (List α)}
    (hg : ∀ n, SameUnlessPanic (get n) (get' n)) :
    SameUnlessPanic (decodeFragments len above get) (decodeFragments len' above get') :=
  fun s hs => frags hl above hg _ _ s hs

theorem bitstring (lb ub : Option Int) (x : Bool) :
    SameUnlessPanic (decodeBitstring lb ub x) (Release.decodeBitstring lb ub x) :=
  bind (refl _) fun _ => fragments (stringLength _ _ _) _ bitvec

theorem octetstring (lb ub : Option Int) (x : Bool) :
    SameUnlessPanic (decodeOctetstring lb ub x) (Release.decodeOctetstring lb ub x) :=
  bind (refl _) fun _ => fragments (stringLength _ _ _) _ bytes

theorem bitvecStored (n : Nat) : SameUnlessPanic (getBitvecStored n) (Release.getBitvecStored n) :=
  fun s hs => bind (bitvec n) (fun _ => refl _) s hs

theorem string (lb ub : Option Int) (x : Bool) :
    SameUnlessPanic (decodeString lb ub x) (Release.decodeString lb ub x) :=
  bind (refl _) fun _ => bind (stringLength _ _ _) fun _ => bind (refl _) fun _ => bind (bitvecStored _) fun _ => refl _

/-! ## Encoders -/

theorem encConstrainedWith {large large' : Int → Int → M Unit} (h : ∀ r v, SameUnlessPanic (large r v) (large' r v))
    (lb ub v : Int) :
    SameUnlessPanic (encodeConstrainedWith large lb ub v) (Release.encodeConstrainedWith large' lb ub v) := by
  refine ite (refl _) (ite (refl _) ?_)
  exact bind (chk _) fun _ => bind (chk _) fun _ => bind (chk _) fun _ =>
    ite (ite (refl _) (refl _)) (ite (refl _) (h _ _))

theorem encConstrained (lb ub v : Int) :
    SameUnlessPanic (encodeConstrained lb ub v) (Release.encodeConstrained lb ub v) :=
  encConstrainedWith (fun _ _ => bind (encConstrainedWith (fun _ _ => panic _) _ _ _) fun _ => refl _) lb ub v

theorem encNormallySmallLength (n : Nat) :
    SameUnlessPanic (encodeNormallySmallLength n) (Release.encodeNormallySmallLength n) := by
  refine ite ?_ (refl _)
  split
  · exact panic _
  · rename_i h
    have e : (n + (2 ^ 64 - 1)) % 256 = (n - 1) % 256 := by omega
    rw [e]
    exact refl _

theorem encLength (lb ub : Option Int) (b : Bool) (n : Nat) :
    SameUnlessPanic (encodeLength lb ub b n) (Release.encodeLength lb ub b n) := by
  refine ite (encNormallySmallLength n) ?_
  cases ub with
  | none => exact refl _
  | some u => exact ite (encConstrained _ _ _) (refl _)

theorem encUnconstrained (v : Int) : SameUnlessPanic (encodeUnconstrained v) (Release.encodeUnconstrained v) :=
  bind (encLength _ _ _ _) fun _ => refl _

theorem encSemiConstrained (lb v : Int) :
    SameUnlessPanic (encodeSemiConstrained lb v) (Release.encodeSemiConstrained lb v) :=
  ite (refl _) (bind (chk _) fun _ => encUnconstrained _)

theorem encInteger (lb ub : Option Int) (x : Bool) (v : Int) (e : Bool) :
    SameUnlessPanic (encodeInteger lb ub x v e) (Release.encodeInteger lb ub x v e) := by
  refine ite (refl _) (bind (refl _) fun _ => ?_)
  cases lb with
  | none => exact encUnconstrained v
  | some l => cases ub with
    | none => exact encSemiConstrained l v
    | some u => exact encConstrained l u v

theorem encChoiceIdx (lb ub : Int) (x : Bool) (v : Int) (e : Bool) :
    SameUnlessPanic (encodeChoiceIdx lb ub x v e) (Release.encodeChoiceIdx lb ub x v e) :=
  ite (refl _) (bind (refl _) fun _ => encInteger _ _ _ _ _)

theorem encEnumerated (lb ub : Option Int) (x : Bool) (v : Int) (e : Bool) :
    SameUnlessPanic (encodeEnumerated lb ub x v e) (Release.encodeEnumerated lb ub x v e) :=
  ite (refl _) (bind (refl _) fun _ => encInteger _ _ _ _ _)

theorem encBitstring (lb ub : Option Int) (x : Bool) (v : List Bool) (e : Bool) :
    SameUnlessPanic (encodeBitstring lb ub x v e) (Release.encodeBitstring lb ub x v e) :=
  ite (refl _) (bind (refl _) fun _ => ite (refl _) (bind (encLength _ _ _ _) fun _ => refl _))

theorem encOctetstring (lb ub : Option Int) (x : Bool) (v : List UInt8) (e : Bool) :
    SameUnlessPanic (encodeOctetstring lb ub x v e) (Release.encodeOctetstring lb ub x v e) :=
  ite (refl _) (bind (refl _) fun _ => ite (refl _) (bind (encLength _ _ _ _) fun _ => refl _))

theorem encString (lb ub : Option Int) (x : Bool) (v : String) (e : Bool) :
    SameUnlessPanic (encodeString lb ub x v e) (Release.encodeString lb ub x v e) :=
  ite (refl _) (bind (refl _) fun _ => bind (encLength _ _ _ _) fun _ => refl _)

/-! ## Derived code -/

theorem ignoreErr {m m' : M Unit} (h : SameUnlessPanic m m') : SameUnlessPanic m.ignoreErr m'.ignoreErr := by
  intro s hs
  unfold M.ignoreErr at *
  have : m s ≠ .panic := fun e => by rw [e] at hs; exact hs rfl
  rw [h s this]

theorem all {enc enc' : α → M Unit} (h : ∀ a, SameUnlessPanic (enc a) (enc' a)) (l : List α) :
    SameUnlessPanic (encodeAll enc l) (encodeAll enc' l) := by
  induction l with
  | nil => exact refl _
  | cons a l ih => exact bind (h a) fun _ => ih

theorem times {dec dec' : M α} (h : SameUnlessPanic dec dec') (n : Nat) :
    SameUnlessPanic (decodeTimes dec n) (decodeTimes dec' n) := by
  induction n with
  | zero => exact refl _
  | succ n ih => exact bind h fun _ => bind ih fun _ => refl _

theorem thenPanic {m m' : M α} (h : SameUnlessPanic m m') :
    SameUnlessPanic (m >>= fun _ => (M.panic : M β)) (m' >>= fun _ => M.panic) :=
  bind h fun _ => panic _

theorem loop {dec dec' : M α} (h : SameUnlessPanic dec dec') (n : Nat) :
    SameUnlessPanic (decodeLoop dec n) (decodeLoop dec' n) :=
  ite (thenPanic (times h _)) (times h n)

theorem encOpen {m m' : M Unit} (h : SameUnlessPanic m m') : SameUnlessPanic (encodeOpen m) (Release.encodeOpen m') := by
  intro s hs
  unfold encodeOpen at hs
  unfold encodeOpen Release.encodeOpen
  have h1 : m Codec.new ≠ .panic := fun e => by rw [e] at hs; exact hs rfl
  rw [h _ h1]
  cases hm : m Codec.new with
  | err _ => rfl
  | panic => rfl
  | ok _ inner =>
    rw [hm] at hs
    dsimp only at *
    have h2 : lengthInBytes inner ≠ .panic := fun e => by rw [e] at hs; exact hs rfl
    rw [lengthBytes _ h2]
    cases hl : lengthInBytes inner with
    | err _ => rfl
    | panic => rfl
    | ok n inner' =>
      rw [hl] at hs
      exact bind (encLength _ _ _ _) (fun _ => refl _) s hs

theorem encCharstring (k : CharKind) (lb ub : Option Int) (x : Bool) (v : String) (e : Bool) :
    SameUnlessPanic (encodeCharstring k lb ub x v e) (Release.encodeCharstring k lb ub x v e) := by
  cases k <;> exact encString lb ub x v e

theorem charstring (k : CharKind) (lb ub : Option Int) (x : Bool) :
    SameUnlessPanic (decodeCharstring k lb ub x) (Release.decodeCharstring k lb ub x) := by
  cases k <;> exact string lb ub x

mutual

theorem encTy : (t : Ty) → (v : t.Val) → SameUnlessPanic (t.encode v) (Release.encodeTy t v)
  | .boolean, _ => refl _
  | .null, _ => refl _
  | .integer .., v => encInteger _ _ _ v _
  | .enumerated .., v => encEnumerated _ _ _ v _
  | .bitstring .., v => encBitstring _ _ _ v _
  | .octetstring .., v => encOctetstring _ _ _ v _
  | .charstring .., v => encCharstring _ _ _ _ v _
  | .objectIdentifier, _ => refl _
  | .sequence _ _ fs, v => bind (refl _) fun _ => encFields fs v
  | .sequenceOf _ _ _ e, v => bind (ignoreErr (encLength _ _ _ _)) fun _ => all (encTy e) v
  | .choice _ _ _ as, v => bind (encChoiceIdx _ _ _ _ _) fun _ => encAlts as v
  | .openType as, v => encOpen (encAlts as v)

theorem encFields : (fs : Fields) → (v : fs.Val) → SameUnlessPanic (fs.encode v) (Release.encodeFields fs v)
  | .nil, _ => refl _
  | .required _ t rest, (v, vs) => bind (encTy t v) fun _ => encFields rest vs
  | .optional _ t rest, (some v, vs) => bind (encTy t v) fun _ => encFields rest vs
  | .optional _ _ rest, (none, vs) => bind (refl _) fun _ => encFields rest vs

theorem encAlts : (as : Alts) → (v : as.Val) → SameUnlessPanic (as.encode v) (Release.encodeAlts as v)
  | .cons _ _ t _, .inl v => encTy t v
  | .cons _ _ _ rest, .inr v => encAlts rest v

end

mutual

theorem decTy : (t : Ty) → SameUnlessPanic t.decode (Release.decodeTy t)
  | .boolean => refl _
  | .null => refl _
  | .integer .. => bind (integer _ _ _) fun _ => refl _
  | .enumerated .. => bind (enumerated _ _ _) fun _ => refl _
  | .bitstring .. => bitstring _ _ _
  | .octetstring .. => octetstring _ _ _
  | .charstring .. => charstring _ _ _ _
  | .objectIdentifier => refl _
  | .sequence _ _ fs => bind (sequenceHeader _ _) fun _ => decFields fs _
  | .sequenceOf _ _ _ e => bind (length _ _ _) fun _ => loop (decTy e) _
  | .choice _ _ _ as => bind (choiceIdx _ _ _) fun _ => ite (decAlts as _) (refl _)
  | .openType as => bind (length _ _ _) fun _ => bind (refl _) fun _ => decAlts as _

theorem decFields : (fs : Fields) → (bm : List Bool) → SameUnlessPanic (fs.decode bm) (Release.decodeFields fs bm)
  | .nil, _ => refl _
  | .required _ t rest, _ =>
      bind (decTy t) fun _ => bind (refl _) fun _ => bind (decFields rest _) fun _ => refl _
  | .optional _ t rest, _ =>
      bind (refl _) fun _ => bind (ite (bind (decTy t) fun _ => refl _) (refl _)) fun _ =>
        bind (decFields rest _) fun _ => refl _

theorem decAlts : (as : Alts) → (key : Int) → SameUnlessPanic (as.decode key) (Release.decodeAlts as key)
  | .nil, _ => refl _
  | .cons _ _ t rest, key =>
      ite (bind (decTy t) fun _ => refl _) (bind (decAlts rest key) fun _ => refl _)

end

end Hampi.Same
