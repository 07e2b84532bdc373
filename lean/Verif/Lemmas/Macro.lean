import Verif.Spec.Rust
import Verif.Spec.Schema
import Verif.Lemmas.Resolve
import Verif.Lemmas.Constraints
/-!
# The derive macro on generated items
-/
namespace Hampi.Compiler
open Hampi.Derive _root_.Hampi.Compiler.Spec
open Hampi.Spec (Digits decimal Numeral)

/-! ## Numbers -/

theorem ofDigitChars_decimal (ds : Text) : ∀ n, Nat.ofDigitChars 10 ds n = n * 10 ^ ds.length + decimal ds := by
  induction ds with
  | nil => intro n; simp [Nat.ofDigitChars, decimal]
  | cons d ds ih =>
    intro n
    rw [Nat.ofDigitChars, List.foldl_cons]
    have := ih (10 * n + (d.toNat - '0'.toNat))
    rw [Nat.ofDigitChars] at this
    rw [this]
    have h48 : '0'.toNat = 48 := rfl
    rw [h48, decimal, List.length_cons, Nat.pow_succ, Nat.add_mul, Nat.mul_comm 10 n, Nat.mul_assoc, Nat.mul_comm 10]
    omega

theorem digits_toString (n : Nat) : Digits (toString n).toList ∧ decimal (toString n).toList = n := by
  have e : (toString n).toList = Nat.toDigits 10 n := by
    rw [Nat.toString_eq_repr, Nat.repr, String.toList_ofList]
  rw [e]
  refine ⟨⟨?_, fun c hc => Nat.isDigit_of_mem_toDigits (by decide) (by decide) hc⟩, ?_⟩
  · exact Nat.toDigits_ne_nil
  · have := ofDigitChars_decimal (Nat.toDigits 10 n) 0
    rw [Nat.ofDigitChars_toDigits (by decide) (by decide)] at this
    omega

theorem numeral_showInt (v : Int) : Numeral (showInt v) v := by
  cases v with
  | ofNat n =>
    refine .inl ⟨?_, ?_⟩
    · exact (digits_toString n).1
    · exact congrArg Int.ofNat (digits_toString n).2.symm
  | negSucc n =>
    refine .inr ⟨(toString (n + 1)).toList, (digits_toString (n + 1)).1, .inl ⟨?_, ?_⟩⟩
    · show (toString (Int.negSucc n)).toList = _
      simp [toString, Int.repr]
    · rw [(digits_toString (n + 1)).2]; omega

theorem boundOf_show (b : Option Int) :
    (Bound128 b → boundOf (b.map showInt) = .ok b) ∧ ∀ r, boundOf (b.map showInt) = .ok r → r = b := by
  cases b with
  | none => exact ⟨fun _ => rfl, fun r h => by cases h; rfl⟩
  | some v =>
    refine ⟨fun h => ?_, fun r h => ?_⟩
    · simp only [Option.map_some, boundOf, parseI128_complete (numeral_showInt v) h]
    · simp only [Option.map_some, boundOf] at h
      split at h
      · rename_i w hw
        cases h
        rw [(parseI128_sound hw).1.unique (numeral_showInt v)]
      · cases h

theorem choiceBound_show (v : Int) :
    (fits128 v → choiceBound (some (showInt v)) = .ok v) ∧ ∀ r, choiceBound (some (showInt v)) = .ok r → r = v := by
  refine ⟨fun h => ?_, fun r h => ?_⟩
  · simp only [choiceBound, parseI128_complete (numeral_showInt v) h]
  · simp only [choiceBound] at h
    split at h
    · rename_i w hw
      cases h
      rw [(parseI128_sound hw).1.unique (numeral_showInt v)]
    · cases h

theorem bounds_show (lb ub : Option Int) (e : Option Bool) :
    (Bound128 lb → Bound128 ub → bounds (lb.map showInt) (ub.map showInt) e = .ok (lb, ub, e.getD false)) ∧
      ∀ r, bounds (lb.map showInt) (ub.map showInt) e = .ok r → r = (lb, ub, e.getD false) := by
  refine ⟨fun h1 h2 => ?_, fun r h => ?_⟩
  · rw [bounds, (boundOf_show lb).1 h1, (boundOf_show ub).1 h2]; rfl
  · rw [bounds] at h
    obtain ⟨l, hl, h⟩ := Out.bind_ok.mp h
    obtain ⟨u, hu, h⟩ := Out.bind_ok.mp h
    cases h
    rw [(boundOf_show lb).2 l hl, (boundOf_show ub).2 u hu]

/-! ## Attributes -/

theorem tyParams_asn (l : List Nested) : tyParams (asnAttr l) =
    (let r := addAll TyParams.add l ({ attr := true }, false)
     if r.2 then .err () else .ok r.1) := rfl

theorem fieldParams_asn (l : List Nested) : fieldParams (asnAttr l) =
    (let r := addAll FieldParams.add l ({}, false)
     if r.2 then .err () else .ok r.1) := rfl

theorem addAll_append {P : Type} (add : P → Nested → Option P) (l r : List Nested) :
    ∀ s, addAll add (l ++ r) s = addAll add r (addAll add l s) := by
  induction l with
  | nil => intro s; rfl
  | cons x l ih =>
    rintro ⟨p, bad⟩
    simp only [List.cons_append, addAll]
    split <;> exact ih _

theorem addAll_type (ty : Text) (l : List Nested) (p : TyParams) (b : Bool) :
    addAll TyParams.add (typeAttr ty :: l) (p, b) = addAll TyParams.add l ({ p with ty := some ty }, b) := by
  simp [addAll, typeAttr, TyParams.add]

theorem addAll_lb (v : Option Int) (p : TyParams) (b : Bool) (h : p.lb = none) :
    addAll TyParams.add (boundAttr "lb".toList v) (p, b) = ({ p with lb := v.map showInt }, b) := by
  cases v with
  | none => cases p; cases h; rfl
  | some v => simp [boundAttr, addAll, TyParams.add]

theorem addAll_ub (v : Option Int) (p : TyParams) (b : Bool) (h : p.ub = none) :
    addAll TyParams.add (boundAttr "ub".toList v) (p, b) = ({ p with ub := v.map showInt }, b) := by
  cases v with
  | none => cases p; cases h; rfl
  | some v => simp [boundAttr, addAll, TyParams.add]

theorem addAll_szLb (v : Option Int) (p : TyParams) (b : Bool) (h : p.szLb = none) :
    addAll TyParams.add (boundAttr "sz_lb".toList v) (p, b) = ({ p with szLb := v.map showInt }, b) := by
  cases v with
  | none => cases p; cases h; rfl
  | some v => simp [boundAttr, addAll, TyParams.add]

theorem addAll_szUb (v : Option Int) (p : TyParams) (b : Bool) (h : p.szUb = none) :
    addAll TyParams.add (boundAttr "sz_ub".toList v) (p, b) = ({ p with szUb := v.map showInt }, b) := by
  cases v with
  | none => cases p; cases h; rfl
  | some v => simp [boundAttr, addAll, TyParams.add]

theorem addAll_ext (e : Bool) (p : TyParams) (b : Bool) (h : p.ext = none) :
    ∃ o, o.getD false = e ∧ addAll TyParams.add (extensibleAttr e) (p, b) = ({ p with ext := o }, b) := by
  cases e with
  | false => exact ⟨none, rfl, by cases p; cases h; rfl⟩
  | true => exact ⟨some true, rfl, by simp [extensibleAttr, addAll, TyParams.add]⟩

/-- What is read from the attributes of a size. -/
theorem addAll_size {lb ub : Option Int} {ext : Bool} {l : List Nested} (h : SizeAttrs lb ub ext l) (ty : Text) :
    ∃ o, o.getD false = ext ∧ tyParams (asnAttr (typeAttr ty :: l)) =
      .ok { ty := some ty, attr := true, szLb := lb.map showInt, szUb := ub.map showInt, szExt := o } := by
  rw [tyParams_asn, addAll_type]
  cases h with
  | none => exact ⟨none, rfl, rfl⟩
  | size =>
    refine ⟨some ext, rfl, ?_⟩
    have e : ∀ l p b, addAll TyParams.add (.nameValue "sz_extensible".toList (.bool ext) :: l) (p, b) =
        addAll TyParams.add l ({ p with szExt := some ext }, b) := by
      intro l p b; simp [addAll, TyParams.add]
    rw [e, addAll_append, addAll_szLb _ _ _ rfl, addAll_szUb _ _ _ rfl]
    rfl

/-- What is read from the attributes of an integer. -/
theorem addAll_integer (lb ub : Option Int) (ext : Bool) (ty : Text) :
    ∃ o, o.getD false = ext ∧ tyParams (asnAttr (typeAttr ty :: (boundAttr "lb".toList lb ++
      (boundAttr "ub".toList ub ++ extensibleAttr ext)))) =
      .ok { ty := some ty, attr := true, lb := lb.map showInt, ub := ub.map showInt, ext := o } := by
  rw [tyParams_asn, addAll_type, addAll_append, addAll_lb _ _ _ rfl, addAll_append, addAll_ub _ _ _ rfl]
  obtain ⟨o, h1, h2⟩ := addAll_ext ext
    { ty := some ty, attr := true, lb := lb.map showInt, ub := ub.map showInt } false rfl
  exact ⟨o, h1, by rw [h2]; rfl⟩

/-- What is read from the attributes of an enumeration. -/
theorem addAll_enumerated (lb ub : Option Int) (ext : Bool) (ty : Text) :
    ∃ o, o.getD false = ext ∧ tyParams (asnAttr (typeAttr ty :: (extensibleAttr ext ++
      (boundAttr "lb".toList lb ++ boundAttr "ub".toList ub)))) =
      .ok { ty := some ty, attr := true, lb := lb.map showInt, ub := ub.map showInt, ext := o } := by
  rw [tyParams_asn, addAll_type, addAll_append]
  obtain ⟨o, h1, h2⟩ := addAll_ext ext { ty := some ty, attr := true } false rfl
  rw [h2, addAll_append, addAll_lb _ _ _ rfl, addAll_ub _ _ _ rfl]
  exact ⟨o, h1, rfl⟩

theorem derive_of {i : Input} {p : TyParams} {ty : Text} (h : tyParams i.attrs = .ok p) (ha : p.attr = true)
    (ht : p.ty = some ty) : derive i = generateCodec i ty p := by
  unfold derive
  rw [h]
  show (if p.attr = true then _ else _) = _
  rw [if_pos ha, ht]

/-! ## Which types the macro takes for what -/

/-- The ASN.1 type of an implementation. -/
def implName : Impl → Text
  | .boolean => "BOOLEAN".toList
  | .null => "NULL".toList
  | .objectIdentifier => "OBJECT-IDENTIFIER".toList
  | .integer .. => "INTEGER".toList
  | .enumerated .. => "ENUMERATED".toList
  | .bitstring .. => "BITSTRING".toList
  | .octetstring .. => "OCTET-STRING".toList
  | .charstring k .. => kindName k
  | .sequence .. => "SEQUENCE".toList
  | .sequenceOf .. => "SEQUENCE-OF".toList
  | .choice .. => "CHOICE".toList
  | .openType .. => "OPEN".toList

theorem generateCodec_name {i : Input} {ty : Text} {p : TyParams} {impl : Impl}
    (h : generateCodec i ty p = .ok impl) : ty = implName impl := by
  unfold generateCodec at h
  by_cases e : ty = "BOOLEAN".toList
  · rw [if_pos e] at h
    cases h; exact e
  rw [if_neg e] at h; clear e
  by_cases e : ty = "CHOICE".toList
  · rw [if_pos e] at h
    obtain ⟨_, _, h⟩ := Out.bind_ok.mp h
    obtain ⟨_, _, h⟩ := Out.bind_ok.mp h
    obtain ⟨_, _, h⟩ := Out.bind_ok.mp h
    cases h; exact e
  rw [if_neg e] at h; clear e
  by_cases e : ty = "INTEGER".toList
  · rw [if_pos e] at h
    obtain ⟨_, _, h⟩ := Out.bind_ok.mp h
    obtain ⟨_, _, h⟩ := Out.bind_ok.mp h
    cases h; exact e
  rw [if_neg e] at h; clear e
  by_cases e : ty = "ENUMERATED".toList
  · rw [if_pos e] at h
    obtain ⟨_, _, h⟩ := Out.bind_ok.mp h
    obtain ⟨_, _, h⟩ := Out.bind_ok.mp h
    cases h; exact e
  rw [if_neg e] at h; clear e
  by_cases e : ty = "BITSTRING".toList
  · rw [if_pos e] at h
    obtain ⟨_, _, h⟩ := Out.bind_ok.mp h
    obtain ⟨_, _, h⟩ := Out.bind_ok.mp h
    cases h; exact e
  rw [if_neg e] at h; clear e
  by_cases e : ty = "OCTET-STRING".toList
  · rw [if_pos e] at h
    obtain ⟨_, _, h⟩ := Out.bind_ok.mp h
    obtain ⟨_, _, h⟩ := Out.bind_ok.mp h
    cases h; exact e
  rw [if_neg e] at h; clear e
  by_cases e : ty = "UTF8String".toList
  · rw [if_pos e] at h
    obtain ⟨_, _, h⟩ := Out.bind_ok.mp h
    obtain ⟨_, _, h⟩ := Out.bind_ok.mp h
    cases h; exact e
  rw [if_neg e] at h; clear e
  by_cases e : ty = "PrintableString".toList
  · rw [if_pos e] at h
    obtain ⟨_, _, h⟩ := Out.bind_ok.mp h
    obtain ⟨_, _, h⟩ := Out.bind_ok.mp h
    cases h; exact e
  rw [if_neg e] at h; clear e
  by_cases e : ty = "VisibleString".toList
  · rw [if_pos e] at h
    obtain ⟨_, _, h⟩ := Out.bind_ok.mp h
    obtain ⟨_, _, h⟩ := Out.bind_ok.mp h
    cases h; exact e
  rw [if_neg e] at h; clear e
  by_cases e : ty = "NULL".toList
  · rw [if_pos e] at h
    cases h; exact e
  rw [if_neg e] at h; clear e
  by_cases e : ty = "SEQUENCE".toList
  · rw [if_pos e] at h
    obtain ⟨_, _, h⟩ := Out.bind_ok.mp h
    cases h; exact e
  rw [if_neg e] at h; clear e
  by_cases e : ty = "OPEN".toList
  · rw [if_pos e] at h
    obtain ⟨_, _, h⟩ := Out.bind_ok.mp h
    cases h; exact e
  rw [if_neg e] at h; clear e
  by_cases e : ty = "SEQUENCE-OF".toList
  · rw [if_pos e] at h
    obtain ⟨_, _, h⟩ := Out.bind_ok.mp h
    obtain ⟨_, _, h⟩ := Out.bind_ok.mp h
    cases h; exact e
  rw [if_neg e] at h; clear e
  by_cases e : ty = "OBJECT-IDENTIFIER".toList
  · rw [if_pos e] at h
    cases h; exact e
  rw [if_neg e] at h; clear e
  cases h

theorem derive_name {i : Input} {impl : Impl} (h : derive i = .ok impl) :
    ∃ p, tyParams i.attrs = .ok p ∧ p.attr = true ∧ p.ty = some (implName impl) ∧
      generateCodec i (implName impl) p = .ok impl := by
  unfold derive at h
  obtain ⟨p, hp, h⟩ := Out.bind_ok.mp h
  split at h
  · rename_i ha
    split at h
    · cases h
    · rename_i ty ht
      have := generateCodec_name h
      subst this
      exact ⟨p, hp, ha, ht, h⟩
  · cases h

theorem addAll_struct (ext : Bool) (n : Option Nat) (ty : Text) :
    tyParams (asnAttr (typeAttr ty :: .nameValue "extensible".toList (.bool ext) :: optionalFieldsAttr n)) =
      .ok { ty := some ty, attr := true, ext := some ext, optionalFields := n } := by
  rw [tyParams_asn, addAll_type]
  cases n <;> simp [addAll, TyParams.add, optionalFieldsAttr]

theorem addAll_choice (lb ub : Text) (ext : Bool) (ty : Text) :
    tyParams (asnAttr [typeAttr ty, .nameValue "lb".toList (.str lb), .nameValue "ub".toList (.str ub),
      .nameValue "extensible".toList (.bool ext)]) =
      .ok { ty := some ty, attr := true, lb := some lb, ub := some ub, ext := some ext } := by
  rw [tyParams_asn, addAll_type]
  simp [addAll, TyParams.add]

theorem addAll_single (ty : Text) : tyParams (asnAttr [typeAttr ty]) = .ok { ty := some ty, attr := true } := by
  rw [tyParams_asn, addAll_type]
  rfl

/-! ## What the macro makes of an item -/

theorem derive_size {lb ub : Option Int} {ext : Bool} {l : List Nested} (h : SizeAttrs lb ub ext l)
    (x ty : Text) (d : Data) : ∃ p : TyParams, p.szLb = lb.map showInt ∧ p.szUb = ub.map showInt ∧
      p.szExt.getD false = ext ∧ derive ⟨asnAttr (typeAttr ty :: l), x, d⟩ =
        generateCodec ⟨asnAttr (typeAttr ty :: l), x, d⟩ ty p := by
  obtain ⟨o, h1, h2⟩ := addAll_size h ty
  exact ⟨_, rfl, rfl, h1, derive_of h2 rfl rfl⟩

theorem derive_integer (w : Width) (lb ub : Option Int) (ext : Bool) (x : Text) :
    ∃ p : TyParams, p.lb = lb.map showInt ∧ p.ub = ub.map showInt ∧ p.ext.getD false = ext ∧
      derive ⟨asnAttr (typeAttr "INTEGER".toList :: (boundAttr "lb".toList lb ++
        (boundAttr "ub".toList ub ++ extensibleAttr ext))), x, .tuple [.name (widthName w)]⟩ =
      (bounds p.lb p.ub p.ext).bind fun b => .ok (.integer (.name (widthName w)) b.1 b.2.1 b.2.2) := by
  obtain ⟨o, h1, h2⟩ := addAll_integer lb ub ext "INTEGER".toList
  refine ⟨{ lb := lb.map showInt, ub := ub.map showInt, ext := o }, rfl, rfl, h1, (derive_of h2 rfl rfl).trans ?_⟩
  rw [generateCodec]
  repeat rw [if_neg (by decide)]
  rfl

theorem derive_enumerated (w : Width) (lb ub : Option Int) (ext : Bool) (x : Text) :
    ∃ p : TyParams, p.lb = lb.map showInt ∧ p.ub = ub.map showInt ∧ p.ext.getD false = ext ∧
      derive ⟨asnAttr (typeAttr "ENUMERATED".toList :: (extensibleAttr ext ++
        (boundAttr "lb".toList lb ++ boundAttr "ub".toList ub))), x, .tuple [.name (widthName w)]⟩ =
      (bounds p.lb p.ub p.ext).bind fun b => .ok (.enumerated (.name (widthName w)) b.1 b.2.1 b.2.2) := by
  obtain ⟨o, h1, h2⟩ := addAll_enumerated lb ub ext "ENUMERATED".toList
  refine ⟨{ lb := lb.map showInt, ub := ub.map showInt, ext := o }, rfl, rfl, h1, (derive_of h2 rfl rfl).trans ?_⟩
  rw [generateCodec]
  repeat rw [if_neg (by decide)]
  rfl

theorem generateCodec_bits (i : Input) (p : TyParams) (t : RustTy) (h : i.data = .tuple [t]) :
    generateCodec i "BITSTRING".toList p =
      (bounds p.szLb p.szUb p.szExt).bind fun b => .ok (.bitstring b.1 b.2.1 b.2.2) := by
  unfold generateCodec
  rw [h]
  repeat rw [if_neg (by decide)]
  rfl

theorem generateCodec_octets (i : Input) (p : TyParams) (t : RustTy) (h : i.data = .tuple [t]) :
    generateCodec i "OCTET-STRING".toList p =
      (bounds p.szLb p.szUb p.szExt).bind fun b => .ok (.octetstring b.1 b.2.1 b.2.2) := by
  unfold generateCodec
  rw [h]
  repeat rw [if_neg (by decide)]
  rfl

theorem generateCodec_chars (i : Input) (p : TyParams) (k : CharKind) (t : RustTy) (h : i.data = .tuple [t]) :
    generateCodec i (kindName k) p =
      (bounds p.szLb p.szUb p.szExt).bind fun b => .ok (.charstring k b.1 b.2.1 b.2.2) := by
  cases k <;> unfold generateCodec <;> unfold kindName <;> dsimp only <;> rw [h] <;>
    (repeat rw [if_neg (by decide)]) <;> rfl

theorem generateCodec_vec (i : Input) (p : TyParams) (v y : Text) (h : i.data = .tuple [.app v y]) :
    generateCodec i "SEQUENCE-OF".toList p =
      (bounds p.szLb p.szUb p.szExt).bind fun b => .ok (.sequenceOf b.1 b.2.1 b.2.2 (some y)) := by
  unfold generateCodec
  rw [h]
  repeat rw [if_neg (by decide)]
  rfl

theorem derive_struct (x : Text) (ext : Bool) (n : Option Nat) (l : List FieldSyn) :
    derive ⟨asnAttr (typeAttr "SEQUENCE".toList :: .nameValue "extensible".toList (.bool ext) ::
        optionalFieldsAttr n), x, .named l⟩ =
      (allOk fieldImpl l).bind fun fs => .ok (.sequence (some ext) (n.getD 0) fs) := by
  rw [derive_of (addAll_struct ext n _) rfl rfl]
  simp [generateCodec, seqFields]

theorem derive_choice (x : Text) (lb ub : Int) (ext : Bool) (l : List VariantSyn) :
    derive ⟨asnAttr [typeAttr "CHOICE".toList, .nameValue "lb".toList (.str (showInt lb)),
        .nameValue "ub".toList (.str (showInt ub)), .nameValue "extensible".toList (.bool ext)], x, .enum l⟩ =
      (choiceBound (some (showInt lb))).bind fun lb => (choiceBound (some (showInt ub))).bind fun ub =>
        (variants (.enum l)).bind fun vs => .ok (.choice lb ub (some ext) vs) := by
  rw [derive_of (addAll_choice _ _ ext _) rfl rfl]
  simp [generateCodec]

theorem derive_open (x : Text) (l : List VariantSyn) :
    derive ⟨asnAttr [typeAttr "OPEN".toList], x, .enum l⟩ =
      (variants (.enum l)).bind fun vs => .ok (.openType vs) := by
  rw [derive_of (addAll_single _) rfl rfl]
  simp [generateCodec]

theorem bounds_fit {p q : Option Text} {e : Option Bool} {lb ub : Option Int} {ext : Bool}
    (h1 : p = lb.map showInt) (h2 : q = ub.map showInt) (h3 : e.getD false = ext) (f1 : Bound128 lb)
    (f2 : Bound128 ub) : bounds p q e = .ok (lb, ub, ext) := by
  subst h1 h2 h3
  exact (bounds_show lb ub e).1 f1 f2

theorem bounds_only {p q : Option Text} {e : Option Bool} {lb ub : Option Int} {ext : Bool}
    (h1 : p = lb.map showInt) (h2 : q = ub.map showInt) (h3 : e.getD false = ext)
    {r : Option Int × Option Int × Bool} (h : bounds p q e = .ok r) : r = (lb, ub, ext) := by
  subst h1 h2 h3
  exact (bounds_show lb ub e).2 r h

/-! ## Fields and variants -/

theorem fieldImpl_required (x y : Text) (key : Bool) (h : y ≠ "Option".toList) :
    fieldImpl (fieldSyn ⟨x, y, none, key⟩) = .ok (.required x y key) := by
  have ht : fieldType (.name y) = (some y, false) := if_neg fun e => h e.2.2
  have hp : fieldParams (fieldSyn ⟨x, y, none, key⟩).attrs = .ok { keyField := if key then some true else none } := by
    cases key <;> rfl
  rw [fieldImpl, hp, show (fieldSyn ⟨x, y, none, key⟩).ty = .name y from rfl, ht]
  cases key <;> rfl

theorem fieldImpl_option (x : Text) (key : Bool) :
    fieldImpl (fieldSyn ⟨x, "Option".toList, none, key⟩) = .err () := by
  cases key <;>
    simp [fieldImpl, fieldSyn, fieldParams, asnAttr, readAttrs, addAll, FieldParams.add, Out.bind, fieldType,
      RustTy.name]

theorem fieldImpl_optional (x y : Text) (i : Nat) :
    fieldImpl (fieldSyn ⟨x, y, some i, false⟩) = .ok (.optional x y i) := by
  simp [fieldImpl, fieldSyn, fieldParams, asnAttr, readAttrs, addAll, FieldParams.add, Out.bind, fieldType,
    RustTy.name, RustTy.app]

theorem fieldImpl_optionalKey (x y : Text) (i : Nat) : fieldImpl (fieldSyn ⟨x, y, some i, true⟩) = .err () := by
  simp [fieldImpl, fieldSyn, fieldParams, readAttrs, Out.bind]

theorem variantImpl_choice (v : VariantItem) :
    variantImpl (variantSyn v) = .ok (some ⟨v.ident, .name v.ty, v.key, some v.extended⟩) := by
  simp [variantImpl, variantSyn, fieldParams, asnAttr, readAttrs, addAll, FieldParams.add, Out.bind]

theorem variantImpl_open (k : Nat) (x y : Text) :
    variantImpl ⟨asnAttr [.nameValue "key".toList (.int k)], x, .tuple [.name y]⟩ =
      .ok (some ⟨x, .name y, k, none⟩) := by
  simp [variantImpl, fieldParams, asnAttr, readAttrs, addAll, FieldParams.add, Out.bind]

theorem allOk_cons {α β : Type} {f : α → Out Unit β} {x : α} {xs : List α} {r : List β} :
    allOk f (x :: xs) = .ok r ↔ ∃ y ys, f x = .ok y ∧ allOk f xs = .ok ys ∧ r = y :: ys := by
  simp only [allOk, Out.bind_ok]
  constructor
  · rintro ⟨y, h1, ys, h2, h3⟩; cases h3; exact ⟨y, ys, h1, h2, rfl⟩
  · rintro ⟨y, ys, h1, h2, rfl⟩; exact ⟨y, h1, ys, h2, rfl⟩

theorem variants_choice (vs : List VariantItem) : variants (.enum (vs.map variantSyn)) =
    .ok (vs.map fun v => ⟨v.ident, .name v.ty, v.key, some v.extended⟩) := by
  have : allOk variantImpl (vs.map variantSyn) =
      .ok (vs.map fun v => some ⟨v.ident, .name v.ty, v.key, some v.extended⟩) := by
    induction vs with
    | nil => rfl
    | cons v vs ih => exact allOk_cons.mpr ⟨_, _, variantImpl_choice v, ih, rfl⟩
  simp [variants, this, Out.bind]

/-! ## From items to codecs -/

theorem Spec.Codes.named {file : List RustItem} {x : Text} {t : Ty} (h : Codes file x t) : ∃ r ∈ file, r.ident = x := by
  cases h <;> exact ⟨_, by assumption, rfl⟩

theorem intType_name (w : Width) : intType w = .name (widthName w) := by cases w <;> rfl

theorem codes_newtype {file : List RustItem} {x : Text} {t : Ty} {l : List Nested} {d : Data}
    (h : RendersType t l d) (hm : .derived ⟨asnAttr l, x, d⟩ ∈ file) (hb : Bounds128 t) : Codes file x t := by
  cases h with
  | boolean => exact .boolean hm rfl (by rw [derive_of (addAll_single _) rfl rfl]; rfl)
  | null => exact .null hm rfl (by rw [derive_of (addAll_single _) rfl rfl]; rfl)
  | objectIdentifier => exact .objectIdentifier hm rfl (by rw [derive_of (addAll_single _) rfl rfl]; rfl)
  | @integer w lb ub ext =>
    obtain ⟨p, h1, h2, h3, e⟩ := derive_integer w lb ub ext x
    exact .integer hm (by rw [intType_name]) (by rw [e, bounds_fit h1 h2 h3 hb.1 hb.2, intType_name]; rfl)
  | @enumerated w lb ub ext =>
    obtain ⟨p, h1, h2, h3, e⟩ := derive_enumerated w lb ub ext x
    exact .enumerated hm (by rw [intType_name]) (by rw [e, bounds_fit h1 h2 h3 hb.1 hb.2, intType_name]; rfl)
  | bitstring h =>
    obtain ⟨p, h1, h2, h3, e⟩ := derive_size h x "BITSTRING".toList (.tuple [bitVecTy])
    exact .bitstring hm rfl (by rw [e, generateCodec_bits _ _ _ rfl, bounds_fit h1 h2 h3 hb.1 hb.2]; rfl)
  | octetstring h =>
    obtain ⟨p, h1, h2, h3, e⟩ := derive_size h x "OCTET-STRING".toList (.tuple [.app "Vec".toList "u8".toList])
    exact .octetstring hm rfl (by rw [e, generateCodec_octets _ _ _ rfl, bounds_fit h1 h2 h3 hb.1 hb.2]; rfl)
  | @charstring k lb ub ext l h =>
    obtain ⟨p, h1, h2, h3, e⟩ := derive_size h x (kindName k) (.tuple [.name "String".toList])
    exact .charstring hm rfl (by rw [e, generateCodec_chars _ _ _ _ rfl, bounds_fit h1 h2 h3 hb.1 hb.2]; rfl)

mutual

theorem stands_codes {items : List Item} {file : List RustItem} (hr : All2 Renders items file)
    (ho : ∀ r ∈ file, r.ident ≠ "Option".toList) {x : Text} {t : Ty} (h : Stands items x t) (hb : Bounds128 t) :
    Codes file x t := by
  match h with
  | .newtype hm =>
    obtain ⟨r, hr', hh⟩ := hr.mem_left _ hm
    cases hh with
    | newtype hh => exact codes_newtype hh hr' hb
  | .alias hm hy =>
    obtain ⟨r, hr', hh⟩ := hr.mem_left _ hm
    cases hh
    exact .alias hr' (stands_codes hr ho hy hb)
  | .struct (ext := ext) (n := n) (fs := fs) hm hf =>
    obtain ⟨r, hr', hh⟩ := hr.mem_left _ hm
    cases hh
    obtain ⟨l, h1, h2⟩ := standsFields_codes hr ho hf hb
    exact .sequence (i := ⟨_, x, _⟩) hr' rfl (by rw [derive_struct, h1]; rfl) h2
  | .vec (y := y) hm hy =>
    obtain ⟨r, hr', hh⟩ := hr.mem_left _ hm
    cases hh with
    | vec hs =>
      obtain ⟨p, h1, h2, h3, e⟩ := derive_size hs x "SEQUENCE-OF".toList (.tuple [.app "Vec".toList y])
      exact .sequenceOf (i := ⟨_, x, _⟩) hr' rfl
        (by rw [e, generateCodec_vec _ _ _ _ rfl, bounds_fit h1 h2 h3 hb.1 hb.2.1]; rfl)
        (stands_codes hr ho hy hb.2.2)
  | .choice (lb := lb) (ub := ub) hm hv =>
    obtain ⟨r, hr', hh⟩ := hr.mem_left _ hm
    cases hh
    exact .choice (i := ⟨_, x, _⟩) hr' rfl
      (by rw [derive_choice, (choiceBound_show lb).1 hb.1, (choiceBound_show ub).1 hb.2.1, variants_choice]; rfl)
      (standsAlts_codes hr ho hv hb.2.2)
  | .openEnum hm hv =>
    obtain ⟨r, hr', hh⟩ := hr.mem_left _ hm
    cases hh with
    | openEnum hl =>
      obtain ⟨w, h1, h2⟩ := standsOpen_codes hr ho hv hb hl
      exact .openType (i := ⟨_, x, _⟩) hr' rfl
        (by rw [derive_open, variants, h1]; simp [Out.bind]) h2
termination_by structural h

theorem standsFields_codes {items : List Item} {file : List RustItem} (hr : All2 Renders items file)
    (ho : ∀ r ∈ file, r.ident ≠ "Option".toList) {fs : List FieldItem} {ts : Fields} (h : StandsFields items fs ts)
    (hb : FieldBounds128 ts) :
    ∃ l, allOk fieldImpl (fs.map fieldSyn) = .ok l ∧ CodesFields file (fs.map fieldSyn) l ts := by
  match h with
  | .nil => exact ⟨[], rfl, .nil⟩
  | .required (id := id) (y := y) (key := key) hy hf =>
    obtain ⟨l, h1, h2⟩ := standsFields_codes hr ho hf hb.2
    have hc := stands_codes hr ho hy hb.1
    obtain ⟨r, hm, hi⟩ := hc.named
    exact ⟨_, allOk_cons.mpr ⟨_, _, fieldImpl_required id y key (hi ▸ ho r hm), h1, rfl⟩, .required hc h2⟩
  | .optional (id := id) (y := y) (i := i) hy hf =>
    obtain ⟨l, h1, h2⟩ := standsFields_codes hr ho hf hb.2
    exact ⟨_, allOk_cons.mpr ⟨_, _, fieldImpl_optional id y i, h1, rfl⟩, .optional (stands_codes hr ho hy hb.1) h2⟩
termination_by structural h

theorem standsAlts_codes {items : List Item} {file : List RustItem} (hr : All2 Renders items file)
    (ho : ∀ r ∈ file, r.ident ≠ "Option".toList) {vs : List VariantItem} {as : Alts} (h : StandsAlts items vs as)
    (hb : AltBounds128 as) :
    CodesAlts file (vs.map variantSyn) (vs.map fun v => ⟨v.ident, .name v.ty, v.key, some v.extended⟩) as := by
  match h with
  | .nil => exact .nil
  | .cons hy hv => exact .cons (stands_codes hr ho hy hb.1) (standsAlts_codes hr ho hv hb.2)
termination_by structural h

theorem standsOpen_codes {items : List Item} {file : List RustItem} (hr : All2 Renders items file)
    (ho : ∀ r ∈ file, r.ident ≠ "Option".toList) {vs : List OpenItem} {as : Alts} (h : StandsOpen items vs as)
    (hb : AltBounds128 as) {l : List VariantSyn} (hl : RendersOpen vs l) :
    ∃ w, allOk variantImpl l = .ok (w.map some) ∧ CodesOpen file l w as := by
  match h with
  | .nil =>
    cases hl
    exact ⟨[], rfl, .nil⟩
  | .cons (id := id) (y := y) (k := k) hy hv =>
    generalize he : (toString k).toList = key at hl
    cases hl with
    | @cons _ _ _ l j hl =>
      obtain ⟨w, h1, h2⟩ := standsOpen_codes hr ho hv hb.2 hl
      have : k = j := by
        have := (digits_toString k).2
        rw [he, (digits_toString j).2] at this
        exact this.symm
      subst this
      exact ⟨⟨id, .name y, k, none⟩ :: w, allOk_cons.mpr ⟨_, _, variantImpl_open k id y, h1, rfl⟩,
        .cons (stands_codes hr ho hy hb.1) h2⟩
termination_by structural h

end

/-! ## From codecs to items -/

/-- The item from which an implementation can come. -/
def ItemOf : Impl → Item → Input → Prop
  | .boolean, item, i => ∃ cs, item = .newtype i.ident (some .boolean) cs
  | .null, item, i => ∃ cs, item = .newtype i.ident (some .null) cs
  | .objectIdentifier, item, i => ∃ cs, item = .newtype i.ident (some .objectIdentifier) cs
  | .integer inner lb ub ext, item, i =>
      ∃ w cs, inner = .name (widthName w) ∧ item = .newtype i.ident (some (.integer w lb ub ext)) cs
  | .enumerated inner lb ub ext, item, i =>
      ∃ w cs, inner = .name (widthName w) ∧ item = .newtype i.ident (some (.enumerated w lb ub ext)) cs
  | .bitstring lb ub ext, item, i => ∃ cs, item = .newtype i.ident (some (.bitstring lb ub ext)) cs
  | .octetstring lb ub ext, item, i => ∃ cs, item = .newtype i.ident (some (.octetstring lb ub ext)) cs
  | .charstring k lb ub ext, item, i => ∃ cs, item = .newtype i.ident (some (.charstring k lb ub ext)) cs
  | .sequence e n fs, item, i => ∃ ext m l, item = .struct i.ident ext m l ∧ e = some ext ∧ n = m.getD 0 ∧
      i.data = .named (l.map fieldSyn) ∧ allOk fieldImpl (l.map fieldSyn) = .ok fs
  | .sequenceOf lb ub ext el, item, i => ∃ y, item = .vec i.ident lb ub ext y ∧ el = some y
  | .choice lb ub e vs, item, i => ∃ ext l, item = .choice i.ident lb ub ext l ∧ e = some ext ∧
      i.data = .enum (l.map variantSyn) ∧ vs = l.map fun v => ⟨v.ident, .name v.ty, v.key, some v.extended⟩
  | .openType vs, item, i => ∃ l s, item = .openEnum i.ident true l ∧ RendersOpen l s ∧ i.data = .enum s ∧
      variants (.enum s) = .ok vs

theorem item_of {item : Item} {i : Input} {impl : Impl} (h : Renders item (.derived i)) (hd : derive i = .ok impl) :
    ItemOf impl item i ∨ (i.data = .tuple [.name "String".toList] ∧ charKindOf (implName impl) = none) := by
  cases h with
  | newtype h =>
    cases h with
    | boolean =>
      rw [derive_of (addAll_single _) rfl rfl] at hd
      cases hd; exact .inl ⟨_, rfl⟩
    | null =>
      rw [derive_of (addAll_single _) rfl rfl] at hd
      cases hd; exact .inl ⟨_, rfl⟩
    | objectIdentifier =>
      rw [derive_of (addAll_single _) rfl rfl] at hd
      cases hd; exact .inl ⟨_, rfl⟩
    | @integer w lb ub ext =>
      obtain ⟨p, h1, h2, h3, e⟩ := derive_integer w lb ub ext _
      rw [e] at hd
      obtain ⟨r, hb, hd⟩ := Out.bind_ok.mp hd
      cases bounds_only h1 h2 h3 hb
      cases hd; exact .inl ⟨w, _, rfl, rfl⟩
    | @enumerated w lb ub ext =>
      obtain ⟨p, h1, h2, h3, e⟩ := derive_enumerated w lb ub ext _
      rw [e] at hd
      obtain ⟨r, hb, hd⟩ := Out.bind_ok.mp hd
      cases bounds_only h1 h2 h3 hb
      cases hd; exact .inl ⟨w, _, rfl, rfl⟩
    | bitstring h =>
      obtain ⟨p, h1, h2, h3, e⟩ := derive_size h _ "BITSTRING".toList (.tuple [bitVecTy])
      rw [e, generateCodec_bits _ _ _ rfl] at hd
      obtain ⟨r, hb, hd⟩ := Out.bind_ok.mp hd
      cases bounds_only h1 h2 h3 hb
      cases hd; exact .inl ⟨_, rfl⟩
    | octetstring h =>
      obtain ⟨p, h1, h2, h3, e⟩ := derive_size h _ "OCTET-STRING".toList (.tuple [.app "Vec".toList "u8".toList])
      rw [e, generateCodec_octets _ _ _ rfl] at hd
      obtain ⟨r, hb, hd⟩ := Out.bind_ok.mp hd
      cases bounds_only h1 h2 h3 hb
      cases hd; exact .inl ⟨_, rfl⟩
    | @charstring k lb ub ext l h =>
      obtain ⟨p, h1, h2, h3, e⟩ := derive_size h _ (kindName k) (.tuple [.name "String".toList])
      rw [e, generateCodec_chars _ _ _ _ rfl] at hd
      obtain ⟨r, hb, hd⟩ := Out.bind_ok.mp hd
      cases bounds_only h1 h2 h3 hb
      cases hd; exact .inl ⟨_, rfl⟩
  | unknownText hk h =>
    obtain ⟨p, hp, ha, ht, _⟩ := derive_name hd
    obtain ⟨o, _, e⟩ := addAll_size h _
    rw [e] at hp; cases hp
    rw [Option.some.inj ht] at hk
    exact .inr ⟨rfl, hk⟩
  | struct =>
    rw [derive_struct] at hd
    obtain ⟨fs, hf, hd⟩ := Out.bind_ok.mp hd
    cases hd
    exact .inl ⟨_, _, _, rfl, rfl, rfl, rfl, hf⟩
  | @vec x lb ub ext y l h =>
    obtain ⟨p, h1, h2, h3, e⟩ := derive_size h x "SEQUENCE-OF".toList (.tuple [.app "Vec".toList y])
    rw [e, generateCodec_vec _ _ _ _ rfl] at hd
    obtain ⟨r, hb, hd⟩ := Out.bind_ok.mp hd
    cases bounds_only h1 h2 h3 hb
    cases hd; exact .inl ⟨_, rfl, rfl⟩
  | @choice x lb ub ext vs =>
    rw [derive_choice, variants_choice] at hd
    obtain ⟨a, ha, hd⟩ := Out.bind_ok.mp hd
    obtain ⟨b, hb, hd⟩ := Out.bind_ok.mp hd
    cases (choiceBound_show lb).2 a ha
    cases (choiceBound_show ub).2 b hb
    cases hd
    exact .inl ⟨_, _, rfl, rfl, rfl, rfl⟩
  | openEnum h =>
    rw [derive_open] at hd
    obtain ⟨vs, hv, hd⟩ := Out.bind_ok.mp hd
    cases hd
    exact .inl ⟨_, _, rfl, h, rfl, hv⟩
  | plainEnum =>
    obtain ⟨p, hp, ha, _⟩ := derive_name hd
    rw [show tyParams [] = .ok {} from rfl] at hp
    cases hp; cases ha

theorem widthName_inj {v w : Width} (h : widthName v = widthName w) : v = w := by
  revert h; cases v <;> cases w <;> first | (intro _; rfl) | (intro h; exact absurd h (by decide))

theorem RustTy.name_inj {x y : Text} (h : RustTy.name x = RustTy.name y) : x = y := by
  cases h; rfl

theorem rendersOpen_cons {vs : List OpenItem} {v : VariantSyn} {l : List VariantSyn} (h : RendersOpen vs (v :: l)) :
    ∃ id y, ∃ k : Nat, ∃ vs', vs = ⟨id, y, (toString k).toList⟩ :: vs' ∧
      v = ⟨asnAttr [.nameValue "key".toList (.int k)], id, .tuple [.name y]⟩ ∧ RendersOpen vs' l := by
  cases h with
  | cons h => exact ⟨_, _, _, _, rfl, rfl, h⟩

mutual

theorem codes_stands {items : List Item} {file : List RustItem} (hr : All2 Renders items file)
    {x : Text} {t : Ty} (h : Codes file x t) : Stands items x t := by
  match h with
  | .alias hm hy =>
    obtain ⟨item, hi, hh⟩ := hr.mem_right _ hm
    cases hh
    exact .alias hi (codes_stands hr hy)
  | .boolean hm hd he =>
    obtain ⟨item, hi, hh⟩ := hr.mem_right _ hm
    obtain ⟨cs, rfl⟩ | ⟨hs, _⟩ := item_of hh he
    · exact .newtype hi
    · rw [hd] at hs; cases hs
  | .null hm hd he =>
    obtain ⟨item, hi, hh⟩ := hr.mem_right _ hm
    obtain ⟨cs, rfl⟩ | ⟨hs, _⟩ := item_of hh he
    · exact .newtype hi
    · rw [hd] at hs; cases hs
  | .objectIdentifier hm hd he =>
    obtain ⟨item, hi, hh⟩ := hr.mem_right _ hm
    obtain ⟨cs, rfl⟩ | ⟨hs, _⟩ := item_of hh he
    · exact .newtype hi
    · rw [hd] at hs; cases hs
  | .integer (w := w) hm hd he =>
    obtain ⟨item, hi, hh⟩ := hr.mem_right _ hm
    obtain ⟨v, cs, hw, rfl⟩ | ⟨hs, _⟩ := item_of hh he
    · cases widthName_inj (RustTy.name_inj ((intType_name w).symm.trans hw))
      exact .newtype hi
    · exact absurd hs (by rw [hd]; cases w <;> (intro e; cases e))
  | .enumerated (w := w) hm hd he =>
    obtain ⟨item, hi, hh⟩ := hr.mem_right _ hm
    obtain ⟨v, cs, hw, rfl⟩ | ⟨hs, _⟩ := item_of hh he
    · cases widthName_inj (RustTy.name_inj ((intType_name w).symm.trans hw))
      exact .newtype hi
    · exact absurd hs (by rw [hd]; cases w <;> (intro e; cases e))
  | .bitstring hm hd he =>
    obtain ⟨item, hi, hh⟩ := hr.mem_right _ hm
    obtain ⟨cs, rfl⟩ | ⟨hs, _⟩ := item_of hh he
    · exact .newtype hi
    · rw [hd] at hs; cases hs
  | .octetstring hm hd he =>
    obtain ⟨item, hi, hh⟩ := hr.mem_right _ hm
    obtain ⟨cs, rfl⟩ | ⟨hs, _⟩ := item_of hh he
    · exact .newtype hi
    · rw [hd] at hs; cases hs
  | .charstring (k := k) hm hd he =>
    obtain ⟨item, hi, hh⟩ := hr.mem_right _ hm
    obtain ⟨cs, rfl⟩ | ⟨_, hs⟩ := item_of hh he
    · exact .newtype hi
    · exact absurd (show charKindOf (kindName k) = none from hs) (by cases k <;> decide)
  | .sequence hm hd he hf =>
    obtain ⟨item, hi, hh⟩ := hr.mem_right _ hm
    obtain ⟨ext, m, l, rfl, h1, h2, h3, h4⟩ | ⟨hs, _⟩ := item_of hh he
    · have hl := Data.named.inj (hd.symm.trans h3)
      have := codesFields_stands hr hf hl (hl ▸ h4)
      cases h1
      subst h2
      exact .struct hi this
    · rw [hd] at hs; cases hs
  | .sequenceOf hm hd he hy =>
    obtain ⟨item, hi, hh⟩ := hr.mem_right _ hm
    obtain ⟨z, rfl, h1⟩ | ⟨hs, _⟩ := item_of hh he
    · have := codes_stands hr hy
      cases h1
      exact .vec hi this
    · rw [hd] at hs; cases hs
  | .choice hm hd he hv =>
    obtain ⟨item, hi, hh⟩ := hr.mem_right _ hm
    obtain ⟨ext, l, rfl, h1, h2, h3⟩ | ⟨hs, _⟩ := item_of hh he
    · have := codesAlts_stands hr hv (Data.enum.inj (hd.symm.trans h2)) h3
      cases h1
      exact .choice hi this
    · rw [hd] at hs; cases hs
  | .openType hm hd he hv =>
    obtain ⟨item, hi, hh⟩ := hr.mem_right _ hm
    obtain ⟨l, s, rfl, h1, h2, h3⟩ | ⟨hs, _⟩ := item_of hh he
    · have hl := Data.enum.inj (hd.symm.trans h2)
      obtain ⟨w, hw, h3⟩ := Out.bind_ok.mp h3
      exact .openEnum hi (codesOpen_stands hr hv (hl ▸ h1) (hl ▸ hw) (Out.ok.inj h3).symm)
    · rw [hd] at hs; cases hs
termination_by structural h

theorem codesFields_stands {items : List Item} {file : List RustItem} (hr : All2 Renders items file)
    {l : List FieldSyn} {is : List FieldImpl} {ts : Fields} (h : CodesFields file l is ts)
    {fs : List FieldItem} (hl : l = fs.map fieldSyn) (ha : allOk fieldImpl l = .ok is) : StandsFields items fs ts := by
  match h with
  | .nil =>
    cases fs with
    | nil => exact .nil
    | cons f fs => cases hl
  | .required (x := x) (y := y) (key := key) hy hf =>
    cases fs with
    | nil => cases hl
    | cons f fs =>
      rw [List.map_cons, List.cons.injEq] at hl
      obtain ⟨i, is', h1, h2, h3⟩ := allOk_cons.mp ha
      rw [List.cons.injEq] at h3
      have hrec := codesFields_stands hr hf hl.2 (h3.2 ▸ h2)
      have hc := codes_stands hr hy
      rw [← h3.1] at h1
      rw [hl.1] at h1
      obtain ⟨id, z, o, k⟩ := f
      have hty := congrArg FieldSyn.ty hl.1
      cases o with
      | some j => cases hty
      | none =>
        by_cases hz : z = "Option".toList
        · rw [hz, fieldImpl_option] at h1; cases h1
        · rw [fieldImpl_required _ _ _ hz] at h1
          cases h1
          exact .required hc hrec
  | .optional (x := x) (y := y) (i := i) hy hf =>
    cases fs with
    | nil => cases hl
    | cons f fs =>
      rw [List.map_cons, List.cons.injEq] at hl
      obtain ⟨i, is', h1, h2, h3⟩ := allOk_cons.mp ha
      rw [List.cons.injEq] at h3
      have hrec := codesFields_stands hr hf hl.2 (h3.2 ▸ h2)
      have hc := codes_stands hr hy
      rw [← h3.1] at h1
      rw [hl.1] at h1
      obtain ⟨id, z, o, k⟩ := f
      have hty := congrArg FieldSyn.ty hl.1
      cases o with
      | none => cases hty
      | some j =>
        cases k with
        | true => rw [fieldImpl_optionalKey] at h1; cases h1
        | false =>
          rw [fieldImpl_optional] at h1
          cases h1
          exact .optional hc hrec
termination_by structural h

theorem codesAlts_stands {items : List Item} {file : List RustItem} (hr : All2 Renders items file)
    {l : List VariantSyn} {is : List VariantImpl} {as : Alts} (h : CodesAlts file l is as)
    {vs : List VariantItem} (hl : l = vs.map variantSyn)
    (ha : is = vs.map fun v => ⟨v.ident, .name v.ty, v.key, some v.extended⟩) : StandsAlts items vs as := by
  match h with
  | .nil =>
    cases vs with
    | nil => exact .nil
    | cons v vs => cases hl
  | .cons hy hv =>
    cases vs with
    | nil => cases hl
    | cons v vs =>
      rw [List.map_cons, List.cons.injEq] at hl ha
      have hrec := codesAlts_stands hr hv hl.2 ha.2
      have hc := codes_stands hr hy
      obtain ⟨id, z, k, e⟩ := v
      cases ha.1
      exact .cons hc hrec
termination_by structural h

theorem codesOpen_stands {items : List Item} {file : List RustItem} (hr : All2 Renders items file)
    {l : List VariantSyn} {is : List VariantImpl} {as : Alts} (h : CodesOpen file l is as)
    {vs : List OpenItem} (hl : RendersOpen vs l) {w : List (Option VariantImpl)}
    (ha : allOk variantImpl l = .ok w) (hw : is = w.filterMap id) : StandsOpen items vs as := by
  match h with
  | .nil =>
    cases hl
    exact .nil
  | .cons hy hv =>
    obtain ⟨name, z, k, vs', rfl, hi, hl⟩ := rendersOpen_cons hl
    obtain ⟨i, w', h1, h2, h3⟩ := allOk_cons.mp ha
    rw [hi, variantImpl_open] at h1
    cases h1
    subst h3
    rw [show List.filterMap id (some (VariantImpl.mk name (.name z) k none) :: w') =
      ⟨name, .name z, k, none⟩ :: List.filterMap id w' from rfl, List.cons.injEq] at hw
    have hrec := codesOpen_stands hr hv hl h2 hw.2
    have hc := codes_stands hr hy
    cases hw.1
    exact .cons hc hrec
termination_by structural h

end

end Hampi.Compiler
