import Verif.Spec.Idents
import Verif.Spec.Trips
import Verif.Props.Accepted
/-! # The names in what the parser makes of a text -/
namespace Hampi.Compiler
open Hampi.Compiler.Spec

/-! ## Tokens -/

/-- If the text starts with a letter it is a name, and it is not reserved. -/
structure PFine (x : Text) : Prop where
  name : ∀ c cs, x = c :: cs → c.isAlpha = true → Name x
  free : ∀ kw ∈ KEYWORDS, x ≠ kw.toList

/-- What holds of every token of a text, and after parameters have been replaced. -/
structure Fine (t : Token) : Prop where
  gen : Genuine t
  word : t.type = .identifier → PFine t.text
  other : t.type ≠ .identifier → t.type ≠ .keyword → ∀ c cs, t.text = c :: cs → c.isAlpha ≠ true
  keyword : t.type = .keyword → ∃ kw ∈ KEYWORDS, t.text = kw.toList

theorem keywords_alpha : ∀ kw ∈ KEYWORDS, ∃ c cs, kw.toList = c :: cs ∧ c.isAlpha = true := by
  have h : (KEYWORDS.all fun kw => match kw.toList with | c :: _ => c.isAlpha | [] => false) = true := by decide +kernel
  intro kw hk
  have := List.all_eq_true.mp h kw hk
  split at this
  · rename_i c cs e; exact ⟨c, cs, e, this⟩
  · cases this

theorem fine_of_shape {u : Unicode} {t : Token} {raw rest : List Char} (hs : Hampi.Spec.Shape u t.type raw rest)
    (hk : Hampi.Spec.Kept t.type raw t.text) : Fine t := by
  refine ⟨Props.genuine_of_shape hs hk, ?_, ?_, ?_⟩
  · intro h
    have hg := (Props.genuine_of_shape hs hk).name h
    rw [h] at hs hk
    cases hk
    refine ⟨fun c cs e hc => ⟨c, cs, e, hc, fun d hd => ?_⟩, hg⟩
    have : d.isAlpha = true ∨ d.isDigit = true ∨ d = '-' := hs.1.2.1 d (by rw [e]; exact List.mem_cons_of_mem _ hd)
    rcases this with h | h | h
    · exact .inl (by simp [Char.isAlphanum, h])
    · exact .inl (by simp [Char.isAlphanum, h])
    · exact .inr h
  · intro h1 h2 c cs e hc
    rcases Props.word_start hs hk e hc with h | h
    · exact h1 h
    · exact h2 h
  · intro h
    rw [h] at hs hk
    cases hk
    exact hs.2.2.2

theorem fine_of_tokenize {u : Unicode} {chars : List Char} {ts : List Token} (h : tokenize u chars = .ok ts) : ∀ t ∈ ts, Fine t := by
  intro t ht
  obtain ⟨raw, rest, hs, hk⟩ := (C50_lossless u chars ts h).shapes t ht
  exact fine_of_shape hs hk

theorem Fine.param {t : Token} (h : Fine t) (ht : t.type = .numberInt ∨ t.type = .identifier) : PFine t.text := by
  rcases ht with ht | ht
  · have no := h.other (by rw [ht]; nofun) (by rw [ht]; nofun)
    refine ⟨fun c cs e hc => absurd hc (no c cs e), fun kw hk e => ?_⟩
    obtain ⟨c, cs, e', hc⟩ := keywords_alpha kw hk
    exact no c cs (e.trans e') hc
  · exact h.word ht

theorem alpha_of_lower {c : Char} (h : c.isLower = true) : c.isAlpha = true := by simp [Char.isAlpha, h]
theorem alpha_of_upper {c : Char} (h : c.isUpper = true) : c.isAlpha = true := by simp [Char.isAlpha, h]

theorem Fine.lower {t : Token} (h : Fine t) {x : Text} (hx : LowerName x t) : Name x := by
  obtain ⟨h1, h2, c, cs, e, hc⟩ := hx
  subst h2
  exact (h.word h1).name c cs e (alpha_of_lower hc)

theorem Fine.upper {t : Token} (h : Fine t) {x : Text} (hx : UpperName x t) : Name x := by
  obtain ⟨h1, h2, ⟨c, cs, e, hc⟩, _⟩ := hx
  subst h2
  exact (h.word h1).name c cs e (alpha_of_upper hc)

theorem Fine.replace {t : Token} (h : Fine t) {s x : Text} (hs : Name s) (hk : ∀ kw ∈ KEYWORDS, s ≠ kw.toList) (hx : PFine x) :
    Fine (replaceText s x t) := by
  unfold replaceText
  split
  · rename_i e
    obtain ⟨c, cs, e', hc, _⟩ := hs
    have hi : t.type = .identifier := by
      refine Classical.byContradiction fun h1 => ?_
      by_cases h2 : t.type = .keyword
      · obtain ⟨kw, hkw, e2⟩ := h.keyword h2
        exact hk kw hkw (e.symm.trans e2)
      · exact h.other h1 h2 c cs (e.trans e') hc
    have hw : ∀ w ∈ typeWords, w ∈ KEYWORDS := by decide
    refine ⟨⟨fun w hm e => absurd e (hx.free w (hw w hm)), fun _ => hx.free, ?_, ?_, ?_⟩, fun _ => hx, ?_, ?_⟩
    · intro h; dsimp only at h; rw [hi] at h; cases h
    · intro h; dsimp only at h; rw [hi] at h; cases h
    · intro h; dsimp only at h; rw [hi] at h; cases h
    · exact fun h => absurd hi h
    · intro h; dsimp only at h; rw [hi] at h; cases h
  · exact h

theorem substitute_fine : {names : List Text} → {ps : List ActualParam} → {ts : List Token} →
    (∀ x ∈ names, Name x ∧ ∀ kw ∈ KEYWORDS, x ≠ kw.toList) → (∀ p ∈ ps, PFine p.text) → (∀ t ∈ ts, Fine t) →
    ∀ t ∈ substitute names ps ts, Fine t
  | [], _, _, _, _, h => by unfold substitute; exact h
  | _ :: _, [], _, _, _, h => by unfold substitute; exact h
  | s :: ss, a :: as, ts, hn, hp, h => by
    rw [substitute]
    refine substitute_fine (fun x hx => hn x (List.mem_cons_of_mem _ hx)) (fun p hx => hp p (List.mem_cons_of_mem _ hx)) ?_
    intro t ht
    obtain ⟨t0, h0, rfl⟩ := List.mem_map.mp ht
    exact (h t0 h0).replace (hn s List.mem_cons_self).1 (hn s List.mem_cons_self).2 (hp a List.mem_cons_self)

/-! ## Types -/

/-- The names in a type, outside of the types in it. -/
def ShallowKind : Kind → Prop
  | .enumerated root _ _ => ∀ v ∈ root, Name v.name
  | .choice root adds => ∀ id ty, Component.mk id ty ∈ root ++ groupComponents (adds.getD []) → Name id
  | .sequence root adds _ => ∀ x ∈ allComponents root adds, Name x.1
  | .parameterized _ ps => ∀ p ∈ ps, PFine p.text
  | _ => True

/-- The names in a type, at all depths. -/
inductive Deep : AsnType → Prop
  | mk {k cs} : ShallowKind k → (∀ p, PartOf p (.mk k cs) → Deep p) → Deep (.mk k cs)

theorem Deep.shallow {k : Kind} {cs : Option (List Constraint)} : Deep (.mk k cs) → ShallowKind k
  | .mk h _ => h

theorem Deep.part {p ty : AsnType} : Deep ty → PartOf p ty → Deep p
  | .mk _ h, hp => h p hp

theorem followed_all {α : Type} {P : α → Tokens → Prop} {Q : α → Prop} {xs : List α} {ts : Tokens} (h : Followed P xs ts)
    (hf : ∀ t ∈ ts, Fine t) (hq : ∀ x us, P x us → (∀ t ∈ us, Fine t) → Q x) : ∀ x ∈ xs, Q x := by
  induction h with
  | nil => nofun
  | cons h1 h2 h3 ih =>
    intro x hx
    rcases List.mem_cons.mp hx with rfl | hx
    · exact hq _ _ h1 fun t ht => hf t (List.mem_append_left _ ht)
    · exact ih (fun t ht => hf t (List.mem_append_right _ (List.mem_append_right _ ht))) x hx

theorem strewn_all {α : Type} {P : α → Tokens → Prop} {Q : α → Prop} {xs : List α} {ts : Tokens} (h : Strewn P xs ts)
    (hf : ∀ t ∈ ts, Fine t) (hq : ∀ x us, P x us → (∀ t ∈ us, Fine t) → Q x) : ∀ x ∈ xs, Q x := by
  induction h with
  | nil => nofun
  | comma h1 h2 ih => exact ih fun t ht => hf t (List.mem_cons_of_mem _ ht)
  | cons h1 h2 ih =>
    intro x hx
    rcases List.mem_cons.mp hx with rfl | hx
    · exact hq _ _ h1 fun t ht => hf t (List.mem_append_left _ ht)
    · exact ih (fun t ht => hf t (List.mem_append_right _ ht)) x hx

theorem enumNote_name {v : EnumValue} {ts : Tokens} (h : EnumNote v ts) (hf : ∀ t ∈ ts, Fine t) : Name v.name := by
  cases h with
  | plain h => exact (hf _ List.mem_cons_self).lower h
  | numbered h _ => exact (hf _ List.mem_cons_self).lower h

theorem paramNote_fine {p : ActualParam} {ts : Tokens} (h : ParamNote p ts) (hf : ∀ t ∈ ts, Fine t) : PFine p.text := by
  cases h with
  | single h => exact (hf _ List.mem_cons_self).param h
  | set _ h _ => exact (hf _ (List.mem_cons_of_mem _ List.mem_cons_self)).param h

theorem simple_shallow {k : Kind} {ts : Tokens} (h : AccSimple k ts) (hf : ∀ t ∈ ts, Fine t) : ShallowKind k := by
  cases h with
  | enumerated _ _ h _ _ =>
    exact followed_all h (fun t ht => hf t (by simp [ht])) fun _ _ => enumNote_name
  | extensible _ _ h _ _ _ _ _ =>
    exact followed_all h (fun t ht => hf t (by simp [ht])) fun _ _ => enumNote_name
  | parameterized _ _ h _ _ =>
    exact strewn_all h (fun t ht => hf t (by simp [ht])) fun _ _ => paramNote_fine
  | _ => trivial

theorem simple_parts {k : Kind} {ts : Tokens} (h : AccSimple k ts) {cs : Option (List Constraint)} {p : AsnType}
    (hp : PartOf p (.mk k cs)) : False := by
  cases hp <;> cases h

/-- A component with its name. -/
def CompDeep : Component → Prop
  | .mk id ty => Name id ∧ Deep ty

/-- A component of a SEQUENCE with its name. -/
def SeqCompDeep : SeqComponent → Prop
  | .mk id ty _ _ => Name id ∧ Deep ty

/-- An addition group. -/
def GroupDeep : ChoiceGroup → Prop
  | .mk _ cs => ∀ c ∈ cs, CompDeep c

/-- An addition group of a SEQUENCE. -/
def SeqGroupDeep : SeqGroup → Prop
  | .mk _ cs => ∀ c ∈ cs, SeqCompDeep c

theorem deep_sequence {cs : List SeqComponent} {gs : List SeqGroup} {x : Bool} (h : ∀ c ∈ cs, SeqCompDeep c)
    (hg : ∀ g ∈ gs, SeqGroupDeep g) (k : Option (List Constraint)) : Deep (.mk (.sequence cs gs x) k) := by
  refine .mk ?_ fun p hp => ?_
  · intro c hc
    unfold allComponents at hc
    obtain ⟨⟨id, ty, o, d⟩, hm, rfl⟩ := List.mem_map.mp hc
    rcases List.mem_append.mp hm with hc | hc
    · exact (h _ hc).1
    · obtain ⟨⟨v, l⟩, hl, hm⟩ := List.mem_flatMap.mp hc
      exact (hg _ hl _ hm).1
  · cases hp with
    | component hm => exact (h _ hm).2

theorem deep_choice {cs : List Component} {gs : List ChoiceGroup} {bs : List Component} (x : Bool) (h : ∀ c ∈ cs, CompDeep c)
    (hg : ∀ g ∈ gs, GroupDeep g) (hb : ∀ c ∈ bs, CompDeep c) (k : Option (List Constraint)) :
    Deep (.mk (.choice cs (additionsOf x gs bs)) k) := by
  have hall : ∀ l, additionsOf x gs bs = some l → ∀ g ∈ l, GroupDeep g := by
    intro l hl g hgl
    unfold additionsOf at hl
    split at hl
    · cases hl
      rcases List.mem_append.mp hgl with hgl | hgl
      · exact hg g hgl
      · split at hgl
        · cases hgl
        · cases List.mem_singleton.mp hgl; exact hb
    · cases hl
  refine .mk ?_ fun p hp => ?_
  · intro id ty hm
    rcases List.mem_append.mp hm with hm | hm
    · exact (h _ hm).1
    · obtain ⟨⟨v, l⟩, hl, hm⟩ := List.mem_flatMap.mp hm
      cases ha : additionsOf x gs bs with
      | none => rw [ha] at hl; cases hl
      | some gs' => rw [ha] at hl; exact (hall _ ha _ hl _ hm).1
  · generalize ha : additionsOf x gs bs = adds at hp
    cases hp with
    | alternative hm => exact (h _ hm).2
    | addition hm hc => exact (hall _ ha _ hm _ hc).2

mutual

theorem accType_deep : {ty : AsnType} → {ts : Tokens} → AccType ty ts → (∀ t ∈ ts, Fine t) → Deep ty
  | _, _, .mk hk _, hf => accKind_deep hk (fun t ht => hf t (List.mem_append_left _ ht)) _

theorem accKind_deep : {k : Kind} → {ts : Tokens} → AccKind k ts → (∀ t ∈ ts, Fine t) → (cs : Option (List Constraint)) →
    Deep (.mk k cs)
  | _, _, .simple h, hf, _ => .mk (simple_shallow h hf) fun _ hp => (simple_parts h hp).elim
  | _, _, .sequence _ _ h _, hf, _ =>
    have := accSeqItems_deep h fun t ht => hf t (by simp [ht])
    deep_sequence this.1 this.2 _
  | _, _, .choice _ _ h _, hf, _ =>
    have := accChoiceItems_deep h fun t ht => hf t (by simp [ht])
    deep_choice _ this.1 this.2.1 this.2.2 _
  | _, _, .sequenceOf _ _ h, hf, _ =>
    have := accType_deep h fun t ht => hf t (by simp [ht])
    .mk trivial fun _ hp => by cases hp; exact this
  | _, _, .sizedSequenceOf _ _ _ h, hf, _ =>
    have := accType_deep h fun t ht => hf t (by simp [ht])
    .mk trivial fun _ hp => by cases hp; exact this

theorem accSeqItems_deep : {k : Nat} → {cs : List SeqComponent} → {gs : List SeqGroup} → {j : Nat} → {ts : Tokens} →
    AccSeqItems k cs gs j ts → (∀ t ∈ ts, Fine t) → (∀ c ∈ cs, SeqCompDeep c) ∧ ∀ g ∈ gs, SeqGroupDeep g
  | _, _, _, _, _, .done, _ => ⟨nofun, nofun⟩
  | _, _, _, _, _, .comma _ h, hf => accSeqItems_deep h fun t ht => hf t (List.mem_cons_of_mem _ ht)
  | _, _, _, _, _, .marker _ h, hf => accSeqItems_deep h fun t ht => hf t (List.mem_cons_of_mem _ ht)
  | _, _, _, _, _, .component h1 h2, hf =>
    have a := accSeqComp_deep h1 fun t ht => hf t (List.mem_append_left _ ht)
    have b := accSeqItems_deep h2 fun t ht => hf t (List.mem_append_right _ ht)
    ⟨fun c hc => by
      rcases List.mem_cons.mp hc with rfl | hc
      · exact a
      · exact b.1 c hc, b.2⟩
  | _, _, _, _, _, .group h1 h2, hf =>
    have a := accSeqGroup_deep h1 fun t ht => hf t (List.mem_append_left _ ht)
    have b := accSeqItems_deep h2 fun t ht => hf t (List.mem_append_right _ ht)
    ⟨b.1, fun c hc => by
      rcases List.mem_cons.mp hc with rfl | hc
      · exact a
      · exact b.2 c hc⟩

theorem accSeqComp_deep : {c : SeqComponent} → {ts : Tokens} → AccSeqComp c ts → (∀ t ∈ ts, Fine t) → SeqCompDeep c
  | _, _, .required hi h, hf =>
    ⟨(hf _ List.mem_cons_self).lower hi, accType_deep h fun t ht => hf t (by simp [ht])⟩
  | _, _, .optional hi h _, hf =>
    ⟨(hf _ List.mem_cons_self).lower hi, accType_deep h fun t ht => hf t (by simp [ht])⟩
  | _, _, .default hi h _ _, hf =>
    ⟨(hf _ List.mem_cons_self).lower hi, accType_deep h fun t ht => hf t (by simp [ht])⟩

theorem accSeqGroup_deep : {g : SeqGroup} → {ts : Tokens} → AccSeqGroup g ts → (∀ t ∈ ts, Fine t) → SeqGroupDeep g
  | _, _, .mk _ _ h _ _, hf => accSeqComps_deep h fun t ht => hf t (by simp [ht])

theorem accSeqComps_deep : {cs : List SeqComponent} → {ts : Tokens} → AccSeqComps cs ts → (∀ t ∈ ts, Fine t) →
    ∀ c ∈ cs, SeqCompDeep c
  | _, _, .nil, _ => nofun
  | _, _, .cons h1 _ h2, hf =>
    have a := accSeqComp_deep h1 fun t ht => hf t (by simp [ht])
    have b := accSeqComps_deep h2 fun t ht => hf t (by simp [ht])
    fun c hc => by
      rcases List.mem_cons.mp hc with rfl | hc
      · exact a
      · exact b c hc

theorem accChoiceItems_deep : {k : Bool} → {cs : List Component} → {gs : List ChoiceGroup} → {bs : List Component} →
    {x : Bool} → {ts : Tokens} → AccChoiceItems k cs gs bs x ts → (∀ t ∈ ts, Fine t) →
    (∀ c ∈ cs, CompDeep c) ∧ (∀ g ∈ gs, GroupDeep g) ∧ ∀ c ∈ bs, CompDeep c
  | _, _, _, _, _, _, .done, _ => ⟨nofun, nofun, nofun⟩
  | _, _, _, _, _, _, .comma _ h, hf => accChoiceItems_deep h fun t ht => hf t (List.mem_cons_of_mem _ ht)
  | _, _, _, _, _, _, .marker _ h, hf => accChoiceItems_deep h fun t ht => hf t (List.mem_cons_of_mem _ ht)
  | _, _, _, _, _, _, .root h1 h2, hf =>
    have a := accComp_deep h1 fun t ht => hf t (List.mem_append_left _ ht)
    have b := accChoiceItems_deep h2 fun t ht => hf t (List.mem_append_right _ ht)
    ⟨fun c hc => by
      rcases List.mem_cons.mp hc with rfl | hc
      · exact a
      · exact b.1 c hc, b.2⟩
  | _, _, _, _, _, _, .bare h1 h2, hf =>
    have a := accComp_deep h1 fun t ht => hf t (List.mem_append_left _ ht)
    have b := accChoiceItems_deep h2 fun t ht => hf t (List.mem_append_right _ ht)
    ⟨b.1, b.2.1, fun c hc => by
      rcases List.mem_cons.mp hc with rfl | hc
      · exact a
      · exact b.2.2 c hc⟩
  | _, _, _, _, _, _, .group h1 h2, hf =>
    have a := accChoiceGroup_deep h1 fun t ht => hf t (List.mem_append_left _ ht)
    have b := accChoiceItems_deep h2 fun t ht => hf t (List.mem_append_right _ ht)
    ⟨b.1, fun c hc => by
      rcases List.mem_cons.mp hc with rfl | hc
      · exact a
      · exact b.2.1 c hc, b.2.2⟩

theorem accComp_deep : {c : Component} → {ts : Tokens} → AccComp c ts → (∀ t ∈ ts, Fine t) → CompDeep c
  | _, _, .mk hi h, hf =>
    ⟨(hf _ List.mem_cons_self).lower hi, accType_deep h fun t ht => hf t (by simp [ht])⟩

theorem accChoiceGroup_deep : {g : ChoiceGroup} → {ts : Tokens} → AccChoiceGroup g ts → (∀ t ∈ ts, Fine t) → GroupDeep g
  | _, _, .mk _ _ h _ _, hf => accComps_deep h fun t ht => hf t (by simp [ht])

theorem accComps_deep : {cs : List Component} → {ts : Tokens} → AccComps cs ts → (∀ t ∈ ts, Fine t) → ∀ c ∈ cs, CompDeep c
  | _, _, .nil, _ => nofun
  | _, _, .comma _ h, hf => accComps_deep h fun t ht => hf t (by simp [ht])
  | _, _, .cons h1 h2, hf =>
    have a := accComp_deep h1 fun t ht => hf t (by simp [ht])
    have b := accComps_deep h2 fun t ht => hf t (by simp [ht])
    fun c hc => by
      rcases List.mem_cons.mp hc with rfl | hc
      · exact a
      · exact b c hc

end

theorem parseType_deep {n : Nat} {ts rest : List Token} {ty : AsnType} (h : parseType n ts = .ok (ty, rest))
    (hf : ∀ t ∈ ts, Fine t) : Deep ty := by
  obtain ⟨t, us, e, ha, _⟩ := (Acc.accAt n).type ts ty rest h fun t ht => (hf t ht).gen
  refine accType_deep ha fun t ht => hf t ?_
  rw [e, ← List.cons_append]
  exact List.mem_append_left _ ht

end Hampi.Compiler
