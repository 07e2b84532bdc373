import Verif.Lemmas.IdentsParser
import Verif.Lemmas.TripsModules
import Verif.Compiler.Main
/-! # The names in modules that were read -/
namespace Hampi.Compiler
open Hampi.Compiler.Spec

/-! ## Classes and objects -/

/-- The types in a field of a class. -/
def FieldDeep : ClassField → Prop
  | .type _ _ d _ => ∀ ty, d = some ty → Deep ty
  | .fixedTypeValue _ ty _ _ _ _ => Deep ty

theorem listed_all {α : Type} {P : α → Tokens → Prop} {Q : α → Prop} {xs : List α} {ts : Tokens} (h : Listed P xs ts)
    (hf : ∀ t ∈ ts, Fine t) (hq : ∀ x us, P x us → (∀ t ∈ us, Fine t) → Q x) : ∀ x ∈ xs, Q x := by
  induction h with
  | one h =>
    intro x hx
    cases List.mem_singleton.mp hx
    exact hq _ _ h hf
  | more h1 _ _ ih =>
    intro x hx
    rcases List.mem_cons.mp hx with rfl | hx
    · exact hq _ _ h1 fun t ht => hf t (List.mem_append_left _ ht)
    · exact ih (fun t ht => hf t (List.mem_append_right _ (List.mem_cons_of_mem _ ht))) x hx

theorem accField_deep {f : Text × ClassField} {ts : Tokens} (h : AccField f ts) (hf : ∀ t ∈ ts, Fine t) : FieldDeep f.2 := by
  cases h with
  | value _ h _ _ _ => exact accType_deep h fun t ht => hf t (by simp [ht])
  | type _ h =>
    cases h with
    | none => nofun
    | optional _ => nofun
    | default _ h =>
      intro ty e
      cases e
      exact accType_deep h fun t ht => hf t (by simp [ht])

theorem lastOf_mem {α : Type} {m xs : List (Text × α)} (h : LastOf m xs) {p : Text × α} (hp : p ∈ m) : p ∈ xs := by
  obtain ⟨k, v⟩ := p
  exact (List.mem_filter.mp (List.mem_of_getLast? ((h.1 k v).mp hp))).1

theorem accClass_deep {m : List (Text × ClassField)} {ts : Tokens} (h : AccClass m ts) (hf : ∀ t ∈ ts, Fine t) :
    ∀ f ∈ m, FieldDeep f.2 := by
  cases h with
  | bare _ _ h _ hm =>
    intro f hfm
    exact listed_all h (fun t ht => hf t (by simp [ht])) (fun _ _ => accField_deep) f (lastOf_mem hm hfm)
  | withSyntax _ _ h _ _ _ _ _ _ _ _ hm =>
    intro f hfm
    obtain ⟨g, hg, rfl⟩ := List.mem_map.mp (lastOf_mem hm hfm)
    have := listed_all h (fun t ht => hf t (by simp [ht])) (fun _ _ => accField_deep) g hg
    obtain ⟨x, f⟩ := g
    cases f with
    | type => exact this
    | fixedTypeValue => exact this

/-- The types in a field of an object. -/
def ObjectFieldDeep : ObjectField → Prop
  | .type ty => ∀ t, ty = some t → Deep t
  | .fixedTypeValue ty _ => Deep ty

theorem parseFieldValue_deep {n : Nat} {f : ClassField} (hd : FieldDeep f) {ts : List Token} (hf : ∀ t ∈ ts, Fine t)
    {v : ObjectField} {rest : List Token} (h : parseFieldValue n f ts = .ok (v, rest)) : ObjectFieldDeep v := by
  cases f with
  | type =>
    unfold parseFieldValue at h
    obtain ⟨r, hr, h⟩ := Out.bind_ok.mp h
    cases h
    intro t e
    cases e
    exact parseType_deep hr hf
  | fixedTypeValue =>
    unfold parseFieldValue at h
    obtain ⟨r, hr, h⟩ := Out.bind_ok.mp h
    cases h
    exact hd

theorem put_all {α : Type} {P : α → Prop} {m : List (Text × α)} {k : Text} {v : α} (hm : ∀ p ∈ m, P p.2) (hv : P v) :
    ∀ p ∈ put m k v, P p.2 := by
  intro p hp
  rcases of_mem_put hp with e | e
  · rw [e]; exact hv
  · exact hm p e

theorem objectLoop_deep {n : Nat} {cls : List (Text × ClassField)} (hc : ∀ f ∈ cls, FieldDeep f.2) {tokens : List Token}
    (hf : ∀ t ∈ tokens, Fine t) : {gs : List (List Token)} → {k : Nat} → {fs r : List (Text × ObjectField)} →
    (∀ p ∈ fs, ObjectFieldDeep p.2) → objectLoop n cls tokens gs k fs = .ok r → ∀ p ∈ r, ObjectFieldDeep p.2
  | [], _, _, _, h, e => by rw [objectLoop] at e; cases e; exact h
  | ws :: gs, k, fs, r, h, e => by
    rw [objectLoop] at e
    split at e
    · exact objectLoop_deep hc hf h e
    · rename_i spec hs
      split at e
      · cases e
      · obtain ⟨⟨v, rest⟩, hv, e⟩ := Out.bind_ok.mp e
        have hd := parseFieldValue_deep (hc spec (List.mem_of_find?_eq_some hs))
          (fun t ht => hf t (List.mem_of_mem_drop ht)) hv
        split at e
        · cases e; exact put_all h hd
        · exact objectLoop_deep hc hf (put_all h hd) e

theorem addDefaults_deep : (cls : List (Text × ClassField)) → (∀ f ∈ cls, FieldDeep f.2) → (fs : List (Text × ObjectField)) →
    (∀ p ∈ fs, ObjectFieldDeep p.2) → ∀ p ∈ cls.foldl addDefault fs, ObjectFieldDeep p.2
  | [], _, _, h => h
  | f :: cls, hc, fs, h => by
    refine addDefaults_deep cls (fun f hf => hc f (List.mem_cons_of_mem _ hf)) _ ?_
    have hd := hc f List.mem_cons_self
    unfold addDefault
    split
    · exact h
    · split
      · rename_i e
        rw [e] at hd
        exact put_all h hd
      · rename_i e
        rw [e] at hd
        exact put_all h hd
      · exact h

theorem parseObject_deep {u : Unicode} {n : Nat} {s : Text} {cls : List (Text × ClassField)} (hc : ∀ f ∈ cls, FieldDeep f.2)
    {o : ObjectValue} (h : parseObject u n s cls = .ok o) {ty : AsnType} (hty : FieldType ty o) : Deep ty := by
  unfold parseObject at h
  split at h
  · cases h
  · cases h
  · cases h
  · rename_i tokens ht
    split at h
    · cases h
    · obtain ⟨fs, hfs, h⟩ := Out.bind_ok.mp h
      cases h
      have hf : ∀ t ∈ (tokens.drop 1).dropLast, Fine t := fun t hm =>
        fine_of_tokenize ht t (List.mem_of_mem_drop (List.dropLast_subset _ hm))
      have hall := addDefaults_deep cls hc fs (objectLoop_deep hc hf (fun _ h => (by cases h)) hfs)
      cases hty with
      | type hm => exact hall _ hm ty rfl
      | value hm => exact hall _ hm

/-! ## Definitions -/

/-- The objects of the set are not read yet. -/
def Unread : SetElement → Prop
  | .object (.fields _) => False
  | _ => True

/-- The names in what is assigned. -/
def AssignDeep : Assignment → Prop
  | .type ty => Deep ty
  | .value ty _ => Deep ty
  | .class fs => ∀ f ∈ fs, FieldDeep f.2
  | .object _ (.fields _) => False
  | .object _ (.input _) => True
  | .objectSet _ root add => ∀ e ∈ root ++ add, Unread e

/-- The names in a definition. -/
structure DefDeep (d : ParsedDef) : Prop where
  id : Name d.id
  kind : AssignDeep d.kind
  params : ∀ names tokens, d.params = some (names, tokens) →
    (∀ x ∈ names, Name x ∧ ∀ kw ∈ KEYWORDS, x ≠ kw.toList) ∧ ∀ t ∈ tokens, Fine t

theorem accElement_unread {e : SetElement} {ts : Tokens} (h : AccElement e ts) : Unread e := by
  cases h <;> trivial

theorem accSetItems_unread {k : Bool} {r a : List SetElement} {ts : Tokens} (h : AccSetItems k r a ts) :
    ∀ e ∈ r ++ a, Unread e := by
  induction h with
  | done => nofun
  | comma _ _ ih => exact ih
  | sign _ _ ih => exact ih
  | marker _ _ ih => exact ih
  | root h _ ih =>
    intro e he
    rcases List.mem_cons.mp he with rfl | he
    · exact accElement_unread h
    · exact ih e he
  | added h _ ih =>
    intro e he
    rcases List.mem_cons.mp he with rfl | he
    · exact accElement_unread h
    · exact ih e he

theorem keywords_upper : ∀ kw ∈ KEYWORDS, ∃ c cs, kw.toList = c :: cs ∧ c.isLower = false := by
  have h : (KEYWORDS.all fun kw => match kw.toList with | c :: _ => !c.isLower | [] => false) = true := by decide +kernel
  intro kw hk
  have := List.all_eq_true.mp h kw hk
  split at this
  · rename_i c cs e; exact ⟨c, cs, e, by simpa using this⟩
  · cases this

theorem accFormal_name {x : Text} {ts : Tokens} (h : AccFormal x ts) (hf : ∀ t ∈ ts, Fine t) :
    Name x ∧ ∀ kw ∈ KEYWORDS, x ≠ kw.toList := by
  cases h with
  | plain h => exact ⟨(hf _ List.mem_cons_self).upper h, h.2.2.2⟩
  | governed _ _ h =>
    rcases h with h | h
    · refine ⟨(hf _ (by simp)).lower h, fun kw hk e => ?_⟩
      obtain ⟨_, _, c, cs, e1, hc⟩ := h
      obtain ⟨c', cs', e2, hc'⟩ := keywords_upper kw hk
      rw [e1, e2] at e
      cases e
      rw [hc] at hc'
      cases hc'
    · exact ⟨(hf _ (by simp)).upper h, h.2.2.2⟩

theorem fine_unplaced {t : Token} (h : Fine t) : Fine t.unplaced :=
  ⟨⟨h.gen.word, h.gen.name, h.gen.dot, h.gen.field, h.gen.number⟩, h.word, h.other, h.keyword⟩

theorem accDef_deep {d : ParsedDef} {ts : Tokens} (h : AccDef d ts) (hf : ∀ t ∈ ts, Fine t) : DefDeep d := by
  cases h with
  | value hi h _ _ => exact ⟨(hf _ List.mem_cons_self).lower hi, accType_deep h fun t ht => hf t (by simp [ht]), nofun⟩
  | type hi _ h => exact ⟨(hf _ List.mem_cons_self).upper hi, accType_deep h fun t ht => hf t (by simp [ht]), nofun⟩
  | parameterized hi _ hp _ _ _ h =>
    refine ⟨(hf _ List.mem_cons_self).upper hi, accType_deep h fun t ht => hf t (by simp [ht]), ?_⟩
    intro names tokens e
    cases e
    refine ⟨followed_all hp (fun t ht => hf t (by simp [ht])) fun _ _ => accFormal_name, fun t ht => ?_⟩
    obtain ⟨t0, h0, rfl⟩ := List.mem_map.mp ht
    exact fine_unplaced (hf t0 (by simp [h0]))
  | «class» hi _ h => exact ⟨(hf _ List.mem_cons_self).upper hi.1, accClass_deep h fun t ht => hf t (by simp [ht]), nofun⟩
  | object hi _ _ _ => exact ⟨(hf _ List.mem_cons_self).lower hi, trivial, nofun⟩
  | objectSet hi _ _ _ h _ => exact ⟨(hf _ List.mem_cons_self).upper hi, accSetItems_unread h, nofun⟩

theorem accDefs_deep {ds : List ParsedDef} {ts : Tokens} (h : AccDefs ds ts) (hf : ∀ t ∈ ts, Fine t) : ∀ d ∈ ds, DefDeep d := by
  induction h with
  | nil => nofun
  | cons h _ ih =>
    intro d hd
    rcases List.mem_cons.mp hd with rfl | hd
    · exact accDef_deep h fun t ht => hf t (List.mem_append_left _ ht)
    · exact ih (fun t ht => hf t (List.mem_append_right _ ht)) d hd

/-- The names in a module. -/
def PModuleDeep (m : ParsedModule) : Prop := ∀ p ∈ m.definitions, p.1 = p.2.id ∧ DefDeep p.2

theorem accModule_deep {m : ParsedModule} {ts : Tokens} (h : AccModule m ts) (hf : ∀ t ∈ ts, Fine t) : PModuleDeep m := by
  cases h with
  | mk _ _ _ _ _ _ _ hd _ _ hl =>
    intro p hp
    obtain ⟨d, h, rfl⟩ := List.mem_map.mp (lastOf_mem hl hp)
    exact ⟨rfl, accDefs_deep hd (fun t ht => hf t (by simp [ht])) d h⟩

theorem accModules_deep {ms : List ParsedModule} {ts : Tokens} (h : AccModules ms ts) (hf : ∀ t ∈ ts, Fine t) :
    ∀ m ∈ ms, PModuleDeep m := by
  induction h with
  | one h =>
    intro m hm
    cases List.mem_singleton.mp hm
    exact accModule_deep h hf
  | more h _ ih =>
    intro m hm
    rcases List.mem_cons.mp hm with rfl | hm
    · exact accModule_deep h fun t ht => hf t (List.mem_append_left _ ht)
    · exact ih (fun t ht => hf t (List.mem_append_right _ ht)) m hm

/-- A module of the files. -/
def ReadModule (u : Unicode) (n : Nat) (M : Module) : Prop := ∃ m, PModuleDeep m ∧ M = m.toModule u n

theorem readArg_deep {u : Unicode} {n : Nat} {a : Arg} {pms : List ParsedModule} (h : readArg u n a = .ok pms) :
    ∀ m ∈ pms, PModuleDeep m := by
  cases a with
  | missing => cases h
  | binary => cases h
  | text cs =>
    unfold readArg at h
    obtain ⟨ts, ht, h⟩ := Out.bind_ok.mp h
    have ht : tokenize u cs = .ok ts := by
      cases hx : tokenize u cs with
      | ok t => rw [hx] at ht; cases ht; rfl
      | _ => rw [hx] at ht; cases ht
    have hp : parse n ts = .ok pms := by
      cases hx : parse n ts with
      | ok t => rw [hx] at h; cases h; rfl
      | _ => rw [hx] at h; cases h
    exact accModules_deep (Props.C123_accepted u cs ts n pms ht hp) fun t hm =>
      fine_of_tokenize ht t (List.mem_filter.mp hm).1

theorem addModules_read {u : Unicode} {n : Nat} {pms : List ParsedModule} (h : ∀ m ∈ pms, PModuleDeep m) {ms : List Module}
    (hms : ∀ M ∈ ms, ReadModule u n M) : ∀ M ∈ addModules u n ms pms, ReadModule u n M := by
  unfold addModules
  have h : ∀ m ∈ pms.reverse, PModuleDeep m := fun m hm => h m (List.mem_reverse.mp hm)
  generalize pms.reverse = l at h
  induction l generalizing ms with
  | nil => exact hms
  | cons m l ih =>
    refine ih ?_ fun m hm => h m (List.mem_cons_of_mem _ hm)
    intro M hM
    unfold addModule at hM
    dsimp only at hM
    rcases List.mem_cons.mp hM with rfl | hM
    · exact ⟨m, h m List.mem_cons_self, rfl⟩
    · exact hms M (List.mem_filter.mp hM).1

theorem readArgs_names {u : Unicode} {n : Nat} : {args : List Arg} → {ms ms' : List Module} → (∀ M ∈ ms, ReadModule u n M) →
    readArgs u n ms args = .ok ms' → ∀ M ∈ ms', ReadModule u n M
  | [], _, _, h, e => by cases e; exact h
  | a :: as, ms, ms', h, e => by
    rw [readArgs] at e
    obtain ⟨pms, hp, e⟩ := Out.bind_ok.mp e
    exact readArgs_names (addModules_read (readArg_deep hp) h) e

/-! ## All types of the modules -/

theorem isClass_deep {u : Unicode} {n : Nat} {ms : List Module} (h : ∀ M ∈ ms, ReadModule u n M) {fs : List (Text × ClassField)}
    (hc : IsClass ms fs) : ∀ f ∈ fs, FieldDeep f.2 := by
  obtain ⟨M, hM, c, d, hd, hk⟩ := hc
  obtain ⟨m, hm, rfl⟩ := h M hM
  obtain ⟨p, hp, e⟩ := List.mem_map.mp hd
  cases e
  have := (hm p hp).2.kind
  have hk : p.2.kind = .class fs := hk
  rw [hk] at this
  exact this

theorem set_deep {u : Unicode} {n : Nat} {fs : List (Text × ClassField)} (hc : ∀ f ∈ fs, FieldDeep f.2)
    {l r : List SetElement} (hl : ∀ e ∈ l, Unread e) (h : mapOut (parseElementOfClass u n fs) l.reverse = .ok r)
    {o : ObjectValue} (ho : SetElement.object o ∈ r) {ty : AsnType} (hty : FieldType ty o) : Deep ty := by
  obtain ⟨x, hx, he⟩ := (mapOut_ok h).mem_right _ ho
  have hu := hl x (List.mem_reverse.mp hx)
  match x, hu with
  | .object (.input s), _ =>
    rw [parseElementOfClass] at he
    obtain ⟨v, hv, he⟩ := Out.bind_ok.mp he
    cases he
    exact parseObject_deep hc hv hty
  | .objectRef _, _ => rw [parseElementOfClass] at he <;> first | (cases he; done) | nofun
  | .setRef _, _ => rw [parseElementOfClass] at he <;> first | (cases he; done) | nofun

theorem typeIn_deep {u : Unicode} {n : Nat} {ms : List Module} (h : ∀ M ∈ ms, ReadModule u n M) {ty : AsnType}
    (ht : TypeIn ms ty) : Deep ty := by
  have key : ∀ M ∈ ms, ∀ k d, (k, d) ∈ M.definitions → AssignDeep d.kind := by
    intro M hM k d hd
    obtain ⟨m, hm, rfl⟩ := h M hM
    obtain ⟨p, hp, e⟩ := List.mem_map.mp hd
    cases e
    exact (hm p hp).2.kind
  cases ht with
  | type hM hd => exact key _ hM _ _ hd
  | value hM hd => exact key _ hM _ _ hd
  | object hM hd hc hr hty =>
    have hcd := isClass_deep h hc
    obtain ⟨m, hm, rfl⟩ := h _ hM
    exact parseObject_deep hcd hr hty
  | @fields M k cls o hM hd hty =>
    cases o with
    | input s => cases hty
    | fields fs => exact (key _ hM _ _ hd).elim
  | set hM hd hc hr ho hty =>
    have hcd := isClass_deep h hc
    have hu : ∀ e ∈ _ ++ _, Unread e := key _ hM _ _ hd
    obtain ⟨m, hm, rfl⟩ := h _ hM
    obtain ⟨a, ha, hr⟩ := Out.bind_ok.mp hr
    obtain ⟨b, hb, hr⟩ := Out.bind_ok.mp hr
    cases hr
    rcases List.mem_append.mp ho with ho | ho
    · exact set_deep hcd (fun e he => hu e (List.mem_append_left _ he)) ha ho hty
    · exact set_deep hcd (fun e he => hu e (List.mem_append_right _ he)) hb ho hty

theorem appears_deep {u : Unicode} {n : Nat} {ms : List Module} (h : ∀ M ∈ ms, ReadModule u n M) {ty : AsnType}
    (ht : Appears ms ty) : Deep ty := by
  induction ht with
  | written ht => exact typeIn_deep h ht
  | part _ hp ih => exact ih.part hp
  | @expansion t ps cs M d e ty _ hM hd hp he ih =>
    have hps : ∀ p ∈ ps, PFine p.text := ih.shallow
    obtain ⟨m, hm, rfl⟩ := h _ hM
    obtain ⟨p, hpm, e'⟩ := List.mem_map.mp hd
    cases e'
    obtain ⟨⟨names, tokens⟩, h1, h2⟩ := Option.map_eq_some_iff.mp hp
    subst h2
    obtain ⟨hn, hf⟩ := (hm p hpm).2.params names tokens h1
    unfold applyParams at he
    split at he
    · cases he
    · obtain ⟨⟨ty', rest⟩, hr, he⟩ := Out.bind_ok.mp he
      cases he
      exact parseType_deep hr (substitute_fine hn hps hf)

theorem definition_name {u : Unicode} {n : Nat} {M : Module} (h : ReadModule u n M) {k : Text} {d : Definition}
    (hd : (k, d) ∈ M.definitions) : Name k := by
  obtain ⟨m, hm, rfl⟩ := h
  obtain ⟨p, hpm, e⟩ := List.mem_map.mp hd
  cases e
  rw [(hm p hpm).1]
  exact (hm p hpm).2.id

end Hampi.Compiler
