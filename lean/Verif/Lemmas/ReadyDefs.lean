import Verif.Lemmas.Plain3
/-! # Lemmas about resolving a schema in which every definition has a meaning: definitions -/
namespace Hampi.Compiler
open Hampi.Compiler.Spec
open Hampi.Spec (Numeral)

theorem Ev.list {α : Type} {P : α → Nat → Prop} : ∀ {l : List α}, (∀ x ∈ l, Ev (P x)) → Ev fun n => ∀ x ∈ l, P x n
  | [], _ => .all fun _ _ h => nomatch h
  | a :: l, h => ((h a List.mem_cons_self).and (Ev.list fun x hx => h x (List.mem_cons_of_mem _ hx))).imp
      fun n hn x hx => by
        rcases List.mem_cons.mp hx with rfl | hx
        · exact hn.1
        · exact hn.2 x hx

theorem mapOut_all2 {ε α β : Type} {f : α → Out ε β} {Q : α → β → Prop} :
    ∀ {l : List α}, (∀ x ∈ l, ∃ y, f x = .ok y ∧ Q x y) → ∃ ys, mapOut f l = .ok ys ∧ All2 Q l ys
  | [], _ => ⟨[], rfl, .nil⟩
  | a :: l, h => by
      obtain ⟨y, h1, h2⟩ := h a List.mem_cons_self
      obtain ⟨ys, h3, h4⟩ := mapOut_all2 (l := l) fun x hx => h x (List.mem_cons_of_mem _ hx)
      exact ⟨y :: ys, by simp [mapOut, h1, h3, Out.bind], .cons h2 h4⟩

section
variable {ms : List Module} {R : Resolver}

/-- Whatever a type is resolved to is what it means. -/
theorem described_means (h : ProperSchema ms) {lax : Bool} {σ : Scope} {ty : AsnType} {t : Ty}
    (hd : Describes lax ms σ ty t) (hσ : σ.In ms) {S : Text → Prop} (hc : Ctx ms R S) (hsup : Supplied ms S σ)
    (hr : Has ms S σ ty.refs) {n : Nat} {rt : RType} (h1 : resolveType n R ty = .ok rt) : Means R rt t := by
  obtain ⟨n₀, hn⟩ := resolve_described h hd hσ
  obtain ⟨rt', h2, h3⟩ := hn (n + n₀) (by omega) R S hc hsup hr
  rw [resolveType_more (show n ≤ n + n₀ by omega) h1] at h2
  cases h2
  exact h3

theorem integer_shape {v : ValueSet} {b : RBase} (h : integerOfValueset v = .ok b) : ∃ w s c, b = .integer w s c := by
  unfold integerOfValueset at h
  dsimp only at h
  obtain ⟨w, _, h⟩ := Out.bind_ok.mp h
  exact ⟨_, _, _, (Out.ok.inj h).symm⟩

/-- What is behind a type is behind what it is resolved to. -/
theorem resolve_behind {S : Text → Prop} (hc : Ctx ms R S) {j : Nat} {M : Module} (hM : M ∈ ms) {ty : AsnType} {k : Kind}
    (hk : Scalar k) (hb : BehindN ms j M ty k) (hr : Has ms S (.module M) ty.refs) {n : Nat} {rt : RType}
    (h1 : resolveType n R ty = .ok rt) : RBehind R k j rt := by
  cases n with
  | zero => cases h1
  | succ n =>
    cases hb with
    | here =>
      cases hk with
      | integer =>
        rename_i cs named
        simp only [resolveType, resolveBase] at h1
        cases hb : resolveInteger R.env (.mk (.integer named) cs) with
        | ok b =>
          rw [hb] at h1
          cases h1
          have : ∃ w s c, b = .integer w s c := by
            unfold resolveInteger at hb
            split at hb
            · cases hb; exact ⟨_, _, _, rfl⟩
            · cases hb; exact ⟨_, _, _, rfl⟩
            · cases hv : (AsnType.mk (.integer named) cs).valueset R.env with
              | ok v =>
                rw [hv] at hb
                exact integer_shape hb
              | err e => simp only [hv, Out.bind] at hb; cases hb
              | panic => simp only [hv, Out.bind] at hb; cases hb
              | diverge => simp only [hv, Out.bind] at hb; cases hb
          obtain ⟨_, _, _, rfl⟩ := this
          exact .here .integer
        | err e => rw [hb] at h1; cases h1
        | panic => rw [hb] at h1; cases h1
        | diverge => rw [hb] at h1; cases h1
      | enumerated =>
        rename_i cs vs marker add
        simp only [resolveType, resolveBase, resolveEnumerated] at h1
        cases h2 : explicitNumbers vs with
        | ok b1 =>
          cases h3 : explicitNumbers add with
          | ok b2 =>
            rw [h2, h3] at h1
            cases h1
            exact .here .enumerated
          | err e => rw [h2, h3] at h1; cases h1
          | panic => rw [h2, h3] at h1; cases h1
          | diverge => rw [h2, h3] at h1; cases h1
        | err e => rw [h2] at h1; cases h1
        | panic => rw [h2] at h1; cases h1
        | diverge => rw [h2] at h1; cases h1
    | reference hs hb =>
      rename_i j r cs N ty
      have hS := hr r (refs_mk (by rw [Kind.refs]; exact List.mem_singleton.mpr rfl)) _ _ hs
      obtain ⟨hN, hdef⟩ := hs.mem hM
      obtain ⟨rt', h2, _, h3⟩ := hc.ready r hS _ hN _ hdef
      simp only [resolveType, h2] at h1
      cases h1
      exact .reference h2 (h3 _ _ hk hb)

theorem resolve_number {named : Option (List (Text × NamedValue))} {j : Nat} {rt : RType}
    (hb : RBehind R (.integer named) j rt) {num : Text} {v : Int} (hnum : Numeral num v) (hfit : fits128 v)
    (hnone : get R.resolved num = none) :
    ∀ n, j < n → ∃ rv, resolveValue n R num rt = .ok rv ∧ rv.baseInteger = some v ∧ (j = 0 → rv = .integer v) := by
  induction hb with
  | here h =>
    intro n hn
    obtain ⟨n, rfl⟩ : ∃ m, n = m + 1 := ⟨n - 1, by omega⟩
    cases h
    exact ⟨.integer v, by simp [resolveValue, hnone, parseI128_complete hnum hfit], rfl, fun _ => rfl⟩
  | @reference j r rt h _ ih =>
    intro n hn
    obtain ⟨n, rfl⟩ : ∃ m, n = m + 1 := ⟨n - 1, by omega⟩
    obtain ⟨rv, h1, h2, _⟩ := ih n (by omega)
    exact ⟨.referencedType r rv, by simp [resolveValue, hnone, h, h1, Out.bind], h2, fun h => by omega⟩

theorem resolve_enumerator {vs : List EnumValue} {marker : Option Nat} {add : List EnumValue} {j : Nat} {rt : RType}
    (hb : RBehind R (.enumerated vs marker add) j rt) {v : Text} (hnone : get R.resolved v = none) :
    ∀ n, j < n → ∃ rv, resolveValue n R v rt = .ok rv := by
  induction hb with
  | here h =>
    intro n hn
    obtain ⟨n, rfl⟩ : ∃ m, n = m + 1 := ⟨n - 1, by omega⟩
    cases h
    exact ⟨.enum 0, by simp [resolveValue, hnone]⟩
  | @reference j r rt h _ ih =>
    intro n hn
    obtain ⟨n, rfl⟩ : ∃ m, n = m + 1 := ⟨n - 1, by omega⟩
    obtain ⟨rv, h1⟩ := ih n (by omega)
    exact ⟨.referencedType r rv, by simp [resolveValue, hnone, h, h1, Out.bind]⟩

/-- What is known comes from the schema. -/
structure Known (ms : List Module) (R : Resolver) : Prop where
  resolved : ∀ x, (get R.resolved x).isSome → ∃ N ∈ ms, ∃ d, (x, d) ∈ N.definitions
  params : ∀ x e, get R.params x = some e → ∃ N ∈ ms, ∃ k, (x, ⟨k, some e⟩) ∈ N.definitions
  classes : ∀ x cf, get R.classes x = some cf → ∃ N ∈ ms, (x, ⟨.class cf, none⟩) ∈ N.definitions
  types : ∀ x rt, get R.resolved x = some (.type rt) → ∃ N ∈ ms, ∃ ty, (x, ⟨.type ty, none⟩) ∈ N.definitions
  sorted : KeySorted R.resolved

theorem Known.numeral (h : ProperSchema ms) (hk : Known ms R) {num : Text} {v : Int} (hn : Numeral num v) :
    get R.resolved num = none := by
  cases hg : get R.resolved num with
  | none => rfl
  | some e =>
    obtain ⟨N, hN, d, hd⟩ := hk.resolved num (by rw [hg]; rfl)
    exact absurd hn ((h.names N hN _ hd).numeral v)

theorem class_refs {cf : List (Text × ClassField)} {f id : Text} {ty : AsnType} {u opt : Bool} {d : Option Text} {w : Option Text}
    (hm : (f, ClassField.fixedTypeValue id ty u opt d w) ∈ cf) {r : Text} (hr : r ∈ ty.refs) :
    r ∈ (Assignment.class cf).refs := by
  rw [Assignment.refs]
  exact List.mem_flatMap.mpr ⟨_, hm, by simpa [ClassField.refs] using hr⟩

/-- A field of an object is resolved. -/
theorem resolve_field (h : ProperSchema ms) {M : Module} (hM : M ∈ ms) {cls : Text} {K : Module}
    {cf : List (Text × ClassField)} (hcls : Sees ms M cls K ⟨.class cf, none⟩) {f : Text × ObjectField}
    (hp : ProperField ms M K cf f) :
    Ev fun n => ∀ R S, Ctx ms R S → Known ms R → (∀ r N d, Imports ms M r N d → S r) → S cls →
      (∀ ty, f.2 = .type (some ty) → Has ms S (.module M) ty.refs) →
      ∃ rf, resolveField n R f.2 = .ok rf ∧ RepField ms R cls M f (f.1, rf) := by
  obtain ⟨hK, hKd⟩ := hcls.mem hM
  cases hp with
  | type _ hd =>
    refine (resolve_described h hd hM).imp fun n hn R S hc hk hsup hS hr => ?_
    have hr := hr _ rfl
    obtain ⟨rt, h1, _⟩ := hn R S hc hsup hr
    refine ⟨.type (some rt), by simp [resolveField, h1, Out.bind], .type (fun lax t hd' =>
      described_means h hd' hM hc hsup hr h1) fun r cs he => ?_⟩
    subst he
    cases n with
    | zero => cases h1
    | succ n =>
      simp only [resolveType] at h1
      split at h1
      · cases h1; rfl
      · cases h1
  | value hm hv =>
    rename_i f ty v id u opt d w
    cases h.proper _ hK _ hKd with
    | «class» _ hct =>
      obtain ⟨t, ht⟩ := hct _ _ _ _ _ _ _ hm
      have hval : Ev fun n => ∀ R S, Ctx ms R S → Known ms R → (∀ r N d, Imports ms M r N d → S r) →
          Has ms S (.module K) ty.refs →
          ∀ m rt, resolveType m R ty = .ok rt → ∃ rv, resolveValue n R v rt = .ok rv := by
        cases hv with
        | named hi =>
          refine .step (.all fun n R S hc hk hsup _ m rt _ => ?_)
          obtain ⟨rv, h1, _⟩ := hc.ready v (hsup _ _ _ hi) _ hi.2.1 _ hi.2.2
          exact ⟨.reference v, by simp [resolveValue, h1]⟩
        | number hnum hfit hb =>
          obtain ⟨j, hj⟩ := behindN hb
          refine ⟨j + 1, fun n hn R S hc hk hsup hr m rt h1 => ?_⟩
          obtain ⟨rv, h2, _⟩ := resolve_number (resolve_behind hc hK .integer hj hr h1) hnum hfit (hk.numeral h hnum)
            n (by omega)
          exact ⟨rv, h2⟩
        | enumerated hno hb =>
          obtain ⟨j, hj⟩ := behindN hb
          refine ⟨j + 1, fun n hn R S hc hk hsup hr m rt h1 => ?_⟩
          refine resolve_enumerator (resolve_behind hc hK .enumerated hj hr h1) ?_ n (by omega)
          cases hg : get R.resolved v with
          | none => rfl
          | some e =>
            obtain ⟨N, hN, d, hd⟩ := hk.resolved v (by rw [hg]; rfl)
            exact absurd hd (hno N hN d)
      refine ((resolve_described h ht hK).and hval).imp fun n hn R S hc hk hsup hS hr => ?_
      obtain ⟨hcl1, hcl2⟩ := hc.closed cls hS K hK _ hKd
      have hr' : Has ms S (.module K) ty.refs := fun r hx N d hs => hcl1 r (class_refs hm hx) N d hs
      have hsup' : Supplied ms S (.module K) := hcl2
      obtain ⟨rt, h1, _⟩ := hn.1 R S hc hsup' hr'
      obtain ⟨rv, h2⟩ := hn.2 R S hc hk hsup hr' n rt h1
      refine ⟨.fixedTypeValue rt (some rv), by simp [resolveField, h1, resolveFieldValue, h2, Out.bind],
        .value (fun K' cf' lax t' hs hd' => ?_) fun N a b hi => ?_⟩
      · obtain ⟨rfl, _⟩ := sees_unique h hM hM hs hcls
        exact described_means h hd' hK hc hsup' hr' h1
      · obtain ⟨rv', h3, _⟩ := hc.ready v (hsup _ _ _ hi) _ hi.2.1 _ hi.2.2
        cases n with
        | zero => cases h1
        | succ n =>
          simp only [resolveValue, h3] at h2
          cases h2
          rfl

/-- An object is resolved. -/
theorem resolve_object (h : ProperSchema ms) {M : Module} (hM : M ∈ ms) {cls : Text} {K : Module}
    {cf : List (Text × ClassField)} (hcls : Sees ms M cls K ⟨.class cf, none⟩) {fs : List (Text × ObjectField)}
    (hp : ProperObject ms M K cf fs) :
    Ev fun n => ∀ R S, Ctx ms R S → Known ms R → (∀ r N d, Imports ms M r N d → S r) → S cls →
      (∀ f ty, (f, .type (some ty)) ∈ fs → Has ms S (.module M) ty.refs) →
      ∃ ro, resolveObject n R (.fields fs) = .ok ro ∧ Represents ms R cls (M, fs) ro := by
  refine (Ev.list fun f hf => resolve_field h hM hcls (hp.2 f hf)).imp fun n hn R S hc hk hsup hS hr => ?_
  obtain ⟨l, h1, h2⟩ := mapOut_all2 (f := fun p : Text × ObjectField => (resolveField n R p.2).bind fun f => .ok (p.1, f))
    (Q := RepField ms R cls M) (l := fs) fun f hf => by
      obtain ⟨rf, h1, h2⟩ := hn f hf R S hc hk hsup hS fun ty he => hr f.1 ty (by rw [← he]; exact hf)
      exact ⟨(f.1, rf), by simp [h1, Out.bind], h2⟩
  exact ⟨⟨l⟩, by rw [resolveObject, h1]; rfl, h2⟩

/-! ## Object sets -/

theorem firstUnique_of {cf : List (Text × ClassField)} {u : Text} (hu : UniqueField cf u) : firstUnique cf = some u := by
  obtain ⟨⟨id, ty, opt, d, w, hm⟩, hall⟩ := hu
  unfold firstUnique
  cases hf : cf.find? (fun p => match p.2 with
    | .fixedTypeValue _ _ unique _ _ _ => unique
    | .type .. => false) with
  | none => exact absurd (List.find?_eq_none.mp hf _ hm) (by simp)
  | some p =>
    have hp := List.find?_some hf
    have hpm := List.mem_of_find?_eq_some hf
    obtain ⟨f, c⟩ := p
    cases c with
    | fixedTypeValue id ty unique opt d w =>
      dsimp only at hp
      subst hp
      rw [Option.map_some, hall _ _ _ _ _ _ hpm]
    | type => cases hp

theorem firstUnique_none {cf : List (Text × ClassField)}
    (hu : ∀ f id ty opt d w, (f, .fixedTypeValue id ty true opt d w) ∉ cf) : firstUnique cf = none := by
  unfold firstUnique
  cases hf : cf.find? (fun p => match p.2 with
    | .fixedTypeValue _ _ unique _ _ _ => unique
    | .type .. => false) with
  | none => rfl
  | some p =>
    have hp := List.find?_some hf
    have hpm := List.mem_of_find?_eq_some hf
    obtain ⟨f, c⟩ := p
    cases c with
    | fixedTypeValue id ty unique opt d w =>
      dsimp only at hp
      subst hp
      exact absurd hpm (hu _ _ _ _ _ _)
    | type => cases hp

theorem tablePut_nodup {t : List ((Text × Text) × RObject)} (h : (t.map (·.1)).Nodup) (k : Text × Text) (o : RObject) :
    ((tablePut t k o).map (·.1)).Nodup := by
  unfold tablePut
  rw [List.map_cons, List.nodup_cons]
  refine ⟨?_, List.Nodup.sublist (List.Sublist.map _ List.filter_sublist) h⟩
  intro hm
  obtain ⟨e, he, hk⟩ := List.mem_map.mp hm
  have := (List.mem_filter.mp he).2
  simp [hk] at this

theorem tablePut_has {t : List ((Text × Text) × RObject)} {k : Text × Text} (k' : Text × Text) (o' : RObject)
    (h : ∃ o, (k, o) ∈ t) : ∃ o, (k, o) ∈ tablePut t k' o' := by
  obtain ⟨o, ho⟩ := h
  by_cases hk : k = k'
  · subst hk
    exact ⟨o', Props.mem_tablePut.mpr (.inl rfl)⟩
  · exact ⟨o, Props.mem_tablePut.mpr (.inr ⟨ho, hk⟩)⟩

theorem foldTable (t : List ((Text × Text) × RObject)) : ∀ (l : List ((Text × Text) × RObject)),
    ((t.map (·.1)).Nodup → ((l.foldr (fun e t => tablePut t e.1 e.2) t).map (·.1)).Nodup) ∧
    (∀ e ∈ l.foldr (fun e t => tablePut t e.1 e.2) t, e ∈ l ∨ e ∈ t) ∧
    ∀ k, ((∃ o, (k, o) ∈ l) ∨ ∃ o, (k, o) ∈ t) → ∃ o, (k, o) ∈ l.foldr (fun e t => tablePut t e.1 e.2) t
  | [] => ⟨fun h => h, fun e h => .inr h, fun k h => by
      rcases h with ⟨o, h⟩ | h
      · cases h
      · exact h⟩
  | a :: l => by
      obtain ⟨h1, h2, h3⟩ := foldTable t l
      refine ⟨fun h => tablePut_nodup (h1 h) _ _, fun e he => ?_, fun k h => ?_⟩
      · rcases Props.mem_tablePut.mp he with rfl | ⟨he, _⟩
        · exact .inl List.mem_cons_self
        · rcases h2 e he with he | he
          · exact .inl (List.mem_cons_of_mem _ he)
          · exact .inr he
      · rw [List.foldr_cons]
        rcases h with ⟨o, h⟩ | h
        · rcases List.mem_cons.mp h with h | h
          · refine ⟨a.2, Props.mem_tablePut.mpr (.inl ?_)⟩
            rw [← h]
          · exact tablePut_has _ _ (h3 k (.inl ⟨o, h⟩))
        · exact tablePut_has _ _ (h3 k (.inr h))

/-- The key of an object is one number. -/
theorem key_ready {S : Text → Prop} (hc : Ctx ms R S) {o : Written} (hi : ∀ r N d, Imports ms o.1 r N d → S r) {u name : Text} {k : Int}
    (hk : KeyOf ms o u name k) : ∃ rv, get R.resolved name = some (.value rv) ∧ rv.baseInteger = some k := by
  obtain ⟨ty, N, a, _, himp, hd⟩ := hk
  have hr := hc.ready name (hi _ _ _ himp) N himp.2.1 _ himp.2.2
  have hd' := hd
  obtain ⟨ty', num, named, rfl, _⟩ := hd'
  obtain ⟨rv, h1, h2, _⟩ := hr
  exact ⟨rv, h1, h2 _ hd⟩

/-- What adding objects to a set does. -/
structure Adds (ms : List Module) (R : Resolver) (cls : Text) (cf : List (Text × ClassField)) (os : List Written)
    (s s' : RObjectSet) : Prop where
  elements : ∃ els, s'.elements = s.elements ++ els ∧ All2 (Represents ms R cls) os els
  keys : (s.table.map (·.1)).Nodup → (s'.table.map (·.1)).Nodup
  table : ∀ u, UniqueField cf u → ∀ os', TabOk ms R cls u os' s.table → TabOk ms R cls u (os' ++ os) s'.table

theorem Adds.trans {cls : Text} {cf : List (Text × ClassField)} {os os' : List Written} {s s' s'' : RObjectSet}
    (h : Adds ms R cls cf os s s') (h' : Adds ms R cls cf os' s' s'') : Adds ms R cls cf (os ++ os') s s'' := by
  obtain ⟨els, h1, h2⟩ := h.elements
  obtain ⟨els', h3, h4⟩ := h'.elements
  refine ⟨⟨els ++ els', by rw [h3, h1, List.append_assoc], h2.append h4⟩, fun hn => h'.keys (h.keys hn),
    fun u hu ps ht => ?_⟩
  rw [← List.append_assoc]
  exact h'.table u hu _ (h.table u hu _ ht)

/-- An object is added to a set. -/
theorem add_object {S : Text → Prop} (hc : Ctx ms R S) {cls : Text} {cf : List (Text × ClassField)}
    {o : Written} (hi : ∀ r N d, Imports ms o.1 r N d → S r) (hnd : (o.2.map (·.1)).Nodup)
    (hkey : ProperKey ms cf o) {ro : RObject} (hr : Represents ms R cls o ro) (s : RObjectSet) :
    ∃ s', addObject R (firstUnique cf) s ro = .ok s' ∧ Adds ms R cls cf [o] s s' := by
  rcases hkey with hno | ⟨u, name, k, hu, hkey⟩
  · rw [firstUnique_none hno]
    refine ⟨_, rfl, ⟨[ro], rfl, .cons hr .nil⟩, fun h => h, fun u hu => ?_⟩
    obtain ⟨⟨id, ty, opt, d, w, hm⟩, _⟩ := hu
    exact absurd hm (hno _ _ _ _ _ _)
  · rw [firstUnique_of hu]
    obtain ⟨rv, h1, h2⟩ := key_ready hc hi hkey
    have hkey' := hkey
    obtain ⟨ty, N, a, hm, himp, hd⟩ := hkey'
    obtain ⟨y, h3, h4⟩ := represents_get hr hnd hm
    have hd' := hd
    obtain ⟨ty', num, named, rfl, _⟩ := hd'
    cases h4 with
    | value _ hv =>
      have := hv _ _ _ himp
      subst this
      refine ⟨{ elements := s.elements ++ [ro], table := tablePut s.table (showInt k, name) ro }, ?_,
        ⟨[ro], rfl, .cons hr .nil⟩, fun h => tablePut_nodup h _ _, fun u' hu' os' ht => ?_⟩
      · simp only [addObject, h3, h1, h2]
      · have hu'' : u' = u := by
          obtain ⟨⟨id, ty, opt, d, w, hm'⟩, _⟩ := hu'
          exact hu.2 _ _ _ _ _ _ hm'
        subst hu''
        refine ⟨fun e he => ?_, fun p hp name' k' hkp => ?_⟩
        · rcases Props.mem_tablePut.mp he with rfl | ⟨he, _⟩
          · exact ⟨o, by simp, k, hr, hkey, rfl⟩
          · obtain ⟨p, hp, q⟩ := ht.sound e he
            exact ⟨p, List.mem_append_left _ hp, q⟩
        · rcases List.mem_append.mp hp with hp | hp
          · exact tablePut_has _ _ (ht.complete p hp name' k' hkp)
          · rw [List.mem_singleton] at hp
            subst hp
            obtain ⟨rv', h5, h6⟩ := key_ready hc hi hkp
            obtain ⟨ty2, N2, a2, hm2, _⟩ := hkp
            have := nodup_same hnd hm hm2
            injection this with _ this
            injection this with this
            subst this
            rw [h1] at h5
            cases h5
            rw [h2] at h6
            cases h6
            exact ⟨ro, Props.mem_tablePut.mpr (.inl rfl)⟩

/-- An element is added to a set. -/
theorem add_element (h : ProperSchema ms) {M : Module} (hM : M ∈ ms) {cls : Text} {K : Module}
    {cf : List (Text × ClassField)} (hcls : Sees ms M cls K ⟨.class cf, none⟩) {e : SetElement}
    (hp : ProperElement ms M cls K cf e) :
    Ev fun n => ∀ R S, Ctx ms R S → Known ms R → (∀ r N d, Imports ms M r N d → S r) → S cls →
      Has ms S (.module M) e.refs →
      ∃ os, (∀ es ps, Objects ms cls M es ps → Objects ms cls M (e :: es) (os ++ ps)) ∧
        ∀ s, ∃ s', addElement n R (firstUnique cf) s e = .ok s' ∧ Adds ms R cls cf os s s' := by
  cases hp with
  | setRef hs =>
    rename_i r N root add
    refine .all fun n R S hc hk hsup hS hr => ?_
    obtain ⟨hN, hd⟩ := hs.mem hM
    obtain ⟨s2, os, h1, h2, h3, h4, h5⟩ := hc.ready r (hr r List.mem_cons_self _ _ hs) N hN _ hd
    refine ⟨os, fun es ps hps => .setRef hs h2 hps, fun s => ?_⟩
    obtain ⟨g1, g2, g3⟩ := foldTable s.table s2.table
    refine ⟨⟨s.elements ++ s2.elements, s2.table.foldr (fun e t => tablePut t e.1 e.2) s.table⟩,
      by simp only [addElement, h1], ⟨s2.elements, rfl, h3⟩, g1, fun u hu os' ht => ?_⟩
    have ht2 : TabOk ms R cls u os s2.table := by
      cases h.proper N hN _ hd with
      | objectSet hc1 _ =>
        obtain ⟨rfl, hcf⟩ := sees_unique h hN hM hc1 hcls
        injection hcf with hcf
        injection hcf with hcf
        subst hcf
        exact h5 _ _ _ hc1 hu
    refine ⟨fun e he => ?_, fun p hp name k hkp => ?_⟩
    · rcases g2 e he with he | he
      · obtain ⟨p, hp, q⟩ := ht2.sound e he
        exact ⟨p, List.mem_append_right _ hp, q⟩
      · obtain ⟨p, hp, q⟩ := ht.sound e he
        exact ⟨p, List.mem_append_left _ hp, q⟩
    · rcases List.mem_append.mp hp with hp | hp
      · exact g3 _ (.inr (ht.complete p hp name k hkp))
      · exact g3 _ (.inl (ht2.complete p hp name k hkp))
  | objectRef hs hkey =>
    rename_i r N fs
    refine .all fun n R S hc hk hsup hS hr => ?_
    obtain ⟨hN, hd⟩ := hs.mem hM
    have hSr := hr r List.mem_cons_self _ _ hs
    obtain ⟨fs', ro, he, h1, h2⟩ := hc.ready r hSr N hN _ hd
    cases he
    refine ⟨[(N, fs)], fun es ps hps => .objectRef hs hps, fun s => ?_⟩
    have hnd : (fs.map (·.1)).Nodup := by
      cases h.proper N hN _ hd with
      | object _ hp _ => exact hp.1
    obtain ⟨s', h3, h4⟩ := add_object hc (o := (N, fs)) (hc.closed r hSr N hN _ hd).2 hnd hkey h2 s
    exact ⟨s', by simp only [addElement, h1, h3], h4⟩
  | object hp hkey =>
    rename_i fs
    refine (resolve_object h hM hcls hp).imp fun n hn R S hc hk hsup hS hr => ?_
    obtain ⟨ro, h1, h2⟩ := hn R S hc hk hsup hS fun f ty hm r hx N d hs => hr r (by
      rw [SetElement.refs, ObjectValue.refs]
      exact List.mem_flatMap.mpr ⟨_, hm, by simpa [ObjectField.refs] using hx⟩) N d hs
    refine ⟨[(M, fs)], fun es ps hps => .object hps, fun s => ?_⟩
    obtain ⟨s', h3, h4⟩ := add_object hc (o := (M, fs)) hsup hp.1 hkey h2 s
    exact ⟨s', by simp only [addElement, h1, Out.bind, h3], h4⟩

theorem add_elements (h : ProperSchema ms) {M : Module} (hM : M ∈ ms) {cls : Text} {K : Module}
    {cf : List (Text × ClassField)} (hcls : Sees ms M cls K ⟨.class cf, none⟩) :
    ∀ {es : List SetElement}, (∀ e ∈ es, ProperElement ms M cls K cf e) →
    Ev fun n => ∀ R S, Ctx ms R S → Known ms R → (∀ r N d, Imports ms M r N d → S r) → S cls →
      (∀ e ∈ es, Has ms S (.module M) e.refs) →
      ∃ os, Objects ms cls M es os ∧
        ∀ s, ∃ s', addElements n R (firstUnique cf) s es = .ok s' ∧ Adds ms R cls cf os s s'
  | [], _ => .all fun n R S _ _ _ _ _ => ⟨[], .nil, fun s => ⟨s, rfl, ⟨[], by simp, .nil⟩, fun h => h, fun u _ os' ht => by
      rw [List.append_nil]; exact ht⟩⟩
  | e :: es, hp => by
      refine ((add_element h hM hcls (hp e List.mem_cons_self)).and
        (add_elements h hM hcls (es := es) fun e' he => hp e' (List.mem_cons_of_mem _ he))).imp
        fun n hn R S hc hk hsup hS hr => ?_
      obtain ⟨os, h1, h2⟩ := hn.1 R S hc hk hsup hS (hr e List.mem_cons_self)
      obtain ⟨ps, h3, h4⟩ := hn.2 R S hc hk hsup hS fun e' he => hr e' (List.mem_cons_of_mem _ he)
      refine ⟨os ++ ps, h1 _ _ h3, fun s => ?_⟩
      obtain ⟨s1, g1, g2⟩ := h2 s
      obtain ⟨s2, g3, g4⟩ := h4 s1
      exact ⟨s2, by simp [addElements, g1, Out.bind, g3], g2.trans g4⟩

/-! ## Definitions -/

theorem grows_put (hfresh : get R.resolved x = none) (y : RDef) : Grows R { R with resolved := put R.resolved x y } := by
  refine ⟨fun k e hke => ?_, fun _ _ h => h, fun _ _ h => h⟩
  show get (put R.resolved x y) k = _
  rw [get_put]
  split
  · rename_i hkx
    subst hkx
    rw [hfresh] at hke
    cases hke
  · exact hke

/-- One definition is resolved to what it means. -/
theorem resolve_definition (h : ProperSchema ms) {M : Module} (hM : M ∈ ms) {x : Text} {d : Definition}
    (hd : (x, d) ∈ M.definitions) :
    Ev fun n => ∀ R S, Ctx ms R S → Known ms R → get R.resolved x = none → (∀ r N e, Imports ms M r N e → S r) →
      Has ms S (.module M) d.kind.refs →
      ∃ R', resolveOne n M.definitions R x = .ok R' ∧ Grows R R' ∧ Ready ms R' x ∧ Known ms R' ∧
        ∀ k, (get R'.resolved k).isSome → (get R.resolved k).isSome ∨ k = x := by
  have hget := get_of_mem (h.definitions M hM) hd
  have hkeys : ∀ (R : Resolver) y k, (get (put R.resolved x y) k).isSome → (get R.resolved k).isSome ∨ k = x := by
    intro R y k hk
    rw [get_put] at hk
    split at hk
    · rename_i e; exact .inr e.symm
    · exact .inl hk
  have hknown : ∀ R y, (∀ rt, y = .type rt → ∃ ty, d = ⟨.type ty, none⟩) → Known ms R →
      Known ms { R with resolved := put R.resolved x y } := by
    intro R y hy hk
    refine ⟨fun k hkk => ?_, hk.params, hk.classes, fun k rt hkk => ?_, hk.sorted.put _ _⟩
    · rcases hkeys R y k hkk with hkk | rfl
      · exact hk.resolved k hkk
      · exact ⟨M, hM, d, hd⟩
    · change get (put R.resolved x y) k = _ at hkk
      rw [get_put] at hkk
      split at hkk
      · rename_i e
        subst e
        obtain ⟨ty, rfl⟩ := hy rt (Option.some.inj hkk)
        exact ⟨M, hM, ty, hd⟩
      · exact hk.types k rt hkk
  have hone : ∀ R' : Resolver, ReadyAs ms R' M x d → Ready ms R' x := by
    intro R' hr N hN e he
    obtain ⟨rfl, rfl⟩ := same_definition h hM hN hd he
    exact hr
  have hnew : ∀ (R : Resolver) y, get (put R.resolved x y) x = some y := by
    intro R y; rw [get_put, if_pos rfl]
  cases h.proper M hM _ hd with
  | type ht =>
    rename_i ty t
    refine (resolve_described h ht hM).imp fun n hn R S hc hk hfresh hsup hr => ?_
    obtain ⟨rt, h1, _⟩ := hn R S hc hsup hr
    refine ⟨{ R with resolved := put R.resolved x (.type rt) }, ?_, grows_put hfresh _, hone _ ?_, hknown _ _ (fun _ _ => ⟨_, rfl⟩) hk,
      hkeys R _⟩
    · simp [resolveOne, hget, resolveDefinition, h1, Out.bind]
    · exact ⟨rt, hnew _ _, fun lax t' hd' => means_grows (grows_put hfresh _) (described_means h hd' hM hc hsup hr h1),
        fun j k hk hb => (resolve_behind hc hM hk hb hr h1).grows (grows_put hfresh _)⟩
  | parameterized =>
    rename_i body expand
    refine .all fun n R S hc hk hfresh hsup hr => ?_
    have hput : ∀ k e, get (put R.params x expand) k = some e → (k = x ∧ e = expand) ∨ get R.params k = some e := by
      intro k e hke
      rw [get_put] at hke
      split at hke
      · rename_i e'; cases hke; exact .inl ⟨e'.symm, rfl⟩
      · exact .inr hke
    refine ⟨{ R with params := put R.params x expand }, by simp [resolveOne, hget], ⟨fun _ _ h => h, fun k e hke => ?_,
      fun _ _ h => h⟩, hone _ ?_, ⟨hk.resolved, fun k e hke => ?_, hk.classes, hk.types, hk.sorted⟩, fun k hkk => .inl hkk⟩
    · show get (put R.params x expand) k = _
      rw [get_put]
      split
      · rename_i e'
        subst e'
        obtain ⟨N, hN, k', hd'⟩ := hk.params _ _ hke
        obtain ⟨_, e2⟩ := same_definition h hM hN hd hd'
        injection e2
      · exact hke
    · show get (put R.params x expand) x = _
      rw [get_put, if_pos rfl]
    · rcases hput k e hke with ⟨rfl, rfl⟩ | hke
      · exact ⟨M, hM, _, hd⟩
      · exact hk.params k e hke
  | value hl ht hnum =>
    rename_i ty num t v
    have hnum' := hnum
    obtain ⟨_, _, named, he, hb, hn1, hfit⟩ := hnum'
    cases he
    obtain ⟨j, hj⟩ := behindN hb
    refine ((resolve_described h ht hM).and ⟨j + 1, fun n hn => hn⟩).imp fun n hn R S hc hk hfresh hsup hr => ?_
    obtain ⟨rt, h1, _⟩ := hn.1 R S hc hsup hr
    have hrb := resolve_behind hc hM .integer hj hr h1
    obtain ⟨rv, h2, h3, _⟩ := resolve_number hrb hn1 hfit (hk.numeral h hn1) n hn.2
    refine ⟨{ R with resolved := put R.resolved x (.value rv) }, ?_, grows_put hfresh _, hone _ ?_, hknown _ _ nofun hk,
      hkeys R _⟩
    · simp [resolveOne, hget, resolveDefinition, h1, h2, Out.bind]
    · refine ⟨rv, hnew _ _, fun v' hv' => ?_, fun v' hv' => ?_⟩
      · obtain ⟨_, _, _, he, _, hn2, _⟩ := hv'
        cases he
        rw [hn2.unique hn1]
        exact h3
      · obtain ⟨named', cs, _, he, _, hn2, _⟩ := hv'
        cases he
        obtain ⟨rv', h4, _, h5⟩ := resolve_number (resolve_behind hc hM .integer (.here (cs := cs)) hr h1) hn1 hfit
          (hk.numeral h hn1) n (by omega)
        rw [h2] at h4
        cases h4
        rw [hn2.unique hn1]
        exact h5 rfl
  | «class» hnd hct =>
    rename_i cf
    refine .all fun n R S hc hk hfresh hsup hr => ?_
    have hput : ∀ k e, get (put R.classes x cf) k = some e → (k = x ∧ e = cf) ∨ get R.classes k = some e := by
      intro k e hke
      rw [get_put] at hke
      split at hke
      · rename_i e'; cases hke; exact .inl ⟨e'.symm, rfl⟩
      · exact .inr hke
    refine ⟨{ R with classes := put R.classes x cf }, by simp [resolveOne, hget], ⟨fun _ _ h => h,
      fun _ _ h => h, fun k e hke => ?_⟩, hone _ ?_, ⟨hk.resolved, hk.params, fun k e hke => ?_, hk.types, hk.sorted⟩, fun k hkk => .inl hkk⟩
    · show get (put R.classes x cf) k = _
      rw [get_put]
      split
      · rename_i e'
        subst e'
        obtain ⟨N, hN, hd'⟩ := hk.classes _ _ hke
        obtain ⟨_, e2⟩ := same_definition h hM hN hd hd'
        injection e2 with e2
        injection e2 with e2
        rw [e2]
      · exact hke
    · show get (put R.classes x cf) x = _
      rw [get_put, if_pos rfl]
    · rcases hput k e hke with ⟨rfl, rfl⟩ | hke
      · exact ⟨M, hM, hd⟩
      · exact hk.classes k e hke
  | object hcls hp hext =>
    rename_i cls K cf fs
    refine (resolve_object h hM hcls hp).imp fun n hn R S hc hk hfresh hsup hr => ?_
    have hS : S cls := hr cls List.mem_cons_self _ _ hcls
    obtain ⟨ro, h1, h2⟩ := hn R S hc hk hsup hS fun f ty hm r hx N e hs => by
      cases hs with
      | own hd' => exact absurd hd' (hext f ty hm r hx _)
      | imported hi => exact hsup _ _ _ hi
    refine ⟨{ R with resolved := put R.resolved x (.object ro) }, ?_, grows_put hfresh _, hone _ ?_, hknown _ _ nofun hk,
      hkeys R _⟩
    · simp [resolveOne, hget, resolveDefinition, h1, Out.bind]
    · exact ⟨fs, ro, rfl, hnew _ _, h2.grows (grows_put hfresh _)⟩
  | objectSet hcls hp =>
    rename_i cls K cf root add
    refine (add_elements h hM hcls hp).imp fun n hn R S hc hk hfresh hsup hr => ?_
    have hS : S cls := hr cls List.mem_cons_self _ _ hcls
    obtain ⟨hK, hKd⟩ := hcls.mem hM
    have hg : get R.classes cls = some cf := hc.ready cls hS K hK _ hKd
    obtain ⟨os, h1, h2⟩ := hn R S hc hk hsup hS fun e he r hx N e' hs => hr r (by
      rw [Assignment.refs, ← List.flatMap_append]
      exact List.mem_cons_of_mem _ (List.mem_flatMap.mpr ⟨e, he, hx⟩)) N e' hs
    obtain ⟨s, h3, h4⟩ := h2 ⟨[], []⟩
    refine ⟨{ R with resolved := put R.resolved x (.objectSet s) }, ?_, grows_put hfresh _, hone _ ?_, hknown _ _ nofun hk,
      hkeys R _⟩
    · simp [resolveOne, hget, resolveDefinition, resolveObjectSet, hg, h3, Out.bind]
    · obtain ⟨els, h5, h6⟩ := h4.elements
      rw [List.nil_append] at h5
      refine ⟨s, os, hnew _ _, h1, ?_, h4.keys .nil, fun K' cf' u hs hu => ?_⟩
      · rw [h5]
        exact h6.imp fun _ _ h => h.grows (grows_put hfresh _)
      · obtain ⟨rfl, hcf⟩ := sees_unique h hM hM hs hcls
        injection hcf with hcf
        injection hcf with hcf
        subst hcf
        have := h4.table u hu [] ⟨nofun, nofun⟩
        exact this.grows (grows_put hfresh _)

end
end Hampi.Compiler
