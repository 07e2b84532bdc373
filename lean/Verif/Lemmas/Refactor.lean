import Verif.Spec.Refactor
import Verif.Lemmas.Grow
/-!
# Writing a schema differently does not change what its types mean
-/
namespace Hampi.Compiler.Spec
open Hampi.Compiler.Props

/-- `g` gives each module of the schema the rewritten one. -/
structure Rewriting (ms big : List Module) (g : Module → Module) : Prop where
  old : ProperSchema ms
  new : ProperSchema big
  mem : ∀ M ∈ ms, g M ∈ big
  ext : ∀ M ∈ ms, RewrittenModule M (g M)

theorem SchemaRewritten.rewriting {ms big : List Module} (h : SchemaRewritten ms big) (ho : ProperSchema ms)
    (hn : ProperSchema big) : ∃ g, Rewriting ms big g := by
  classical
  refine ⟨fun M => if hM : M ∈ ms then (h M hM).choose else M, ho, hn, fun M hM => ?_, fun M hM => ?_⟩
  · rw [dif_pos hM]; exact (h M hM).choose_spec.1
  · rw [dif_pos hM]; exact (h M hM).choose_spec.2

variable {ms big : List Module} {g : Module → Module}

theorem Rewriting.imports (p : Rewriting ms big g) {M : Module} (hM : M ∈ ms) {x : Text} {N : Module} {d : Definition}
    (h : Imports ms M x N d) :
    ∃ d', Imports big (g M) x (g N) d' ∧ RewrittenDefinition N.definitions (g N).definitions d d' := by
  obtain ⟨h1, h2, h3⟩ := h
  obtain ⟨d', h4, h5⟩ := (p.ext N h2).definitions _ _ h3
  refine ⟨d', ⟨?_, p.mem N h2, h4⟩, h5⟩
  rw [(p.ext N h2).name]
  exact (p.ext M hM).imports _ h1

theorem Rewriting.sees (p : Rewriting ms big g) {M : Module} (hM : M ∈ ms) {x : Text} {N : Module} {d : Definition}
    (h : Sees ms M x N d) : ∃ d', Sees big (g M) x (g N) d' ∧ RewrittenDefinition N.definitions (g N).definitions d d' := by
  rcases h with h | h
  · obtain ⟨d', h4, h5⟩ := (p.ext M hM).definitions _ _ h
    exact ⟨d', .own h4, h5⟩
  · obtain ⟨d', h4, h5⟩ := p.imports hM h
    exact ⟨d', .imported h4, h5⟩

/-- Not the definition of a type without parameters. -/
def Fixed (d : Definition) : Prop := ∀ ty, d ≠ ⟨.type ty, none⟩

theorem RewrittenDefinition.fixed {olds defs : List (Text × Definition)} {d d' : Definition}
    (h : RewrittenDefinition olds defs d d') (hf : Fixed d) : d' = d := by
  cases h with
  | same => rfl
  | type => exact absurd rfl (hf _)

theorem Rewriting.seesSame (p : Rewriting ms big g) {M : Module} (hM : M ∈ ms) {x : Text} {N : Module} {d : Definition}
    (h : Sees ms M x N d) (hf : Fixed d) : Sees big (g M) x (g N) d := by
  obtain ⟨d', h1, h2⟩ := p.sees hM h
  rw [h2.fixed hf] at h1
  exact h1

theorem Rewriting.importsSame (p : Rewriting ms big g) {M : Module} (hM : M ∈ ms) {x : Text} {N : Module}
    {d : Definition} (h : Imports ms M x N d) (hf : Fixed d) : Imports big (g M) x (g N) d := by
  obtain ⟨d', h1, h2⟩ := p.imports hM h
  rw [h2.fixed hf] at h1
  exact h1

theorem Rewriting.scopeSees (p : Rewriting ms big g) {σ : Scope} (hσ : σ.Within ms) {x : Text} {N : Module}
    {d : Definition} (h : σ.Sees ms x N d) :
    ∃ d', (σ.map g).Sees big x (g N) d' ∧ RewrittenDefinition N.definitions (g N).definitions d d' := by
  induction σ with
  | module M => exact p.sees hσ h
  | inst args outer inner ih =>
    rcases h with ⟨h1, h2⟩ | ⟨h1, h2⟩
    · obtain ⟨d', h3, h4⟩ := ih hσ.1 h2
      exact ⟨d', .inl ⟨h1, h3⟩, h4⟩
    · obtain ⟨d', h3, h4⟩ := p.sees hσ.2 h2
      exact ⟨d', .inr ⟨h1, h3⟩, h4⟩

theorem Rewriting.scopeSeesSame (p : Rewriting ms big g) {σ : Scope} (hσ : σ.Within ms) {x : Text} {N : Module}
    {d : Definition} (h : σ.Sees ms x N d) (hf : Fixed d) : (σ.map g).Sees big x (g N) d := by
  obtain ⟨d', h1, h2⟩ := p.scopeSees hσ h
  rw [h2.fixed hf] at h1
  exact h1

theorem Rewriting.scopeImportsSame (p : Rewriting ms big g) {σ : Scope} (hσ : σ.Within ms) {x : Text} {N : Module}
    {d : Definition} (h : σ.Imports ms x N d) (hf : Fixed d) : (σ.map g).Imports big x (g N) d := by
  cases σ with
  | module M => exact p.importsSame hσ h hf
  | inst args outer inner =>
    rcases h with ⟨h1, h2⟩ | ⟨h1, h2⟩
    · exact .inl ⟨h1, p.scopeSeesSame hσ.1 h2 hf⟩
    · exact .inr ⟨h1, p.importsSame hσ.2 h2 hf⟩

theorem DefinesInteger.fixed {a : Assignment} {v : Int} (h : DefinesInteger a v) : Fixed ⟨a, none⟩ := by
  obtain ⟨named, cs, num, rfl, -⟩ := h
  intro ty e
  injection e with e
  cases e

theorem Rewriting.inScope (p : Rewriting ms big g) {σ : Scope} (hσ : σ.Within ms) {ns : Hampi.Spec.Names}
    (h : InScope (σ.Sees ms) ns) : InScope ((σ.map g).Sees big) ns := fun x v hx =>
  let ⟨N, a, h1, h2⟩ := h x v hx
  ⟨g N, a, p.scopeSeesSame hσ h1 h2.fixed, h2⟩

theorem Rewriting.inScopeImports (p : Rewriting ms big g) {σ : Scope} (hσ : σ.Within ms) {ns : Hampi.Spec.Names}
    (h : InScope (σ.Imports ms) ns) : InScope ((σ.map g).Imports big) ns := fun x v hx =>
  let ⟨N, a, h1, h2⟩ := h x v hx
  ⟨g N, a, p.scopeImportsSame hσ h1 h2.fixed, h2⟩

/-- The definitions that a type written in the scope can be given by. -/
def Scope.defs : Scope → List (Text × Definition)
  | .module M => M.definitions
  | .inst .. => []

/-! ## Constraints with the same bounds -/

section
open Hampi.Spec (Denotes Numeral SomePermits EveryElement ElementPermits SmallUnion SmallAll SmallElement Permits
  AllSingles AllRanges SmallSet Small Above Below)

theorem inScope_agree (h : ProperSchema ms) {s s' : Text → Module → Definition → Prop} (hM : Honest ms s)
    (hM' : Honest ms s') {ns ns' : Hampi.Spec.Names} (hs : InScope s ns) (hs' : InScope s' ns') {t : Text} {v v' : Int}
    (hd : Denotes ns t v) (hd' : Denotes ns' t v') : v = v' := by
  rcases hd with hd | hd <;> rcases hd' with hd' | hd'
  · exact hd.unique hd'
  · exact absurd hd ((hs'.proper h hM' t v' hd').1 v)
  · exact absurd hd' ((hs.proper h hM t v hd).1 v')
  · obtain ⟨N, a, h1, h2⟩ := hs t v hd
    obtain ⟨N', a', h3, h4⟩ := hs' t v' hd'
    obtain ⟨hN, hx⟩ := hM _ _ _ h1
    obtain ⟨hN', hx'⟩ := hM' _ _ _ h3
    obtain ⟨rfl, he⟩ := same_definition h hN hN' hx hx'
    cases he
    obtain ⟨_, _, num, rfl, _, h5, _⟩ := h2
    obtain ⟨_, _, num', e, _, h6, _⟩ := h4
    cases e
    exact h5.unique h6

theorem permits_agree {ns ns' : Hampi.Spec.Names} (ha : ∀ t v v', Denotes ns t v → Denotes ns' t v' → v = v')
    {root : List (List Elements)} (hr : AllSingles root ∨ AllRanges root) (hs : SmallUnion ns' root) {x : Int}
    (h : SomePermits ns root x) : SomePermits ns' root x := by
  have key : ∀ t v, Small ns' t → Denotes ns t v → Denotes ns' t v := by
    rintro t v ⟨w, hw, -⟩ hv
    rw [ha t v w hv hw]
    exact hw
  induction root with
  | nil => cases h
  | cons i is ih =>
    rw [SmallUnion] at hs
    rw [SomePermits] at h ⊢
    rcases h with h | h
    · left
      rcases hr with hr | hr
      · obtain ⟨t, rfl⟩ := hr i (.head _)
        simp only [SmallAll, SmallElement, and_true, EveryElement, ElementPermits] at hs h ⊢
        exact key _ _ hs.1 h
      · obtain ⟨lo, li, hi, hj, rfl⟩ := hr i (.head _)
        simp only [SmallAll, SmallElement, and_true, EveryElement, ElementPermits] at hs h ⊢
        refine ⟨h.1.imp id ?_, h.2.imp id ?_⟩
        · rintro ⟨v, h1, h2⟩
          exact ⟨v, key _ _ hs.1.1 h1, h2⟩
        · rintro ⟨v, h1, h2⟩
          exact ⟨v, key _ _ hs.1.2 h1, h2⟩
    · exact .inr (ih (hr.imp (fun g j hj => g j (.tail _ hj)) fun g j hj => g j (.tail _ hj)) hs.2 h)

theorem smallSet_root {ns : Hampi.Spec.Names} {root : List (List Elements)} {add : Option (List (List Elements))}
    (h : SmallSet ns (.mk root add)) : SmallUnion ns root := by
  cases add with
  | none => exact h
  | some a => exact h.1

/-- The bounds of a constraint do not depend on the table of values. -/
theorem bounded_agree {ns ns' : Hampi.Spec.Names} (ha : ∀ t v v', Denotes ns t v → Denotes ns' t v' → v = v') {e : ElementSet}
    {lb ub lb' ub' : Int} {ext ext' : Bool} (h : Bounded ns e lb ub ext) (h' : Bounded ns' e lb' ub' ext') :
    lb' = lb ∧ ub' = ub ∧ ext' = ext := by
  cases h with
  | @mk root add _ _ h1 _ _ h4 h5 h6 h7 h8 =>
    cases h' with
    | mk _ _ _ k4 k5 k6 k7 k8 =>
      have f : ∀ {x}, Permits ns (.mk root add) x → Permits ns' (.mk root add) x := permits_agree ha h1 (smallSet_root k4)
      have g : ∀ {x}, Permits ns' (.mk root add) x → Permits ns (.mk root add) x :=
        permits_agree (fun t v v' a b => (ha t v' v b a).symm) h1 (smallSet_root h4)
      have a1 := h6 _ (g k5)
      have a2 := k6 _ (f h5)
      have a3 := h8 _ (g k7)
      have a4 := k8 _ (f h7)
      exact ⟨by omega, by omega, rfl⟩

theorem sized_agree {ns ns' : Hampi.Spec.Names} (ha : ∀ t v v', Denotes ns t v → Denotes ns' t v' → v = v')
    {cs : Option (List Constraint)} {lb ub lb' ub' : Option Int} {ext ext' : Bool} (h : Sized ns cs lb ub ext)
    (h' : Sized ns' cs lb' ub' ext') : lb' = lb ∧ ub' = ub ∧ ext' = ext := by
  cases h with
  | any h =>
    cases h' with
    | any => exact ⟨rfl, rfl, rfl⟩
    | size => rcases h with h | h <;> cases h
  | size h _ =>
    cases h' with
    | any h => rcases h with h | h <;> cases h
    | size h' _ =>
      obtain ⟨rfl, rfl, rfl⟩ := bounded_agree ha h h'
      exact ⟨rfl, rfl, rfl⟩

theorem noNames_inScope {s : Text → Module → Definition → Prop} : InScope s noNames := fun _ _ h => nomatch h

end

theorem ValuesOf.inScope {σ : Scope} {ns : Hampi.Spec.Names} (h : ValuesOf σ.defs ns) : InScope (σ.Sees ms) ns := by
  intro x v hx
  obtain ⟨a, h1, h2⟩ := h x v hx
  cases σ with
  | module M => exact ⟨M, a, .own h1, h2⟩
  | inst => cases h1

theorem Scope.Within.honest {σ : Scope} (h : σ.Within ms) : Honest ms (σ.Sees ms) := by
  refine Scope.Sees.mem ?_
  induction σ with
  | module M => exact h
  | inst args outer inner ih => exact ⟨ih h.1, h.2⟩

theorem Scope.Within.honestImports {σ : Scope} (h : σ.Within ms) : Honest ms (σ.Imports ms) :=
  fun x N d hd => h.honest x N d hd.sees

/-- What is an INTEGER, directly or by name, still is one. -/
theorem Rewritten.behind {olds : List (Text × Definition)} {M : Module} {ty ty' : AsnType}
    (hb : ∀ ty', Restated olds M.definitions ty ty' → ∃ named, Behind big M ty' (.integer named))
    (h : Rewritten olds M.definitions ty ty') : ∃ named, Behind big M ty' (.integer named) :=
  match h with
  | .direct h => hb _ h
  | .named h1 h2 => (Rewritten.behind hb h2).imp fun _ h => .reference (.own h1) h

theorem Rewriting.behind (p : Rewriting ms big g) {M : Module} (hM : M ∈ ms) {ty : AsnType} {k : Kind}
    (h : Behind ms M ty k) : ∀ named, k = .integer named → ∀ ty', Restated M.definitions (g M).definitions ty ty' →
      ∃ named', Behind big (g M) ty' (.integer named') := by
  induction h with
  | here h =>
    rintro named rfl ty' hr
    cases hr with
    | same => exact ⟨_, .here h⟩
    | numbers => exact ⟨_, .here nofun⟩
    | bounds => exact ⟨_, .here nofun⟩
  | reference h1 _ ih =>
    rintro named rfl ty' hr
    cases hr with
    | same =>
      obtain ⟨d', h3, h4⟩ := p.sees hM h1
      cases h4 with
      | same => exact (ih (sees_mem hM h1) named rfl _ .same).imp fun _ => .reference h3
      | type h4 => exact (h4.behind (ih (sees_mem hM h1) named rfl)).imp fun _ => .reference h3
    | inlined h3 h4 =>
      obtain ⟨rfl, hd⟩ := sees_unique p.old hM hM h1 (.own h3)
      injection hd with hd
      injection hd with hd
      subst hd
      exact h4.behind (ih hM named rfl)

theorem Rewriting.keyOf (p : Rewriting ms big g) {M : Module} {fs : List (Text × ObjectField)} (hM : M ∈ ms)
    {u name : Text} {k : Int} (h : KeyOf ms (M, fs) u name k) : KeyOf big (g M, fs) u name k := by
  obtain ⟨ty, N, a, h1, h2, ty', num, named, rfl, h3, h4⟩ := h
  obtain ⟨named', h5⟩ := p.behind h2.2.1 h3 named rfl _ .same
  exact ⟨ty, g N, _, h1, p.importsSame hM h2 (fun _ e => by injection e with e; cases e), ty', num, named', rfl, h5, h4⟩

theorem Rewriting.keyOf_back (p : Rewriting ms big g) {σ : Scope} (hσ : σ.Within ms) {T : ObjectTable}
    (hT : TableIn ms σ T) {M : Module} {fs : List (Text × ObjectField)} (ho : (M, fs) ∈ T.objects) {name : Text}
    {k : Int} (h : KeyOf big (g M, fs) T.unique name k) : KeyOf ms (M, fs) T.unique name k := by
  obtain ⟨h1, h2, name', k', h3⟩ := table_keys p.old hσ hT _ ho
  obtain ⟨rfl, rfl⟩ := keyOf_unique p.new (o := (g M, fs)) (p.mem M h1) h2 h (p.keyOf h1 h3)
  exact h3

theorem fixed_object {cls : Text} {v : ObjectValue} : Fixed ⟨.object cls v, none⟩ :=
  fun _ e => by injection e with e; cases e
theorem fixed_objectSet {cls : Text} {root add : List SetElement} : Fixed ⟨.objectSet cls root add, none⟩ :=
  fun _ e => by injection e with e; cases e
theorem fixed_class {cf : List (Text × ClassField)} : Fixed ⟨.class cf, none⟩ :=
  fun _ e => by injection e with e; cases e

theorem Rewriting.objects (p : Rewriting ms big g) {cls : Text} {M : Module} (hM : M ∈ ms) {es : List SetElement}
    {os : List Written} (h : Objects ms cls M es os) :
    Objects big cls (g M) es (os.map fun o => (g o.1, o.2)) := by
  induction h with
  | nil => exact .nil
  | object _ ih => exact .object (ih hM)
  | objectRef h _ ih => exact .objectRef (p.seesSame hM h fixed_object) (ih hM)
  | setRef h _ _ ih1 ih2 =>
    rw [List.map_append]
    exact .setRef (p.seesSame hM h fixed_objectSet) (ih1 (sees_mem hM h)) (ih2 hM)

theorem Rewriting.table (p : Rewriting ms big g) {σ : Scope} (hσ : σ.Within ms) {T : ObjectTable}
    (h : TableIn ms σ T) : TableIn big (σ.map g) (T.map g) := by
  obtain ⟨N, root, add, h1, h2, h3⟩ := h.seen
  have hN := scopeSees_mem hσ h1
  refine ⟨⟨g N, root, add, p.scopeSeesSame hσ h1 fixed_objectSet, p.seesSame hN h2 fixed_class, p.objects hN h3⟩,
    h.unique, ?_, ?_⟩
  · intro hn
    exact h.objects (List.map_eq_nil_iff.mp hn)
  · intro o ho q hq n m k hk hk'
    obtain ⟨⟨M, fs⟩, ho', rfl⟩ := List.mem_map.mp ho
    obtain ⟨⟨N, fs'⟩, hq', rfl⟩ := List.mem_map.mp hq
    rw [h.differ _ ho' _ hq' n m k (p.keyOf_back hσ h ho' hk) (p.keyOf_back hσ h hq' hk')]

theorem Rewriting.alternatives (p : Rewriting ms big g) {σ : Scope} (hσ : σ.Within ms) {T : ObjectTable}
    (hT : TableIn ms σ T) {field : Text} {l : List (Text × Int × Module × AsnType)} (h : Alternatives ms T field l) :
    Alternatives big (T.map g) field (mapAlternatives g l) ∧ ∀ e ∈ l, e.2.2.1 ∈ ms := by
  have hm : ∀ e ∈ l, e.2.2.1 ∈ ms := by
    intro e he
    obtain ⟨name, k, N, ty⟩ := e
    obtain ⟨fs, h1, _⟩ := (h.all name k N ty).mp he
    exact (table_keys p.old hσ hT _ h1).1
  refine ⟨⟨?_, fun name k N ty => ⟨fun he => ?_, fun he => ?_⟩, ?_⟩, hm⟩
  · exact List.pairwise_map.mpr h.sorted
  · obtain ⟨⟨name, k, N, ty⟩, he', e⟩ := List.mem_map.mp he
    cases e
    obtain ⟨fs, h1, h2, h3⟩ := (h.all name k N ty).mp he'
    exact ⟨fs, List.mem_map.mpr ⟨_, h1, rfl⟩, p.keyOf (hm _ he') h2, h3⟩
  · obtain ⟨fs, h1, h2, h3⟩ := he
    obtain ⟨⟨M, fs'⟩, h4, e⟩ := List.mem_map.mp h1
    cases e
    exact List.mem_map.mpr ⟨(name, k, M, ty), (h.all _ _ _ _).mpr ⟨fs', h4, p.keyOf_back hσ hT h4 h2, h3⟩, rfl⟩
  · intro name k N ty he
    obtain ⟨⟨name, k, N, ty⟩, he', e⟩ := List.mem_map.mp he
    cases e
    exact h.references _ _ _ _ he'

/-- A type that is given by name, however indirectly, means what is behind the name. -/
theorem Rewritten.describes {lax : Bool} {olds : List (Text × Definition)} {M : Module} {ty : AsnType} {t : Ty} :
    {ty' : AsnType} → Rewritten olds M.definitions ty ty' →
    (∀ ty', Restated olds M.definitions ty ty' → Describes lax big (.module M) ty' t) →
    Describes lax big (.module M) ty' t
  | _, .direct h, hs => hs _ h
  | _, .named h1 h2, hs => .reference (.inl (.inl rfl)) (.own h1) (Rewritten.describes h2 hs)

theorem Rewritten.describesIn {lax : Bool} {olds : List (Text × Definition)} {σ : Scope} {ty ty' : AsnType} {t : Ty}
    (h : Rewritten olds σ.defs ty ty')
    (hs : ∀ ty', Restated olds σ.defs ty ty' → Describes lax big σ ty' t) : Describes lax big σ ty' t := by
  cases σ with
  | module M => exact h.describes hs
  | inst args outer inner =>
    cases h with
    | direct h => exact hs _ h
    | named h _ => cases h

/-- A type that was given by name and is written in place. -/
theorem Rewriting.inlined (p : Rewriting ms big g) {lax : Bool} {σ : Scope} (hσ : σ.Within ms) {r : Text}
    {ty b ty' : AsnType} {t : Ty} {N : Module} (hs : σ.Sees ms r N ⟨.type ty, none⟩) (hb : (r, ⟨.type b, none⟩) ∈ σ.defs)
    (hr : Rewritten σ.defs (σ.map g).defs b ty')
    (h : ∀ ty', Restated N.definitions (g N).definitions ty ty' → Describes lax big (.module (g N)) ty' t) :
    Describes lax big (σ.map g) ty' t := by
  cases σ with
  | module M =>
    obtain ⟨rfl, hd⟩ := sees_unique p.old hσ hσ hs (.own hb)
    injection hd with hd
    injection hd with hd
    subst hd
    exact Rewritten.describes hr h
  | inst => cases hb

theorem Rewriting.boundsAgree (p : Rewriting ms big g) {σ : Scope} (hσ : σ.Within ms) {e : ElementSet}
    {ns ns₁ : Hampi.Spec.Names} {lb ub lb' ub' : Int} {ext ext' : Bool} (h1 : InScope (σ.Sees ms) ns₁)
    (h2 : Bounded ns₁ e lb ub ext) (h3 : ValuesOf σ.defs ns) (h4 : Bounded ns e lb' ub' ext') :
    lb' = lb ∧ ub' = ub ∧ ext' = ext :=
  bounded_agree (fun _ _ _ => inScope_agree p.old hσ.honest hσ.honest h1 h3.inScope) h2 h4

theorem Rewriting.sizesAgree (p : Rewriting ms big g) {σ : Scope} (hσ : σ.Within ms) {cs : Option (List Constraint)}
    {ns ns₁ : Hampi.Spec.Names} {lb ub lb' ub' : Option Int} {ext ext' : Bool} (h1 : InScope (σ.Sees ms) ns₁)
    (h2 : Sized ns₁ cs lb ub ext) (h3 : ValuesOf σ.defs ns) (h4 : Sized ns cs lb' ub' ext') :
    lb' = lb ∧ ub' = ub ∧ ext' = ext :=
  sized_agree (fun _ _ _ => inScope_agree p.old hσ.honest hσ.honest h1 h3.inScope) h2 h4

theorem Rewriting.countsAgree (p : Rewriting ms big g) {σ : Scope} (hσ : σ.Within ms) {cs : Option (List Constraint)}
    {ns : Hampi.Spec.Names} {lb ub lb' ub' : Option Int} {ext ext' : Bool} (h1 : InScope (σ.Imports ms) ns)
    (h2 : Sized ns cs lb ub ext) (h3 : Sized noNames cs lb' ub' ext') : lb' = lb ∧ ub' = ub ∧ ext' = ext :=
  sized_agree (fun _ _ _ => inScope_agree p.old hσ.honestImports hσ.honest h1 noNames_inScope) h2 h3

theorem not_sized_contents {ns : Hampi.Spec.Names} {ty : Text} {lb ub : Option Int} {ext : Bool}
    (h : Sized ns (some [.contents ty]) lb ub ext) : False := by
  cases h with
  | any h => rcases h with h | h <;> cases h

theorem not_bare_subtype {e : ElementSet} (h : Bare (some [.subtype e])) : False := by
  rcases h with h | h <;> cases h

theorem RewrittenFields.refl {olds defs : List (Text × Definition)} : (cs : List SeqComponent) → RewrittenFields olds defs cs cs
  | [] => .nil
  | _ :: cs => .keep (refl cs)

theorem RewrittenAlts.refl {olds defs : List (Text × Definition)} : (cs : List Component) → RewrittenAlts olds defs cs cs
  | [] => .nil
  | .mk _ _ :: cs => .cons (.direct .same) (refl cs)

theorem RewrittenAlts.length {olds defs : List (Text × Definition)} : {cs cs' : List Component} →
    RewrittenAlts olds defs cs cs' → cs'.length = cs.length
  | _, _, .nil => rfl
  | _, _, .cons _ h => by simp [RewrittenAlts.length h]

/-- Fields of classes are kept. -/
theorem RewrittenFields.table {olds defs : List (Text × Definition)} {lax : Bool} {T : ObjectTable} :
    {cs cs' : List SeqComponent} → {fs : Fields} → DescribesTable lax ms T cs fs → RewrittenFields olds defs cs cs' → cs' = cs
  | _, _, _, .nil, .nil => rfl
  | _, _, _, .key _ _ _ h, .keep h' => by rw [RewrittenFields.table h h']
  | _, _, _, .value _ _ _ _ h, .keep h' => by rw [RewrittenFields.table h h']
  | _, _, _, .openType _ _ _ _ h, .keep h' => by rw [RewrittenFields.table h h']
  | _, _, _, .key .., .change h _ _ => absurd rfl (h _ _ _)
  | _, _, _, .value .., .change h _ _ => absurd rfl (h _ _ _)
  | _, _, _, .openType .., .change h _ _ => absurd rfl (h _ _ _)

mutual

theorem Rewriting.describes (p : Rewriting ms big g) {lax : Bool} {σ : Scope} (hσ : σ.Within ms) {ty : AsnType} {t : Ty}
    (h : Describes lax ms σ ty t) (ty' : AsnType) (hr : Restated σ.defs (σ.map g).defs ty ty') :
    Describes lax big (σ.map g) ty' t :=
  match h, hr with
  | .boolean h, .same => .boolean h
  | .null h, .same => .null h
  | .objectIdentifier h, .same => .objectIdentifier h
  | .integer h, .same => .integer h
  | .boundedInteger h1 h2 h3, .same => .boundedInteger (p.inScope hσ h1) h2 h3
  | .integer h, .numbers => .integer h
  | .boundedInteger h1 h2 h3, .numbers => .boundedInteger (p.inScope hσ h1) h2 h3
  | .integer h, .bounds .. => (not_bare_subtype h).elim
  | .boundedInteger h1 h2 h3, .bounds a b c d =>
    match p.boundsAgree hσ h1 h2 a b with
    | ⟨e1, e2, e3⟩ => .boundedInteger c.inScope (e1 ▸ e2 ▸ e3 ▸ d) h3
  | .octetString h1 h2, .octets a b c d =>
    match p.sizesAgree hσ h1 h2 a b with
    | ⟨e1, e2, e3⟩ => .octetString c.inScope (e1 ▸ e2 ▸ e3 ▸ d)
  | .containing, .octets _ b _ _ => (not_sized_contents b).elim
  | .bitString h1 h2, .bits a b c d =>
    match p.sizesAgree hσ h1 h2 a b with
    | ⟨e1, e2, e3⟩ => .bitString c.inScope (e1 ▸ e2 ▸ e3 ▸ d)
  | .characterString h1 h2 h3, .characters a b c d =>
    match p.sizesAgree hσ h2 h3 a b with
    | ⟨e1, e2, e3⟩ => .characterString h1 c.inScope (e1 ▸ e2 ▸ e3 ▸ d)
  | .sequenceOf h1 h2 h3 h4, .count b d h =>
    match p.countsAgree hσ h2 h3 b with
    | ⟨e1, e2, e3⟩ => .sequenceOf h1 noNames_inScope (e1 ▸ e2 ▸ e3 ▸ d) (h.describesIn (p.describes hσ h4))
  | .enumerated h1 h2 h3 h4 h5, .same => .enumerated h1 h2 h3 h4 h5
  | .enumerated h1 h2 h3 h4 h5, .enumerated e h => e ▸ .enumerated
      (fun hn => h1 (List.length_eq_zero_iff.mp (by rw [← e, hn]; rfl))) (by rw [e]; exact h2)
      (fun v hv => h v (List.mem_append.mpr (.inr hv))) h4 h5
  | .bitString h1 h2, .same => .bitString (p.inScope hσ h1) h2
  | .octetString h1 h2, .same => .octetString (p.inScope hσ h1) h2
  | .containing, .same => .containing
  | .characterString h1 h2 h3, .same => .characterString h1 (p.inScope hσ h2) h3
  | .reference h1 h2 h3, .same =>
    match p.scopeSees hσ h2 with
    | ⟨_, h4, .same⟩ => .reference h1 h4 (p.describes (σ := .module _) (scopeSees_mem hσ h2) h3 _ .same)
    | ⟨_, h4, .type h5⟩ => .reference h1 h4
        (h5.describes (p.describes (σ := .module _) (scopeSees_mem hσ h2) h3))
  | .reference h1 h2 h3, .inlined hb hr => p.inlined hσ h2 hb hr
      (p.describes (σ := .module _) (scopeSees_mem hσ h2) h3)
  | .sequence h1 h2, .same => .sequence h1 (p.describesFields hσ h2 _ (.refl _))
  | .sequence h1 h2, .sequence h => .sequence h1 (p.describesFields hσ h2 _ h)
  | .sequenceOf h1 h2 h3 h4, .same => .sequenceOf h1 (p.inScopeImports hσ h2) h3 (p.describes hσ h4 _ .same)
  | .sequenceOf h1 h2 h3 h4, .sequenceOf h => .sequenceOf h1 (p.inScopeImports hσ h2) h3
      (h.describesIn (p.describes hσ h4))
  | .choice h1 h2 h3, .same => .choice h1 h2 (p.describesAlts hσ h3 _ (.refl _))
  | .choice h1 h2 h3, .choice h => h.length ▸ .choice h1
      (fun hn => h2 (List.length_eq_zero_iff.mp (by rw [← h.length, hn]; rfl))) (p.describesAlts hσ h3 _ h)
  | .extensibleChoice h1 h2 h3 h4, .same => .extensibleChoice h1 h2 (p.describesAlts hσ h3 _ (.refl _))
      (p.describesAlts hσ h4 _ (.refl _))
  | .extensibleChoice h1 h2 h3 h4, .extensibleChoice h h' => h.length ▸ .extensibleChoice h1
      (fun hn => h2 (List.length_eq_zero_iff.mp (by rw [← h.length, hn]; rfl))) (p.describesAlts hσ h3 _ h')
      (p.describesAlts hσ h4 _ h)
  | .parameterized h1 h2 h3 h4 h5, .same => .parameterized h1
      (p.scopeSeesSame hσ h2 (fun _ e => by injection e with _ e; cases e)) h3 h4
      (p.describes (σ := .inst _ _ _) ⟨hσ, scopeSees_mem hσ h2⟩ h5 _ .same)
  | .table h1 h2 h3 h4, .same => .table h1 h2 (p.table hσ h3) (p.describesTable hσ h3 h4)
  | .table h1 h2 h3 h4, .sequence h => (h.table h4).symm ▸ .table h1 h2 (p.table hσ h3) (p.describesTable hσ h3 h4)
  | .emptyTable h1 h2 h3 h4 h5, .same => .emptyTable h1 h2 h3 (p.scopeSeesSame hσ h4 fixed_objectSet)
      (p.objects (scopeSees_mem hσ h4) h5)
  | .emptyTable h1 h2 h3 h4 h5, .sequence (.keep _) => .emptyTable h1 h2 h3 (p.scopeSeesSame hσ h4 fixed_objectSet)
      (p.objects (scopeSees_mem hσ h4) h5)
  | .emptyTable h1 h2 h3 h4 h5, .sequence (.change h _ _) => absurd rfl (h _ _ _)
termination_by structural h

theorem Rewriting.describesFields (p : Rewriting ms big g) {lax : Bool} {σ : Scope} (hσ : σ.Within ms) {i : Nat}
    {cs : List SeqComponent} {n : Nat} {fs : Fields} (h : DescribesFields lax ms σ i cs n fs) (cs' : List SeqComponent)
    (hr : RewrittenFields σ.defs (σ.map g).defs cs cs') : DescribesFields lax big (σ.map g) i cs' n fs :=
  match h, hr with
  | .nil, .nil => .nil
  | .required h1 h2 h3, .keep hr => .required h1 (p.describes hσ h2 _ .same) (p.describesFields hσ h3 _ hr)
  | .required h1 h2 h3, .change _ hr hr' => .required h1 (hr.describesIn (p.describes hσ h2))
      (p.describesFields hσ h3 _ hr')
  | .optional h1 h2, .keep hr => .optional (p.describes hσ h1 _ .same) (p.describesFields hσ h2 _ hr)
  | .optional h1 h2, .change _ hr hr' => .optional (hr.describesIn (p.describes hσ h1)) (p.describesFields hσ h2 _ hr')
termination_by structural h

theorem Rewriting.describesAlts (p : Rewriting ms big g) {lax : Bool} {σ : Scope} (hσ : σ.Within ms) {x : Bool} {i : Nat}
    {cs : List Component} {rest as : Alts} (h : DescribesAlts lax ms σ x i cs rest as) (cs' : List Component)
    (hr : RewrittenAlts σ.defs (σ.map g).defs cs cs') : DescribesAlts lax big (σ.map g) x i cs' rest as :=
  match h, hr with
  | .nil, .nil => .nil
  | .cons h1 h2, .cons hr hr' => .cons (hr.describesIn (p.describes hσ h1)) (p.describesAlts hσ h2 _ hr')
termination_by structural h

theorem Rewriting.describesTable (p : Rewriting ms big g) {lax : Bool} {σ : Scope} (hσ : σ.Within ms) {T : ObjectTable}
    (hT : TableIn ms σ T) {cs : List SeqComponent} {fs : Fields} (h : DescribesTable lax ms T cs fs) :
    DescribesTable lax big (T.map g) cs fs :=
  match h with
  | .nil => .nil
  | .key h1 h2 h3 h4 => .key (T := T.map g) h1 h2 (p.describes (σ := .module T.home) (table_home hσ hT) h3 _ .same)
      (p.describesTable hσ hT h4)
  | .value h1 h2 h3 h4 h5 => .value (T := T.map g) h1 h2
      (fun _ ho => let ⟨o', ho', e⟩ := List.mem_map.mp ho; e ▸ h3 o' ho')
      (p.describes (σ := .module T.home) (table_home hσ hT) h4 _ .same) (p.describesTable hσ hT h5)
  | .openType h1 h2 h3 h4 h5 => .openType (T := T.map g) h1 h2 (p.alternatives hσ hT h3).1
      (p.describesOpen (p.alternatives hσ hT h3).2 h4) (p.describesTable hσ hT h5)
termination_by structural h

theorem Rewriting.describesOpen (p : Rewriting ms big g) {lax : Bool} {l : List (Text × Int × Module × AsnType)}
    (hl : ∀ e ∈ l, e.2.2.1 ∈ ms) {as : Alts} (h : DescribesOpen lax ms l as) :
    DescribesOpen lax big (mapAlternatives g l) as :=
  match h with
  | .nil => .nil
  | .cons h1 h2 => .cons (p.describes (σ := .module _) (hl _ (.head _)) h1 _ .same)
      (p.describesOpen (fun e he => hl e (.tail _ he)) h2)
termination_by structural h

end

end Hampi.Compiler.Spec
