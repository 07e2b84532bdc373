import Verif.Spec.Grow
import Verif.Lemmas.Ready
import Verif.Lemmas.MoreModules
/-!
# Adding definitions to a schema does not change what its types mean
-/
namespace Hampi.Compiler.Spec
open Hampi.Compiler.Props

/-- `g` gives each module of the schema the grown one. -/
structure Growth (ms big : List Module) (g : Module → Module) : Prop where
  old : ProperSchema ms
  new : ProperSchema big
  mem : ∀ M ∈ ms, g M ∈ big
  ext : ∀ M ∈ ms, Extends M (g M)

theorem SchemaGrows.growth {ms big : List Module} (h : SchemaGrows ms big) (ho : ProperSchema ms) (hn : ProperSchema big) :
    ∃ g, Growth ms big g := by
  classical
  refine ⟨fun M => if hM : M ∈ ms then (h M hM).choose else M, ho, hn, fun M hM => ?_, fun M hM => ?_⟩
  · rw [dif_pos hM]; exact (h M hM).choose_spec.1
  · rw [dif_pos hM]; exact (h M hM).choose_spec.2

variable {ms big : List Module} {g : Module → Module}

theorem Growth.imports (p : Growth ms big g) {M : Module} (hM : M ∈ ms) {x : Text} {N : Module} {d : Definition}
    (h : Imports ms M x N d) : Imports big (g M) x (g N) d := by
  obtain ⟨h1, h2, h3⟩ := h
  refine ⟨?_, p.mem N h2, (p.ext N h2).definitions _ h3⟩
  rw [(p.ext N h2).name]
  exact (p.ext M hM).imports _ h1

theorem Growth.sees (p : Growth ms big g) {M : Module} (hM : M ∈ ms) {x : Text} {N : Module} {d : Definition}
    (h : Sees ms M x N d) : Sees big (g M) x (g N) d := by
  rcases h with h | h
  · exact .own ((p.ext M hM).definitions _ h)
  · exact .imported (p.imports hM h)

/-- The scope with the grown modules. -/
def Scope.map (g : Module → Module) : Scope → Scope
  | .module M => .module (g M)
  | .inst args outer inner => .inst args (outer.map g) (g inner)

theorem Growth.scopeSees (p : Growth ms big g) {σ : Scope} (hσ : σ.Within ms) {x : Text} {N : Module} {d : Definition}
    (h : σ.Sees ms x N d) : (σ.map g).Sees big x (g N) d := by
  induction σ with
  | module M => exact p.sees hσ h
  | inst args outer inner ih =>
    rcases h with ⟨h1, h2⟩ | ⟨h1, h2⟩
    · exact .inl ⟨h1, ih hσ.1 h2⟩
    · exact .inr ⟨h1, p.sees hσ.2 h2⟩

theorem Growth.scopeImports (p : Growth ms big g) {σ : Scope} (hσ : σ.Within ms) {x : Text} {N : Module}
    {d : Definition} (h : σ.Imports ms x N d) : (σ.map g).Imports big x (g N) d := by
  cases σ with
  | module M => exact p.imports hσ h
  | inst args outer inner =>
    rcases h with ⟨h1, h2⟩ | ⟨h1, h2⟩
    · exact .inl ⟨h1, p.scopeSees hσ.1 h2⟩
    · exact .inr ⟨h1, p.imports hσ.2 h2⟩

theorem Growth.inScope (p : Growth ms big g) {σ : Scope} (hσ : σ.Within ms) {ns : Hampi.Spec.Names}
    (h : InScope (σ.Sees ms) ns) : InScope ((σ.map g).Sees big) ns := fun x v hx =>
  let ⟨N, a, h1, h2⟩ := h x v hx
  ⟨g N, a, p.scopeSees hσ h1, h2⟩

theorem Growth.inScopeImports (p : Growth ms big g) {σ : Scope} (hσ : σ.Within ms) {ns : Hampi.Spec.Names}
    (h : InScope (σ.Imports ms) ns) : InScope ((σ.map g).Imports big) ns := fun x v hx =>
  let ⟨N, a, h1, h2⟩ := h x v hx
  ⟨g N, a, p.scopeImports hσ h1, h2⟩

theorem Growth.behind (p : Growth ms big g) {M : Module} (hM : M ∈ ms) {ty : AsnType} {k : Kind}
    (h : Behind ms M ty k) : Behind big (g M) ty k := by
  induction h with
  | here h => exact .here h
  | reference h _ ih => exact .reference (p.sees hM h) (ih (sees_mem hM h))

theorem Growth.keyOf (p : Growth ms big g) {M : Module} {fs : List (Text × ObjectField)} (hM : M ∈ ms) {u name : Text}
    {k : Int} (h : KeyOf ms (M, fs) u name k) : KeyOf big (g M, fs) u name k := by
  obtain ⟨ty, N, a, h1, h2, ty', num, named, e, h3, h4⟩ := h
  exact ⟨ty, g N, a, h1, p.imports hM h2, ty', num, named, e, p.behind h2.2.1 h3, h4⟩

theorem table_home {σ : Scope} (hσ : σ.Within ms) {T : ObjectTable} (h : TableIn ms σ T) : T.home ∈ ms := by
  obtain ⟨N, root, add, h1, h2, h3⟩ := h.seen
  exact sees_mem (scopeSees_mem hσ h1) h2

/-- What a name stands for is a definition of that name. -/
theorem scopeSees_def {σ : Scope} {x : Text} {N : Module} {d : Definition} (h : σ.Sees ms x N d) :
    (x, d) ∈ N.definitions := by
  induction σ with
  | module M =>
    rcases h with h | h
    · exact h
    · exact h.2.2
  | inst args outer inner ih =>
    rcases h with ⟨_, h⟩ | ⟨_, h | h⟩
    · exact ih h
    · exact h
    · exact h.2.2

theorem keyOf_unique {l : List Module} (h : ProperSchema l) {o : Written} (ho : o.1 ∈ l) (hn : (o.2.map (·.1)).Nodup)
    {u n m : Text} {j k : Int} (h1 : KeyOf l o u n j) (h2 : KeyOf l o u m k) : n = m ∧ j = k := by
  obtain ⟨ty, N, a, a1, a2, ty', num, named, e, a3, a4, a5⟩ := h1
  obtain ⟨uy, N', b, b1, b2, uy', num', named', e', b3, b4, b5⟩ := h2
  have hf := nodup_same hn a1 b1
  injection hf with _ hf
  injection hf with hf
  subst hf
  obtain ⟨-, hd⟩ := sees_unique h ho ho (.imported a2) (.imported b2)
  injection hd with hd
  subst hd
  subst e
  injection e' with _ e'
  subst e'
  exact ⟨rfl, a4.unique b4⟩

/-- The objects of a table have keys. -/
theorem table_keys (h : ProperSchema ms) {σ : Scope} (hσ : σ.Within ms) {T : ObjectTable} (hT : TableIn ms σ T) :
    ∀ o ∈ T.objects, o.1 ∈ ms ∧ (o.2.map (·.1)).Nodup ∧ ∃ name k, KeyOf ms o T.unique name k := by
  obtain ⟨N, root, add, h1, h2, h3⟩ := hT.seen
  have hN := scopeSees_mem hσ h1
  cases h.proper _ hN _ (scopeSees_def h1) with
  | objectSet a1 a2 =>
    obtain ⟨rfl, hcf⟩ := sees_unique h hN hN a1 h2
    injection hcf with hcf
    injection hcf with hcf
    subst hcf
    intro o ho
    obtain ⟨b1, -, b2, b3⟩ := objects_proper h h3 hN a1 a2 o ho
    refine ⟨b1, b2.1, ?_⟩
    rcases b3 with b3 | ⟨u, name, k, b3, b4⟩
    · obtain ⟨⟨id, ty, opt, d, w, hu⟩, -⟩ := hT.unique
      exact absurd hu (b3 _ _ _ _ _ _)
    · obtain ⟨⟨id, ty, opt, d, w, hu⟩, -⟩ := hT.unique
      cases b3.2 _ _ _ _ _ _ hu
      exact ⟨name, k, b4⟩

/-- The table with the grown modules. -/
def ObjectTable.map (g : Module → Module) (T : ObjectTable) : ObjectTable :=
  { T with home := g T.home, objects := T.objects.map fun o => (g o.1, o.2) }

theorem Growth.keyOf_back (p : Growth ms big g) {σ : Scope} (hσ : σ.Within ms) {T : ObjectTable} (hT : TableIn ms σ T)
    {M : Module} {fs : List (Text × ObjectField)} (ho : (M, fs) ∈ T.objects) {name : Text} {k : Int}
    (h : KeyOf big (g M, fs) T.unique name k) : KeyOf ms (M, fs) T.unique name k := by
  obtain ⟨h1, h2, name', k', h3⟩ := table_keys p.old hσ hT _ ho
  obtain ⟨rfl, rfl⟩ := keyOf_unique p.new (o := (g M, fs)) (p.mem M h1) h2 h (p.keyOf h1 h3)
  exact h3

theorem Growth.objects (p : Growth ms big g) {cls : Text} {M : Module} (hM : M ∈ ms) {es : List SetElement}
    {os : List Written} (h : Objects ms cls M es os) :
    Objects big cls (g M) es (os.map fun o => (g o.1, o.2)) := by
  induction h with
  | nil => exact .nil
  | object _ ih => exact .object (ih hM)
  | objectRef h _ ih => exact .objectRef (p.sees hM h) (ih hM)
  | setRef h _ _ ih1 ih2 =>
    rw [List.map_append]
    exact .setRef (p.sees hM h) (ih1 (sees_mem hM h)) (ih2 hM)

theorem Growth.table (p : Growth ms big g) {σ : Scope} (hσ : σ.Within ms) {T : ObjectTable} (h : TableIn ms σ T) :
    TableIn big (σ.map g) (T.map g) := by
  obtain ⟨N, root, add, h1, h2, h3⟩ := h.seen
  have hN := scopeSees_mem hσ h1
  refine ⟨⟨g N, root, add, p.scopeSees hσ h1, p.sees hN h2, p.objects hN h3⟩, h.unique, ?_, ?_⟩
  · intro hn
    exact h.objects (List.map_eq_nil_iff.mp hn)
  · intro o ho q hq n m k hk hk'
    obtain ⟨⟨M, fs⟩, ho', rfl⟩ := List.mem_map.mp ho
    obtain ⟨⟨N, fs'⟩, hq', rfl⟩ := List.mem_map.mp hq
    rw [h.differ _ ho' _ hq' n m k (p.keyOf_back hσ h ho' hk) (p.keyOf_back hσ h hq' hk')]

/-- The alternatives with the grown modules. -/
def mapAlternatives (g : Module → Module) (l : List (Text × Int × Module × AsnType)) :
    List (Text × Int × Module × AsnType) := l.map fun e => (e.1, e.2.1, g e.2.2.1, e.2.2.2)

theorem Growth.alternatives (p : Growth ms big g) {σ : Scope} (hσ : σ.Within ms) {T : ObjectTable}
    (hT : TableIn ms σ T) {field : Text} {l : List (Text × Int × Module × AsnType)} (h : Alternatives ms T field l) :
    Alternatives big (T.map g) field (mapAlternatives g l) ∧ ∀ e ∈ l, e.2.2.1 ∈ ms := by
  have hm : ∀ e ∈ l, e.2.2.1 ∈ ms := by
    intro e he
    obtain ⟨name, k, N, ty⟩ := e
    obtain ⟨fs, h1, _⟩ := (h.all name k N ty).mp he
    exact (table_keys p.old hσ hT _ h1).1
  refine ⟨⟨?_, fun name k N ty => ⟨fun he => ?_, fun he => ?_⟩, ?_⟩, hm⟩
  · exact List.pairwise_map.mpr h.sorted
  · obtain ⟨⟨name, k, N, ty⟩, he', e⟩ := List.mem_map.mp he
    cases e
    obtain ⟨fs, h1, h2, h3⟩ := (h.all name k N ty).mp he'
    exact ⟨fs, List.mem_map.mpr ⟨_, h1, rfl⟩, p.keyOf (hm _ he') h2, h3⟩
  · obtain ⟨fs, h1, h2, h3⟩ := he
    obtain ⟨⟨M, fs'⟩, h4, e⟩ := List.mem_map.mp h1
    cases e
    exact List.mem_map.mpr ⟨(name, k, M, ty), (h.all _ _ _ _).mpr ⟨fs', h4, p.keyOf_back hσ hT h4 h2, h3⟩, rfl⟩
  · intro name k N ty he
    obtain ⟨⟨name, k, N, ty⟩, he', e⟩ := List.mem_map.mp he
    cases e
    exact h.references _ _ _ _ he'

mutual

theorem Growth.describes (p : Growth ms big g) {lax : Bool} {σ : Scope} (hσ : σ.Within ms) {ty : AsnType} {t : Ty}
    (h : Describes lax ms σ ty t) : Describes lax big (σ.map g) ty t :=
  match h with
  | .boolean h => .boolean h
  | .null h => .null h
  | .objectIdentifier h => .objectIdentifier h
  | .integer h => .integer h
  | .boundedInteger h1 h2 h3 => .boundedInteger (p.inScope hσ h1) h2 h3
  | .enumerated h1 h2 h3 h4 h5 => .enumerated h1 h2 h3 h4 h5
  | .bitString h1 h2 => .bitString (p.inScope hσ h1) h2
  | .octetString h1 h2 => .octetString (p.inScope hσ h1) h2
  | .containing => .containing
  | .characterString h1 h2 h3 => .characterString h1 (p.inScope hσ h2) h3
  | .reference h1 h2 h3 => .reference h1 (p.scopeSees hσ h2) (p.describes (σ := .module _) (scopeSees_mem hσ h2) h3)
  | .sequence h1 h2 => .sequence h1 (p.describesFields hσ h2)
  | .sequenceOf h1 h2 h3 h4 => .sequenceOf h1 (p.inScopeImports hσ h2) h3 (p.describes hσ h4)
  | .choice h1 h2 h3 => .choice h1 h2 (p.describesAlts hσ h3)
  | .extensibleChoice h1 h2 h3 h4 => .extensibleChoice h1 h2 (p.describesAlts hσ h3) (p.describesAlts hσ h4)
  | .parameterized h1 h2 h3 h4 h5 => .parameterized h1 (p.scopeSees hσ h2) h3 h4
      (p.describes (σ := .inst _ _ _) ⟨hσ, scopeSees_mem hσ h2⟩ h5)
  | .table h1 h2 h3 h4 => .table h1 h2 (p.table hσ h3) (p.describesTable hσ h3 h4)
  | .emptyTable h1 h2 h3 h4 h5 => .emptyTable h1 h2 h3 (p.scopeSees hσ h4)
      (p.objects (scopeSees_mem hσ h4) h5)
termination_by structural h

theorem Growth.describesFields (p : Growth ms big g) {lax : Bool} {σ : Scope} (hσ : σ.Within ms) {i : Nat}
    {cs : List SeqComponent} {n : Nat} {fs : Fields} (h : DescribesFields lax ms σ i cs n fs) :
    DescribesFields lax big (σ.map g) i cs n fs :=
  match h with
  | .nil => .nil
  | .required h1 h2 h3 => .required h1 (p.describes hσ h2) (p.describesFields hσ h3)
  | .optional h1 h2 => .optional (p.describes hσ h1) (p.describesFields hσ h2)
termination_by structural h

theorem Growth.describesAlts (p : Growth ms big g) {lax : Bool} {σ : Scope} (hσ : σ.Within ms) {x : Bool} {i : Nat}
    {cs : List Component} {rest as : Alts} (h : DescribesAlts lax ms σ x i cs rest as) :
    DescribesAlts lax big (σ.map g) x i cs rest as :=
  match h with
  | .nil => .nil
  | .cons h1 h2 => .cons (p.describes hσ h1) (p.describesAlts hσ h2)
termination_by structural h

theorem Growth.describesTable (p : Growth ms big g) {lax : Bool} {σ : Scope} (hσ : σ.Within ms) {T : ObjectTable}
    (hT : TableIn ms σ T) {cs : List SeqComponent} {fs : Fields} (h : DescribesTable lax ms T cs fs) :
    DescribesTable lax big (T.map g) cs fs :=
  match h with
  | .nil => .nil
  | .key h1 h2 h3 h4 => .key (T := T.map g) h1 h2 (p.describes (σ := .module T.home) (table_home hσ hT) h3)
      (p.describesTable hσ hT h4)
  | .value h1 h2 h3 h4 h5 => .value (T := T.map g) h1 h2
      (fun _ ho => let ⟨o', ho', e⟩ := List.mem_map.mp ho; e ▸ h3 o' ho')
      (p.describes (σ := .module T.home) (table_home hσ hT) h4) (p.describesTable hσ hT h5)
  | .openType h1 h2 h3 h4 h5 => .openType (T := T.map g) h1 h2 (p.alternatives hσ hT h3).1
      (p.describesOpen (p.alternatives hσ hT h3).2 h4) (p.describesTable hσ hT h5)
termination_by structural h

theorem Growth.describesOpen (p : Growth ms big g) {lax : Bool} {l : List (Text × Int × Module × AsnType)}
    (hl : ∀ e ∈ l, e.2.2.1 ∈ ms) {as : Alts} (h : DescribesOpen lax ms l as) :
    DescribesOpen lax big (mapAlternatives g l) as :=
  match h with
  | .nil => .nil
  | .cons h1 h2 => .cons (p.describes (σ := .module _) (hl _ (.head _)) h1)
      (p.describesOpen (fun e he => hl e (.tail _ he)) h2)
termination_by structural h

end

end Hampi.Compiler.Spec
