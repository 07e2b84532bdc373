import Verif.Lemmas.Plain2
import Verif.Lemmas.ResolveMono
import Verif.Props.ObjectSets
/-! # Lemmas about definitions that have been resolved to what they mean -/
namespace Hampi.Compiler
open Hampi.Compiler.Spec
open Hampi.Spec (Numeral)

section
variable {ms : List Module} {R : Resolver}

/-! ## Names stand for one definition -/

theorem sees_unique (h : ProperSchema ms) {M M' N N' : Module} (hM : M ∈ ms) (hM' : M' ∈ ms) {x : Text}
    {d d' : Definition} (hs : Sees ms M x N d) (hs' : Sees ms M' x N' d') : N = N' ∧ d = d' := by
  obtain ⟨h1, h2⟩ := hs.mem hM
  obtain ⟨h3, h4⟩ := hs'.mem hM'
  exact same_definition h h1 h3 h2 h4

theorem nodup_same {α : Type} {l : List (Text × α)} (hn : (l.map (·.1)).Nodup) {x : Text} {a b : α} (ha : (x, a) ∈ l)
    (hb : (x, b) ∈ l) : a = b := by
  have e := get_of_mem hn ha
  rw [get_of_mem hn hb] at e
  exact (Option.some.inj e).symm

/-! ## Types behind references -/

/-- INTEGER or ENUMERATED. -/
inductive Scalar : Kind → Prop
  | integer {named} : Scalar (.integer named)
  | enumerated {vs marker add} : Scalar (.enumerated vs marker add)

/-- What such a type is resolved to. -/
inductive ScalarIs : Kind → RBase → Prop
  | integer {named b s c} : ScalarIs (.integer named) (.integer b s c)
  | enumerated {vs marker add b s e r x} : ScalarIs (.enumerated vs marker add) (.enumerated b s e r x)

/-- `Behind`, with the number of references. -/
inductive BehindN (ms : List Module) : Nat → Module → AsnType → Kind → Prop
  | here {M k cs} : BehindN ms 0 M (.mk k cs) k
  | reference {j M r cs N ty k} : Sees ms M r N ⟨.type ty, none⟩ → BehindN ms j N ty k →
      BehindN ms (j + 1) M (.mk (.reference r) cs) k

theorem behindN {M : Module} {ty : AsnType} {k : Kind} (h : Behind ms M ty k) : ∃ j, BehindN ms j M ty k := by
  induction h with
  | here _ => exact ⟨0, .here⟩
  | reference hs _ ih => obtain ⟨j, hj⟩ := ih; exact ⟨j + 1, .reference hs hj⟩

/-- The resolved type, after `j` references. -/
inductive RBehind (R : Resolver) (k : Kind) : Nat → RType → Prop
  | here {b} : ScalarIs k b → RBehind R k 0 (.base b)
  | reference {j r rt} : get R.resolved r = some (.type rt) → RBehind R k j rt → RBehind R k (j + 1) (.reference r)

theorem RBehind.grows {R' : Resolver} (hg : Grows R R') {k : Kind} {j : Nat} {rt : RType} (h : RBehind R k j rt) :
    RBehind R' k j rt := by
  induction h with
  | here h => exact .here h
  | reference h _ ih => exact .reference (hg.resolved _ _ h) ih

/-! ## Resolved definitions -/

/-- The field of an object has been resolved. -/
inductive RepField (ms : List Module) (R : Resolver) (cls : Text) (M : Module) : Text × ObjectField → Text × RField → Prop
  | type {f ty rt} : (∀ lax t, Describes lax ms (.module M) ty t → Means R rt t) →
      (∀ r cs, ty = .mk (.reference r) cs → rt = .reference r) →
      RepField ms R cls M (f, .type (some ty)) (f, .type (some rt))
  | value {f ty v rt rv} :
      (∀ K cf lax t, Sees ms M cls K ⟨.class cf, none⟩ → Describes lax ms (.module K) ty t → Means R rt t) →
      (∀ N a b, Imports ms M v N ⟨.value a b, none⟩ → rv = .reference v) →
      RepField ms R cls M (f, .fixedTypeValue ty (some v)) (f, .fixedTypeValue rt (some rv))

/-- The object has been resolved. -/
def Represents (ms : List Module) (R : Resolver) (cls : Text) (o : Written) (ro : RObject) : Prop :=
  All2 (RepField ms R cls o.1) o.2 ro.fields

/-- The table of a set has the keys of its objects. -/
structure TabOk (ms : List Module) (R : Resolver) (cls u : Text) (os : List Written)
    (table : List ((Text × Text) × RObject)) : Prop where
  sound : ∀ e ∈ table, ∃ o ∈ os, ∃ k, Represents ms R cls o e.2 ∧ KeyOf ms o u e.1.2 k ∧ e.1.1 = showInt k
  complete : ∀ o ∈ os, ∀ name k, KeyOf ms o u name k → ∃ ro, ((showInt k, name), ro) ∈ table

/-- What is known for `x`, defined in `N`, is what the definition means. -/
def ReadyAs (ms : List Module) (R : Resolver) (N : Module) (x : Text) : Definition → Prop
  | ⟨_, some e⟩ => get R.params x = some e
  | ⟨.type ty, none⟩ => ∃ rt, get R.resolved x = some (.type rt) ∧
      (∀ lax t, Describes lax ms (.module N) ty t → Means R rt t) ∧
      (∀ j k, Scalar k → BehindN ms j N ty k → RBehind R k j rt)
  | ⟨.value ty num, none⟩ => ∃ rv, get R.resolved x = some (.value rv) ∧
      (∀ v, DefinesNumber ms N (.value ty num) v → rv.baseInteger = some v) ∧
      (∀ v, DefinesInteger (.value ty num) v → rv = .integer v)
  | ⟨.class cf, none⟩ => get R.classes x = some cf
  | ⟨.object cls v, none⟩ => ∃ fs ro, v = .fields fs ∧ get R.resolved x = some (.object ro) ∧
      Represents ms R cls (N, fs) ro
  | ⟨.objectSet cls root add, none⟩ => ∃ s os, get R.resolved x = some (.objectSet s) ∧
      Objects ms cls N (root ++ add) os ∧ All2 (Represents ms R cls) os s.elements ∧ (s.table.map (·.1)).Nodup ∧
      ∀ K cf u, Sees ms N cls K ⟨.class cf, none⟩ → UniqueField cf u → TabOk ms R cls u os s.table

/-- What is known for `x` is what the definitions of `x` mean. -/
def Ready (ms : List Module) (R : Resolver) (x : Text) : Prop :=
  ∀ N ∈ ms, ∀ d, (x, d) ∈ N.definitions → ReadyAs ms R N x d

theorem All2.imp {α β : Type} {P Q : α → β → Prop} {l : List α} {r : List β} (h : All2 P l r) (hpq : ∀ x y, P x y → Q x y) :
    All2 Q l r := by
  induction h with
  | nil => exact .nil
  | cons h _ ih => exact .cons (hpq _ _ h) ih

theorem All2.append {α β : Type} {P : α → β → Prop} {l l' : List α} {r r' : List β} (h : All2 P l r) (h' : All2 P l' r') :
    All2 P (l ++ l') (r ++ r') := by
  induction h with
  | nil => exact h'
  | cons h _ ih => exact .cons h ih

theorem RepField.grows {R' : Resolver} (hg : Grows R R') {cls : Text} {M : Module} {f : Text × ObjectField}
    {rf : Text × RField} (h : RepField ms R cls M f rf) : RepField ms R' cls M f rf := by
  cases h with
  | type h1 h2 => exact .type (fun lax t hd => means_grows hg (h1 lax t hd)) h2
  | value h1 h2 => exact .value (fun K cf lax t hs hd => means_grows hg (h1 K cf lax t hs hd)) h2

theorem Represents.grows {R' : Resolver} (hg : Grows R R') {cls : Text} {o : Written} {ro : RObject}
    (h : Represents ms R cls o ro) : Represents ms R' cls o ro :=
  All2.imp h fun _ _ h => h.grows hg

theorem TabOk.grows {R' : Resolver} (hg : Grows R R') {cls u : Text} {os : List Written}
    {table : List ((Text × Text) × RObject)} (h : TabOk ms R cls u os table) : TabOk ms R' cls u os table := by
  refine ⟨fun e he => ?_, h.complete⟩
  obtain ⟨o, ho, k, h1, h2⟩ := h.sound e he
  exact ⟨o, ho, k, h1.grows hg, h2⟩

theorem ReadyAs.grows {R' : Resolver} (hg : Grows R R') {N : Module} {x : Text} {d : Definition}
    (h : ReadyAs ms R N x d) : ReadyAs ms R' N x d := by
  obtain ⟨kind, params⟩ := d
  cases params with
  | some e => exact hg.params _ _ h
  | none =>
    cases kind with
    | value ty num =>
      obtain ⟨rv, h1, h2⟩ := h
      exact ⟨rv, hg.resolved _ _ h1, h2⟩
    | type ty =>
      obtain ⟨rt, h1, h2, h3⟩ := h
      exact ⟨rt, hg.resolved _ _ h1, fun lax t hd => means_grows hg (h2 lax t hd),
        fun j k hk hb => (h3 j k hk hb).grows hg⟩
    | «class» cf => exact hg.classes _ _ h
    | objectSet cls root add =>
      obtain ⟨s, os, h1, h2, h3, h4, h5⟩ := h
      exact ⟨s, os, hg.resolved _ _ h1, h2, h3.imp fun _ _ h => h.grows hg, h4,
        fun K cf u hs hu => (h5 K cf u hs hu).grows hg⟩
    | object cls v =>
      obtain ⟨fs, ro, h1, h2, h3⟩ := h
      exact ⟨fs, ro, h1, hg.resolved _ _ h2, h3.grows hg⟩

theorem Ready.grows {R' : Resolver} (hg : Grows R R') {x : Text} (h : Ready ms R x) : Ready ms R' x :=
  fun N hN d hd => (h N hN d hd).grows hg

/-! ## What has to be resolved -/

/-- With a name, `S` has all the names that its definition uses, and all that its module imports. -/
def ClosedUnder (ms : List Module) (S : Text → Prop) : Prop :=
  ∀ x, S x → ∀ N ∈ ms, ∀ d, (x, d) ∈ N.definitions →
    (∀ r ∈ d.kind.refs, ∀ N' d', Sees ms N r N' d' → S r) ∧ ∀ r N' d', Imports ms N r N' d' → S r

/-- The names in `S` have been resolved. -/
structure Ctx (ms : List Module) (R : Resolver) (S : Text → Prop) : Prop where
  closed : ClosedUnder ms S
  ready : ∀ x, S x → Ready ms R x

/-- `S` has the names that are imported in the scope, and the parameters. -/
def Supplied (ms : List Module) (S : Text → Prop) : Scope → Prop
  | .module M => ∀ r N d, Imports ms M r N d → S r
  | .inst args outer inner => Supplied ms S outer ∧ (∀ r N d, Imports ms inner r N d → S r) ∧
      ∀ x ∈ args, ∀ N d, outer.Sees ms x N d → S x

theorem Supplied.imports {S : Text → Prop} {σ : Scope} (h : Supplied ms S σ) {r : Text} {N : Module} {d : Definition}
    (hi : σ.Imports ms r N d) : S r := by
  cases σ with
  | module M => exact h r N d hi
  | inst args outer inner =>
    rcases hi with ⟨h1, h2⟩ | ⟨_, h2⟩
    · exact h.2.2 r h1 N d h2
    · exact h.2.1 r N d h2

/-- `S` has the names in `l` that can be seen. -/
def Has (ms : List Module) (S : Text → Prop) (σ : Scope) (l : List Text) : Prop :=
  ∀ r ∈ l, ∀ N d, σ.Sees ms r N d → S r

theorem ctx_env {S : Text → Prop} (hc : Ctx ms R S) {sees : Text → Module → Definition → Prop}
    (hM : Honest ms sees) {ns : Hampi.Spec.Names} (hs : InScope sees ns) {l : List Text}
    (hr : ∀ r ∈ l, ∀ N d, sees r N d → S r) : ∀ x v, x ∈ l → ns.int x = some v → R.env x = some v := by
  intro x v hx hv
  obtain ⟨N, a, hsee, ha⟩ := hs x v hv
  obtain ⟨hN, hd⟩ := hM _ _ _ hsee
  have := hc.ready x (hr x hx N _ hsee) N hN _ hd
  have ha' := ha
  obtain ⟨_, _, _, rfl, _⟩ := ha'
  obtain ⟨rv, h1, _, h3⟩ := this
  unfold Resolver.env
  rw [h1, h3 v ha]

/-! ## Objects -/

theorem objects_unique (h : ProperSchema ms) {cls : Text} {M : Module} {es : List SetElement} {os : List Written}
    (ho : Objects ms cls M es os) : M ∈ ms → ∀ {ps}, Objects ms cls M es ps → os = ps := by
  induction ho with
  | nil => intro _ ps hp; cases hp; rfl
  | object _ ih => intro hM ps hp; cases hp with | object hp => rw [ih hM hp]
  | objectRef hs _ ih =>
    intro hM ps hp
    cases hp with
    | objectRef hs' hp =>
      obtain ⟨rfl, he⟩ := sees_unique h hM hM hs hs'
      injection he with he
      injection he with _ he
      injection he with he
      rw [ih hM hp, he]
  | setRef hs _ _ ih1 ih2 =>
    intro hM ps hp
    cases hp with
    | setRef hs' hp1 hp2 =>
      obtain ⟨rfl, he⟩ := sees_unique h hM hM hs hs'
      injection he with he
      injection he with _ he1 he2
      subst he1 he2
      rw [ih1 (hs.mem hM).1 hp1, ih2 hM hp2]

/-- The objects of a set, with their class. -/
theorem objects_proper (h : ProperSchema ms) {cls : Text} {K : Module} {cf : List (Text × ClassField)} {M : Module}
    {es : List SetElement} {os : List Written} (ho : Objects ms cls M es os) :
    M ∈ ms → Sees ms M cls K ⟨.class cf, none⟩ → (∀ e ∈ es, ProperElement ms M cls K cf e) →
    ∀ o ∈ os, o.1 ∈ ms ∧ Sees ms o.1 cls K ⟨.class cf, none⟩ ∧ ProperObject ms o.1 K cf o.2 ∧ ProperKey ms cf o := by
  induction ho with
  | nil => intro _ _ _ o ho; cases ho
  | object _ ih =>
    intro hM hc he o ho
    rcases List.mem_cons.mp ho with rfl | ho
    · cases he _ List.mem_cons_self with
      | object h1 h2 => exact ⟨hM, hc, h1, h2⟩
    · exact ih hM hc (fun e h => he e (List.mem_cons_of_mem _ h)) o ho
  | objectRef hs _ ih =>
    intro hM hc he o ho
    rcases List.mem_cons.mp ho with rfl | ho
    · obtain ⟨hN, hd⟩ := hs.mem hM
      cases he _ List.mem_cons_self with
      | objectRef hs' hk =>
        obtain ⟨rfl, hde⟩ := sees_unique h hM hM hs hs'
        injection hde with hde
        injection hde with _ hde
        injection hde with hde
        subst hde
        cases h.proper _ hN _ hd with
        | object h1 h2 _ =>
          obtain ⟨rfl, hcf⟩ := sees_unique h hN hM h1 hc
          injection hcf with hcf
          injection hcf with hcf
          subst hcf
          exact ⟨hN, h1, h2, hk⟩
    · exact ih hM hc (fun e h => he e (List.mem_cons_of_mem _ h)) o ho
  | setRef hs _ _ ih1 ih2 =>
    intro hM hc he o ho
    rcases List.mem_append.mp ho with ho | ho
    · obtain ⟨hN, hd⟩ := hs.mem hM
      cases h.proper _ hN _ hd with
      | objectSet h1 h2 =>
        obtain ⟨rfl, hcf⟩ := sees_unique h hN hM h1 hc
        injection hcf with hcf
        injection hcf with hcf
        subst hcf
        exact ih1 hN h1 h2 o ho
    · exact ih2 hM hc (fun e h => he e (List.mem_cons_of_mem _ h)) o ho

theorem represents_names {cls : Text} {o : Written} {ro : RObject} (h : Represents ms R cls o ro) :
    ro.fields.map (·.1) = o.2.map (·.1) := by
  unfold Represents at h
  generalize o.2 = fs at h
  generalize ro.fields = rfs at h
  induction h with
  | nil => rfl
  | cons h _ ih =>
    rw [List.map_cons, List.map_cons, ih]
    cases h <;> rfl

/-- The field of an object, resolved. -/
theorem represents_get {cls : Text} {o : Written} {ro : RObject} (h : Represents ms R cls o ro)
    (hn : (o.2.map (·.1)).Nodup) {f : Text} {x : ObjectField} (hx : (f, x) ∈ o.2) :
    ∃ y, get ro.fields f = some y ∧ RepField ms R cls o.1 (f, x) (f, y) := by
  obtain ⟨⟨g, y⟩, hy, hr⟩ := All2.mem_left h _ hx
  have : g = f := by cases hr <;> rfl
  subst this
  exact ⟨y, get_of_mem (by rw [represents_names h]; exact hn) hy, hr⟩

theorem represents_field {cls : Text} {o : Written} {ro : RObject} (h : Represents ms R cls o ro) {f : Text} {y : RField}
    (hg : get ro.fields f = some y) : ∃ x, (f, x) ∈ o.2 ∧ RepField ms R cls o.1 (f, x) (f, y) := by
  obtain ⟨⟨g, x⟩, hx, hr⟩ := All2.mem_right h _ (get_mem hg)
  have : g = f := by cases hr <;> rfl
  subst this
  exact ⟨x, hx, hr⟩

end
end Hampi.Compiler
