import Verif.Spec.Plain
/-!
# Adding modules to a schema does not change what its types mean
-/
namespace Hampi.Compiler.Spec

/-- The modules `big` have different names, those of `ms` are among them and import only from each other. -/
structure Part (ms big : List Module) : Prop where
  sub : ∀ M ∈ ms, M ∈ big
  names : (big.map Module.name).Nodup
  found : ∀ M ∈ ms, ∀ i ∈ M.imports, ∃ N ∈ ms, N.name = i.2

variable {ms big : List Module}

theorem nodup_name {l : List Module} (h : (l.map Module.name).Nodup) {M N : Module} (hM : M ∈ l) (hN : N ∈ l)
    (e : M.name = N.name) : M = N := by
  induction l with
  | nil => cases hM
  | cons K l ih =>
    rw [List.map_cons, List.nodup_cons] at h
    rcases List.mem_cons.mp hM with rfl | h1 <;> rcases List.mem_cons.mp hN with rfl | h2
    · rfl
    · exact absurd (List.mem_map.mpr ⟨N, h2, e.symm⟩) h.1
    · exact absurd (List.mem_map.mpr ⟨M, h1, e⟩) h.1
    · exact ih h.2 h1 h2

theorem Part.imports (p : Part ms big) {M : Module} (hM : M ∈ ms) {x : Text} {N : Module} {d : Definition} :
    Imports big M x N d ↔ Imports ms M x N d := by
  constructor
  · rintro ⟨h1, h2, h3⟩
    obtain ⟨N', hN', e⟩ := p.found M hM _ h1
    cases nodup_name p.names (p.sub _ hN') h2 e
    exact ⟨h1, hN', h3⟩
  · rintro ⟨h1, h2, h3⟩
    exact ⟨h1, p.sub _ h2, h3⟩

theorem Part.sees (p : Part ms big) {M : Module} (hM : M ∈ ms) {x : Text} {N : Module} {d : Definition} :
    Sees big M x N d ↔ Sees ms M x N d := by
  constructor
  · rintro (h | h)
    · exact .own h
    · exact .imported ((p.imports hM).mp h)
  · rintro (h | h)
    · exact .own h
    · exact .imported ((p.imports hM).mpr h)

theorem sees_mem {M : Module} (hM : M ∈ ms) {x : Text} {N : Module} {d : Definition} (h : Sees ms M x N d) : N ∈ ms := by
  rcases h with _ | ⟨_, h, _⟩
  · exact hM
  · exact h

/-- The scope consists of modules of `ms`. -/
def Scope.Within (ms : List Module) : Scope → Prop
  | .module M => M ∈ ms
  | .inst _ outer inner => outer.Within ms ∧ inner ∈ ms

theorem Part.scopeSees (p : Part ms big) {σ : Scope} (hσ : σ.Within ms) {x : Text} {N : Module} {d : Definition} :
    σ.Sees big x N d ↔ σ.Sees ms x N d := by
  induction σ with
  | module M => exact p.sees hσ
  | inst args outer inner ih => simp only [Scope.Sees, ih hσ.1, p.sees hσ.2]

theorem Part.scopeImports (p : Part ms big) {σ : Scope} (hσ : σ.Within ms) {x : Text} {N : Module} {d : Definition} :
    σ.Imports big x N d ↔ σ.Imports ms x N d := by
  cases σ with
  | module M => exact p.imports hσ
  | inst args outer inner => simp only [Scope.Imports, p.scopeSees hσ.1, p.imports hσ.2]

theorem scopeSees_mem {σ : Scope} (hσ : σ.Within ms) {x : Text} {N : Module} {d : Definition} (h : σ.Sees ms x N d) :
    N ∈ ms := by
  induction σ with
  | module M => exact sees_mem hσ h
  | inst args outer inner ih =>
    rcases h with ⟨_, h⟩ | ⟨_, h⟩
    · exact ih hσ.1 h
    · exact sees_mem hσ.2 h

theorem Part.inScope (p : Part ms big) {σ : Scope} (hσ : σ.Within ms) {ns : Hampi.Spec.Names} (h : InScope (σ.Sees ms) ns) :
    InScope (σ.Sees big) ns := fun x v hx =>
  let ⟨N, a, h1, h2⟩ := h x v hx
  ⟨N, a, (p.scopeSees hσ).mpr h1, h2⟩

theorem Part.inScopeImports (p : Part ms big) {σ : Scope} (hσ : σ.Within ms) {ns : Hampi.Spec.Names}
    (h : InScope (σ.Imports ms) ns) : InScope (σ.Imports big) ns := fun x v hx =>
  let ⟨N, a, h1, h2⟩ := h x v hx
  ⟨N, a, (p.scopeImports hσ).mpr h1, h2⟩

theorem Part.behind (p : Part ms big) {M : Module} (hM : M ∈ ms) {ty : AsnType} {k : Kind} :
    Behind big M ty k ↔ Behind ms M ty k := by
  constructor
  · intro h
    induction h with
    | here h => exact .here h
    | reference h _ ih =>
      have h := (p.sees hM).mp h
      exact .reference h (ih (sees_mem hM h))
  · intro h
    induction h with
    | here h => exact .here h
    | reference h _ ih => exact .reference ((p.sees hM).mpr h) (ih (sees_mem hM h))

theorem Part.keyOf (p : Part ms big) {o : Written} (ho : o.1 ∈ ms) {u name : Text} {k : Int} :
    KeyOf big o u name k ↔ KeyOf ms o u name k := by
  constructor
  · rintro ⟨ty, N, a, h1, h2, ty', num, named, e, h3, h4⟩
    have h2 := (p.imports ho).mp h2
    exact ⟨ty, N, a, h1, h2, ty', num, named, e, (p.behind h2.2.1).mp h3, h4⟩
  · rintro ⟨ty, N, a, h1, h2, ty', num, named, e, h3, h4⟩
    exact ⟨ty, N, a, h1, (p.imports ho).mpr h2, ty', num, named, e, (p.behind h2.2.1).mpr h3, h4⟩

theorem Part.objects (p : Part ms big) {cls : Text} {M : Module} (hM : M ∈ ms) {es : List SetElement}
    {os : List Written} (h : Objects ms cls M es os) : Objects big cls M es os ∧ ∀ o ∈ os, o.1 ∈ ms := by
  induction h with
  | nil => exact ⟨.nil, nofun⟩
  | object _ ih =>
    refine ⟨.object (ih hM).1, fun o ho => ?_⟩
    rcases List.mem_cons.mp ho with rfl | ho
    · exact hM
    · exact (ih hM).2 o ho
  | objectRef h _ ih =>
    refine ⟨.objectRef ((p.sees hM).mpr h) (ih hM).1, fun o ho => ?_⟩
    rcases List.mem_cons.mp ho with rfl | ho
    · exact sees_mem hM h
    · exact (ih hM).2 o ho
  | setRef h _ _ ih1 ih2 =>
    have hN := sees_mem hM h
    refine ⟨.setRef ((p.sees hM).mpr h) (ih1 hN).1 (ih2 hM).1, fun o ho => ?_⟩
    rcases List.mem_append.mp ho with ho | ho
    · exact (ih1 hN).2 o ho
    · exact (ih2 hM).2 o ho

theorem Part.table (p : Part ms big) {σ : Scope} (hσ : σ.Within ms) {T : ObjectTable} (h : TableIn ms σ T) :
    TableIn big σ T ∧ T.home ∈ ms ∧ ∀ o ∈ T.objects, o.1 ∈ ms := by
  obtain ⟨N, root, add, h1, h2, h3⟩ := h.seen
  have hN := scopeSees_mem hσ h1
  have ho := p.objects hN h3
  refine ⟨⟨⟨N, root, add, (p.scopeSees hσ).mpr h1, (p.sees hN).mpr h2, ho.1⟩, h.unique, h.objects, ?_⟩,
    sees_mem hN h2, ho.2⟩
  intro o h4 q h5 n m k h6 h7
  exact h.differ o h4 q h5 n m k ((p.keyOf (ho.2 o h4)).mp h6) ((p.keyOf (ho.2 q h5)).mp h7)

theorem Part.alternatives (p : Part ms big) {T : ObjectTable} (hT : ∀ o ∈ T.objects, o.1 ∈ ms) {field : Text}
    {l : List (Text × Int × Module × AsnType)} (h : Alternatives ms T field l) : Alternatives big T field l ∧
      ∀ e ∈ l, e.2.2.1 ∈ ms := by
  refine ⟨⟨h.sorted, fun name k N ty => ?_, h.references⟩, fun e he => ?_⟩
  · rw [h.all]
    constructor
    · rintro ⟨fs, h1, h2, h3⟩
      exact ⟨fs, h1, (p.keyOf (hT _ h1)).mpr h2, h3⟩
    · rintro ⟨fs, h1, h2, h3⟩
      exact ⟨fs, h1, (p.keyOf (hT _ h1)).mp h2, h3⟩
  · obtain ⟨name, k, N, ty⟩ := e
    obtain ⟨fs, h1, _⟩ := (h.all name k N ty).mp he
    exact hT _ h1

mutual

theorem Part.describes (p : Part ms big) {lax : Bool} {σ : Scope} (hσ : σ.Within ms) {ty : AsnType} {t : Ty}
    (h : Describes lax ms σ ty t) : Describes lax big σ ty t :=
  match h with
  | .boolean h => .boolean h
  | .null h => .null h
  | .objectIdentifier h => .objectIdentifier h
  | .integer h => .integer h
  | .boundedInteger h1 h2 h3 => .boundedInteger (p.inScope hσ h1) h2 h3
  | .enumerated h1 h2 h3 h4 h5 => .enumerated h1 h2 h3 h4 h5
  | .bitString h1 h2 => .bitString (p.inScope hσ h1) h2
  | .octetString h1 h2 => .octetString (p.inScope hσ h1) h2
  | .containing => .containing
  | .characterString h1 h2 h3 => .characterString h1 (p.inScope hσ h2) h3
  | .reference h1 h2 h3 => .reference h1 ((p.scopeSees hσ).mpr h2) (p.describes (σ := .module _) (scopeSees_mem hσ h2) h3)
  | .sequence h1 h2 => .sequence h1 (p.describesFields hσ h2)
  | .sequenceOf h1 h2 h3 h4 => .sequenceOf h1 (p.inScopeImports hσ h2) h3 (p.describes hσ h4)
  | .choice h1 h2 h3 => .choice h1 h2 (p.describesAlts hσ h3)
  | .extensibleChoice h1 h2 h3 h4 => .extensibleChoice h1 h2 (p.describesAlts hσ h3) (p.describesAlts hσ h4)
  | .parameterized h1 h2 h3 h4 h5 => .parameterized h1 ((p.scopeSees hσ).mpr h2) h3 h4
      (p.describes (σ := .inst _ _ _) ⟨hσ, scopeSees_mem hσ h2⟩ h5)
  | .table h1 h2 h3 h4 => .table h1 h2 (p.table hσ h3).1 (p.describesTable (p.table hσ h3).2.1 (p.table hσ h3).2.2 h4)
  | .emptyTable h1 h2 h3 h4 h5 => .emptyTable h1 h2 h3 ((p.scopeSees hσ).mpr h4)
      (p.objects (scopeSees_mem hσ h4) h5).1
termination_by structural h

theorem Part.describesFields (p : Part ms big) {lax : Bool} {σ : Scope} (hσ : σ.Within ms) {i : Nat}
    {cs : List SeqComponent} {n : Nat} {fs : Fields} (h : DescribesFields lax ms σ i cs n fs) :
    DescribesFields lax big σ i cs n fs :=
  match h with
  | .nil => .nil
  | .required h1 h2 h3 => .required h1 (p.describes hσ h2) (p.describesFields hσ h3)
  | .optional h1 h2 => .optional (p.describes hσ h1) (p.describesFields hσ h2)
termination_by structural h

theorem Part.describesAlts (p : Part ms big) {lax : Bool} {σ : Scope} (hσ : σ.Within ms) {x : Bool} {i : Nat}
    {cs : List Component} {rest as : Alts} (h : DescribesAlts lax ms σ x i cs rest as) :
    DescribesAlts lax big σ x i cs rest as :=
  match h with
  | .nil => .nil
  | .cons h1 h2 => .cons (p.describes hσ h1) (p.describesAlts hσ h2)
termination_by structural h

theorem Part.describesTable (p : Part ms big) {lax : Bool} {T : ObjectTable} (hH : T.home ∈ ms)
    (hT : ∀ o ∈ T.objects, o.1 ∈ ms) {cs : List SeqComponent} {fs : Fields} (h : DescribesTable lax ms T cs fs) :
    DescribesTable lax big T cs fs :=
  match h with
  | .nil => .nil
  | .key h1 h2 h3 h4 => .key h1 h2 (p.describes (σ := .module T.home) hH h3) (p.describesTable hH hT h4)
  | .value h1 h2 h3 h4 h5 => .value h1 h2 h3 (p.describes (σ := .module T.home) hH h4) (p.describesTable hH hT h5)
  | .openType h1 h2 h3 h4 h5 => .openType h1 h2 (p.alternatives hT h3).1
      (p.describesOpen (p.alternatives hT h3).2 h4) (p.describesTable hH hT h5)
termination_by structural h

theorem Part.describesOpen (p : Part ms big) {lax : Bool} {l : List (Text × Int × Module × AsnType)}
    (hl : ∀ e ∈ l, e.2.2.1 ∈ ms) {as : Alts} (h : DescribesOpen lax ms l as) : DescribesOpen lax big l as :=
  match h with
  | .nil => .nil
  | .cons h1 h2 => .cons (p.describes (σ := .module _) (hl _ (.head _)) h1)
      (p.describesOpen (fun e he => hl e (.tail _ he)) h2)
termination_by structural h

end

end Hampi.Compiler.Spec
