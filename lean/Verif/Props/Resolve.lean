import Verif.Props.Order
/-!
# C70, C72-C78 — what resolving a schema keeps and loses
-/
namespace Hampi.Compiler.Props
open Spec

/-! ## C70 -/

/-- C70, violated: a constraint written on a type reference makes no difference. `Foo ::= Bar (0..5)`
is resolved as `Foo ::= Bar`, whatever the constraint, even one that names unknown values. -/
theorem C70_reference_constraint_violated (n : Nat) (R : Resolver) (r : Text) (cs : List Constraint) :
    resolveType n R (.mk (.reference r) (some cs)) = resolveType n R (.mk (.reference r) none) := by
  cases n <;> rfl

/-- A constraint on an INTEGER does make a difference. -/
example : resolveType 1 {} (.mk (.integer none)
      (some [.subtype (.mk [[.range "0".toList true "5".toList true]] none)])) ≠
    resolveType 1 {} (.mk (.integer none) none) := by
  intro h
  have h1 : resolveType 1 {} (.mk (.integer none)
      (some [.subtype (.mk [[.range "0".toList true "5".toList true]] none)])) =
      .ok (.base (.integer 8 false (some ⟨⟨[(0, 6)], []⟩, none⟩))) := rfl
  have h2 : resolveType 1 {} (.mk (.integer none) none) = .ok (.base (.integer 64 true none)) := rfl
  rw [h1, h2] at h
  cases h

/-- `Bar ::= INTEGER`, `Foo ::= Bar (0..5)`. -/
def constrainedModule : Module :=
  plainModule "M".toList []
    [("Bar".toList, .type (.mk (.integer none) none)),
     ("Foo".toList, .type (.mk (.reference "Bar".toList)
        (some [.subtype (.mk [[.range "0".toList true "5".toList true]] none)])))]

example : ∃ R', ResolvesModule 5 {} constrainedModule (.ok R') ∧
    get R'.resolved "Foo".toList = some (.type (.reference "Bar".toList)) := by
  refine ⟨_, ⟨["Bar".toList, "Foo".toList], ?_, rfl⟩, rfl⟩
  exact .round (popped := ["Bar".toList]) (rest := ["Foo".toList]) (by decide) (by decide)
    (.round (popped := ["Foo".toList]) (rest := []) (by decide) (by decide) (.done (by decide)))

/-! ## C72 -/

/-- In `A`: `T ::= BOOLEAN`, `S ::= T`. In `B`, which imports `S` from `A`: `T ::= INTEGER`. -/
def clashing : List Module :=
  [plainModule "A".toList []
     [("T".toList, .type (.mk .boolean none)), ("S".toList, .type (.mk (.reference "T".toList) none))],
   plainModule "B".toList [("S".toList, "A".toList)] [("T".toList, .type (.mk (.integer none) none))]]

theorem clashing_order : Sorted (moduleNeeds clashing) ["A".toList, "B".toList] :=
  .round (popped := ["A".toList]) (rest := ["B".toList]) (by decide) (by decide)
    (.round (popped := ["B".toList]) (rest := []) (by decide) (by decide) (.done (by decide)))

/-- C72, violated: definitions of the same name in two modules are not kept apart. Here `S`, a BOOLEAN,
becomes an INTEGER, because a module that merely uses it has a type of its own called `T`. -/
theorem C72_same_name_violated :
    ∃ R, ResolvesModules 5 {} clashing (.ok R) ∧
      get R.resolved "S".toList = some (.type (.reference "T".toList)) ∧
      get R.resolved "T".toList = some (.type (.base (.integer 64 true none))) := by
  refine ⟨_, ⟨_, clashing_order, _, ⟨["T".toList, "S".toList], ?_, rfl⟩, _, ⟨["T".toList], ?_, rfl⟩, rfl⟩,
    rfl, rfl⟩
  · exact .round (popped := ["T".toList]) (rest := ["S".toList]) (by decide) (by decide)
      (.round (popped := ["S".toList]) (rest := []) (by decide) (by decide) (.done (by decide)))
  · exact .round (popped := ["T".toList]) (rest := []) (by decide) (by decide) (.done (by decide))

/-- In `A`: `T ::= INTEGER`, `S ::= T`. In `B`, which imports `S` from `A`: `T ::= S`, `v T ::= 5`. -/
def knotted : List Module :=
  [plainModule "A".toList []
     [("T".toList, .type (.mk (.integer none) none)), ("S".toList, .type (.mk (.reference "T".toList) none))],
   plainModule "B".toList [("S".toList, "A".toList)]
     [("T".toList, .type (.mk (.reference "S".toList) none)),
      ("v".toList, .value (.mk (.reference "T".toList) none) "5".toList)]]

theorem resolveValue_knot {R : Resolver} {v s t : Text} (hv : get R.resolved v = none)
    (hs : get R.resolved s = some (.type (.reference t))) (ht : get R.resolved t = some (.type (.reference s))) :
    ∀ n, resolveValue n R v (.reference s) = .diverge ∧ resolveValue n R v (.reference t) = .diverge
  | 0 => ⟨rfl, rfl⟩
  | n + 1 => by
      have ih := resolveValue_knot hv hs ht n
      constructor
      · rw [resolveValue, hv]
        dsimp only
        rw [hs]
        dsimp only
        rw [ih.2]
        rfl
      · rw [resolveValue, hv]
        dsimp only
        rw [ht]
        dsimp only
        rw [ih.1]
        rfl

/-- C72, violated: two modules, each correct and without recursion, that send the compiler into endless
recursion (no number of nested calls is enough), because `T` of the second replaces `T` of the first. -/
theorem C72_endless_recursion_violated (n : Nat) : ResolvesModules (n + 1) {} knotted .diverge := by
  have o1 : Sorted (moduleNeeds knotted) ["A".toList, "B".toList] :=
    .round (popped := ["A".toList]) (rest := ["B".toList]) (by decide) (by decide)
      (.round (popped := ["B".toList]) (rest := []) (by decide) (by decide) (.done (by decide)))
  refine ⟨_, o1, _, ⟨["T".toList, "S".toList], ?_, rfl⟩, .diverge, ⟨["T".toList, "v".toList], ?_, ?_⟩, rfl⟩
  · exact .round (popped := ["T".toList]) (rest := ["S".toList]) (by decide) (by decide)
      (.round (popped := ["S".toList]) (rest := []) (by decide) (by decide) (.done (by decide)))
  · exact .round (popped := ["T".toList]) (rest := ["v".toList]) (by decide) (by decide)
      (.round (popped := ["v".toList]) (rest := []) (by decide) (by decide) (.done (by decide)))
  · have key := resolveValue_knot
      (R := ⟨[("S".toList, .type (.reference "T".toList)), ("T".toList, .type (.reference "S".toList))], [], []⟩)
      (v := "5".toList) (s := "S".toList) (t := "T".toList) rfl rfl rfl (n + 1)
    have h : resolveDefinition (n + 1)
        ⟨[("S".toList, .type (.reference "T".toList)), ("T".toList, .type (.reference "S".toList))], [], []⟩
        (.value (.mk (.reference "T".toList) none) "5".toList) = .diverge := by
      rw [resolveDefinition]
      show (resolveValue (n + 1) _ "5".toList (.reference "T".toList)).bind _ = _
      rw [key.2]
      rfl
    show Out.diverge = ((resolveDefinition (n + 1)
        ⟨[("S".toList, .type (.reference "T".toList)), ("T".toList, .type (.reference "S".toList))], [], []⟩
        (.value (.mk (.reference "T".toList) none) "5".toList)).bind _).bind _
    rw [h]
    rfl

/-! ## C73 -/

/-- A name that is a type in one module is not anything else in another. -/
def SameKinds (ms : List Module) : Prop :=
  ∀ M ∈ ms, ∀ N ∈ ms, ∀ k d e, (k, d) ∈ M.definitions → (k, e) ∈ N.definitions →
    (∃ ty, d.kind = .type ty) → ∃ ty, e.kind = .type ty

/-- Resolved types come from type definitions of the modules. -/
def FromTypes (ms : List Module) (R : Resolver) : Prop :=
  ∀ k, IsType R k → ∃ M ∈ ms, ∃ d, (k, d) ∈ M.definitions ∧ ∃ ty, d.kind = .type ty

theorem readDefinition_kind {R : Resolver} {M : Module} {d e : Text × Definition}
    (h : readDefinition R M d = .ok e) : (∃ ty, e.2.kind = .type ty) ↔ ∃ ty, d.2.kind = .type ty := by
  unfold readDefinition at h
  split at h
  · rename_i hk
    split at h
    · cases h
    · rw [Out.bind_ok] at h
      obtain ⟨x, _, h⟩ := h
      cases h; simp [hk]
  · split at h <;> cases h
    exact Iff.rfl
  · rename_i hk
    split at h
    · cases h
    · rw [Out.bind_ok] at h
      obtain ⟨x, _, h⟩ := h
      cases h; simp [hk]
  · cases h; exact Iff.rfl

theorem resolveOne_isType {n : Nat} {defs : List (Text × Definition)} {R R' : Resolver} {k j : Text}
    (h : resolveOne n defs R k = .ok R') (hj : IsType R' j) :
    IsType R j ∨ ∃ d, (j, d) ∈ defs ∧ ∃ ty, d.kind = .type ty := by
  by_cases hjk : j = k
  · subst hjk
    unfold resolveOne at h
    split at h
    · cases h; exact .inl hj
    · rename_i d hd
      split at h
      · cases h; exact .inl hj
      · split at h
        · cases h; exact .inl hj
        · rw [Out.bind_ok] at h
          obtain ⟨x, hx, h⟩ := h
          cases h
          obtain ⟨t, ht⟩ := hj
          rw [get_put, if_pos rfl] at ht
          cases ht
          refine .inr ⟨d, get_mem hd, ?_⟩
          unfold resolveDefinition at hx
          split at hx <;> try simp only [Out.bind_ok] at hx
          · obtain ⟨_, _, _, _, hx⟩ := hx; cases hx
          · rename_i ty hty; exact ⟨ty, hty⟩
          · obtain ⟨_, _, hx⟩ := hx; cases hx
          · obtain ⟨_, _, hx⟩ := hx; cases hx
          · cases hx
  · obtain ⟨t, ht⟩ := hj
    exact .inl ⟨t, by rw [← (resolveOne_keeps h hjk).1]; exact ht⟩

theorem resolveInOrder_isType {n : Nat} {defs : List (Text × Definition)} {j : Text} : {order : List Text} →
    {R R' : Resolver} → resolveInOrder n defs R order = .ok R' → IsType R' j →
    IsType R j ∨ ∃ d, (j, d) ∈ defs ∧ ∃ ty, d.kind = .type ty
  | [], R, R', h, hj => by cases h; exact .inl hj
  | k :: ks, R, R', h, hj => by
      rw [resolveInOrder, Out.bind_ok] at h
      obtain ⟨R1, h1, h2⟩ := h
      rcases resolveInOrder_isType h2 hj with hj | hj
      · exact resolveOne_isType h1 hj
      · exact .inr hj

theorem module_closed {n : Nat} {ms : List Module} (hk : SameKinds ms) {M : Module} (hM : M ∈ ms)
    {R R' : Resolver} (h : ResolvesModule n R M (.ok R')) (hC : Closed R) (hF : FromTypes ms R) :
    Closed R' ∧ FromTypes ms R' := by
  obtain ⟨defs, order, hd, hs, hr⟩ := resolvesModule_ok h
  have hall := mapOut_ok hd
  have hdef : ∀ k d, (k, d) ∈ defs → ∃ d0, (k, d0) ∈ M.definitions ∧
      ((∃ ty, d.kind = .type ty) ↔ ∃ ty, d0.kind = .type ty) := by
    intro k d hkd
    obtain ⟨x, hx, hxy⟩ := hall.mem_right _ hkd
    have h1 := readDefinition_key hxy
    have h2 := readDefinition_kind hxy
    obtain ⟨kx, dx⟩ := x
    cases h1.1
    exact ⟨dx, hx, h2⟩
  refine ⟨resolveInOrder_closed hr hs.nodup hC ?_, fun k hkt => ?_⟩
  · intro k _ d hg ht
    obtain ⟨N, hN, e, he, hty⟩ := hF k ht
    obtain ⟨d0, hd0, hiff⟩ := hdef k d (get_mem hg)
    exact hiff.mpr (hk N hN M hM k e d0 he hd0 hty)
  · rcases resolveInOrder_isType hr hkt with hkt | ⟨d, hdm, hty⟩
    · exact hF k hkt
    · obtain ⟨d0, hd0, hiff⟩ := hdef k d hdm
      exact ⟨M, hM, d0, hd0, hiff.mp hty⟩

theorem order_closed {n : Nat} {ms : List Module} (hk : SameKinds ms) : {order : List Text} → {R R' : Resolver} →
    ResolvesOrder n ms order R (.ok R') → Closed R → FromTypes ms R → Closed R'
  | [], R, R', h, hC, _ => by cases h; exact hC
  | k :: ks, R, R', h, hC, hF => by
      rw [ResolvesOrder] at h
      split at h
      · cases h
      · rename_i M hM
        obtain ⟨r1, h1, h2⟩ := h
        have hmem : M ∈ ms := List.mem_of_find?_eq_some hM
        split at h2
        · obtain ⟨c1, c2⟩ := module_closed hk hmem h1 hC hF
          exact order_closed hk h2 c1 c2
        all_goals cases h2

/-- C73: when the compiler has resolved a set of modules without error, every type named anywhere in
the results is itself among the resolved types, provided no name is a type in one module and
something else in another. (Missing: that proviso, see `C73_not_a_type_violated`.) -/
theorem C73_nothing_dangles_partial (n : Nat) (ms : List Module) (hk : SameKinds ms) (R : Resolver)
    (h : ResolvesModules n {} ms (.ok R)) : Closed R := by
  unfold ResolvesModules at h
  split at h
  · obtain ⟨order, _, ho⟩ := h
    refine order_closed hk ho ?_ ?_
    · intro k d hd; cases hd
    · rintro k ⟨t, ht⟩; cases ht
  · cases h

example : SameKinds clashing := by
  intro M hM N hN k d e hd he _
  simp only [clashing, plainModule, List.mem_cons, List.not_mem_nil, or_false] at hM hN
  rcases hN with rfl | rfl <;>
    simp only [List.map_cons, List.map_nil, List.mem_cons, List.not_mem_nil, or_false, Prod.mk.injEq] at he
  · rcases he with ⟨_, rfl⟩ | ⟨_, rfl⟩
    · exact ⟨_, rfl⟩
    · exact ⟨_, rfl⟩
  · obtain ⟨_, rfl⟩ := he
    exact ⟨_, rfl⟩

/-- In `A`: `T ::= BOOLEAN`, `S ::= T`. In `B`, which imports `S`: `C ::= CLASS {...}` and the object
set `T C ::= {}`. -/
def notAType : List Module :=
  [plainModule "A".toList []
     [("T".toList, .type (.mk .boolean none)), ("S".toList, .type (.mk (.reference "T".toList) none))],
   { plainModule "B".toList [("S".toList, "A".toList)]
       [("C".toList, .class []), ("T".toList, .objectSet "C".toList [] [])] with
     readSet := fun s _ => .ok s }]

/-- C73, violated without the proviso: `S` is resolved to `T`, and `T` is not a type. -/
theorem C73_not_a_type_violated : ∃ R, ResolvesModules 5 {} notAType (.ok R) ∧ ¬ Closed R := by
  have o1 : Sorted (moduleNeeds notAType) ["A".toList, "B".toList] :=
    .round (popped := ["A".toList]) (rest := ["B".toList]) (by decide) (by decide)
      (.round (popped := ["B".toList]) (rest := []) (by decide) (by decide) (.done (by decide)))
  refine ⟨_, ⟨_, o1, _, ⟨["T".toList, "S".toList], ?_, rfl⟩, _, ⟨["C".toList, "T".toList], ?_, rfl⟩, rfl⟩, ?_⟩
  · exact .round (popped := ["T".toList]) (rest := ["S".toList]) (by decide) (by decide)
      (.round (popped := ["S".toList]) (rest := []) (by decide) (by decide) (.done (by decide)))
  · exact .round (popped := ["C".toList]) (rest := ["T".toList]) (by decide) (by decide)
      (.round (popped := ["T".toList]) (rest := []) (by decide) (by decide) (.done (by decide)))
  · intro hC
    obtain ⟨t, ht⟩ := hC "S".toList (.type (.reference "T".toList)) rfl "T".toList (.head _)
    have ht : some (RDef.objectSet ⟨[], []⟩) = some (RDef.type t) := ht
    cases ht

/-! ## C74 -/

/-- C74, violated: `add_module` is documented to return `false` when a module of that name exists and
`true` otherwise. It does the opposite. -/
theorem C74_add_module_violated (ms : List Module) (M : Module) :
    (addModule ms M).2 = true ↔ ∃ N ∈ ms, N.name = M.name :=
  getModule_isSome

/-- C74: after adding, the module is found by its name, other modules are as before, and no name is
there twice if none was. -/
theorem C74_add_module_effect (ms : List Module) (M : Module) :
    getModule (addModule ms M).1 M.name = some M ∧
    (∀ k, k ≠ M.name → getModule (addModule ms M).1 k = getModule ms k) ∧
    ((ms.map (·.name)).Nodup → ((addModule ms M).1.map (·.name)).Nodup) := by
  refine ⟨by simp [addModule, getModule], fun k hk => ?_, fun hn => ?_⟩
  · have hk' : (M.name == k) = false := by simpa using fun e => hk e.symm
    simp only [addModule, getModule, List.find?_cons, hk']
    rw [List.find?_filter]
    congr 1
    funext N
    by_cases h : N.name = k
    · subst h
      simp [hk]
    · have : (N.name == k) = false := by simpa using h
      simp [this]
  · simp only [addModule, List.map_cons, List.nodup_cons]
    refine ⟨?_, ?_⟩
    · simp
    · exact hn.sublist (List.filter_sublist.map _)

example : (addModule [] treeModule).2 = false ∧ (addModule [treeModule] treeModule).2 = true := by decide

/-! ## C75 -/

/-- The identifier, presence and type of a component. -/
def SameComponent (n : Nat) (R : Resolver) : SeqComponent → RSeqComponent → Prop
  | .mk id ty opt _, .mk id' t opt' key => id' = id ∧ opt' = opt ∧ key = false ∧ resolveType n R ty = .ok t

/-- The identifier and type of an alternative. -/
def SameAlternative (n : Nat) (R : Resolver) : Component → RComponent → Prop
  | .mk id ty, .mk id' t => id' = id ∧ resolveType n R ty = .ok t

theorem All2.imp {α β : Type} {P Q : α → β → Prop} (hpq : ∀ x y, P x y → Q x y) {l : List α} {r : List β}
    (h : All2 P l r) : All2 Q l r := by
  induction h with
  | nil => exact .nil
  | cons h _ ih => exact .cons (hpq _ _ h) ih

/-- C75: when the types of all its components can be resolved, a SEQUENCE is resolved to one with the
same components in the same order, each optional exactly when declared OPTIONAL, and is extensible
exactly when it has an extension marker. (Missing: components declared DEFAULT and those in addition
groups, see `C75_default_violated` and `C75_addition_groups_violated`.) -/
theorem C75_sequence_partial (n : Nat) (R : Resolver) (root : List SeqComponent) (adds : List SeqGroup) (ext : Bool)
    (cs : Option (List Constraint))
    (hok : ∀ c ∈ root, ∀ id ty opt d, c = .mk id ty opt d → ∃ t, resolveType n R ty = .ok t) :
    ∃ comps, resolveType (n + 1) R (.mk (.sequence root adds ext) cs) = .ok (.sequence ext comps) ∧
      All2 (SameComponent n R) root comps := by
  have h : ∃ comps, mapOut (resolveComponent (resolveType n R)) root = .ok comps ∧ All2 (SameComponent n R) root comps := by
    clear cs
    induction root with
    | nil => exact ⟨[], rfl, .nil⟩
    | cons c root ih =>
      obtain ⟨comps, h1, h2⟩ := ih fun c hc => hok c (.tail _ hc)
      obtain ⟨id, ty, opt, d⟩ := c
      obtain ⟨t, ht⟩ := hok _ (.head _) id ty opt d rfl
      refine ⟨.mk id t opt false :: comps, ?_, .cons ⟨rfl, rfl, rfl, ht⟩ h2⟩
      rw [mapOut, Out.bind_ok]
      refine ⟨.mk id t opt false, by rw [resolveComponent, ht]; rfl, ?_⟩
      rw [h1]; rfl
  obtain ⟨comps, h1, h2⟩ := h
  refine ⟨comps, ?_, h2⟩
  rw [resolveType]
  rw [h1]

/-- C75: a CHOICE keeps its alternatives, in order, and those of its additions, and stays extensible. -/
theorem C75_choice (n : Nat) (R : Resolver) (root : List Component) (adds : Option (List ChoiceGroup))
    (cs : Option (List Constraint)) (t : RType)
    (h : resolveType (n + 1) R (.mk (.choice root adds) cs) = .ok t) :
    ∃ comps more, t = .choice comps more ∧ All2 (SameAlternative n R) root comps ∧
      (more.isSome ↔ adds.isSome) ∧
      ∀ gs as, adds = some gs → more = some as →
        All2 (SameAlternative n R) (groupComponents gs) as := by
  have one : ∀ {l : List Component} {r : List RComponent}, mapOut (resolveAlternative (resolveType n R)) l = .ok r →
      All2 (SameAlternative n R) l r := by
    intro l r hl
    refine All2.imp (fun x y hxy => ?_) (mapOut_ok hl)
    obtain ⟨id, ty⟩ := x
    rw [resolveAlternative, Out.bind_ok] at hxy
    obtain ⟨t, ht, hxy⟩ := hxy
    cases hxy
    exact ⟨rfl, ht⟩
  rw [resolveType, Out.bind_ok] at h
  obtain ⟨comps, hc, h⟩ := h
  split at h
  · cases h
    exact ⟨comps, none, rfl, one hc, by simp, fun gs as hg => by cases hg⟩
  · rw [Out.bind_ok] at h
    obtain ⟨as, ha, h⟩ := h
    cases h
    refine ⟨comps, some as, rfl, one hc, by simp, fun gs as' hg ha' => ?_⟩
    cases hg; cases ha'
    exact one ha

example : ∃ t, resolveType 2 {} (.mk (.choice [.mk "a".toList (.mk .null none)]
    (some [.mk none [.mk "b".toList (.mk .boolean none)]])) none) = .ok t := ⟨_, rfl⟩

/-- C75, violated: a component declared with a DEFAULT value is resolved like one without: it is
mandatory, and the value is forgotten. (X.691 gives it a bit in the preamble.) -/
theorem C75_default_violated (n : Nat) (R : Resolver) (pre post : List SeqComponent) (adds : List SeqGroup)
    (ext : Bool) (cs : Option (List Constraint)) (id : Text) (ty : AsnType) (v : Text) :
    resolveType n R (.mk (.sequence (pre ++ .mk id ty false (some v) :: post) adds ext) cs) =
      resolveType n R (.mk (.sequence (pre ++ .mk id ty false none :: post) adds ext) cs) := by
  cases n with
  | zero => rfl
  | succ n =>
    rw [resolveType, resolveType]
    have h1 : ∀ (f : SeqComponent → Out Err RSeqComponent),
        (f (.mk id ty false (some v)) = f (.mk id ty false none)) →
        mapOut f (pre ++ .mk id ty false (some v) :: post) = mapOut f (pre ++ .mk id ty false none :: post) := by
      intro f hf
      induction pre with
      | nil => simp only [List.nil_append, mapOut, hf]
      | cons p pre ih => simp only [List.cons_append, mapOut, ih]
    have h2 : allComponents (pre ++ .mk id ty false (some v) :: post) adds =
        allComponents (pre ++ .mk id ty false none :: post) adds := by
      simp [allComponents]
    have h3 : resolveClassFields R (pre ++ .mk id ty false (some v) :: post) adds ext =
        resolveClassFields R (pre ++ .mk id ty false none :: post) adds ext := by
      unfold resolveClassFields
      rw [h2]
    rw [h1 _ rfl, h3]

/-- C75, violated: when the root components can be resolved, the components in addition groups
(`[[ ... ]]`) disappear without an error, even if their types are unknown. -/
theorem C75_addition_groups_violated (n : Nat) (R : Resolver) (root : List SeqComponent) (adds : List SeqGroup)
    (ext : Bool) (cs : Option (List Constraint))
    (hok : ∀ c ∈ root, ∀ id ty opt d, c = .mk id ty opt d → ∃ t, resolveType n R ty = .ok t) :
    resolveType (n + 1) R (.mk (.sequence root adds ext) cs) =
      resolveType (n + 1) R (.mk (.sequence root [] ext) cs) := by
  obtain ⟨c1, h1, k1⟩ := C75_sequence_partial n R root adds ext cs hok
  obtain ⟨c2, h2, k2⟩ := C75_sequence_partial n R root [] ext cs hok
  have e : ∀ (a : List SeqGroup) c, resolveType (n + 1) R (.mk (.sequence root a ext) cs) = .ok (.sequence ext c) →
      ∀ c', mapOut (resolveComponent (resolveType n R)) root = .ok c' → c = c' := by
    intro a c h c' hc'
    rw [resolveType, hc'] at h
    cases h
    rfl
  have hm : ∃ c', mapOut (resolveComponent (resolveType n R)) root = .ok c' := by
    clear h1 h2 e k1 k2 c1 c2 cs
    induction root with
    | nil => exact ⟨[], rfl⟩
    | cons c root ih =>
      obtain ⟨comps, h1⟩ := ih fun c hc => hok c (.tail _ hc)
      obtain ⟨id, ty, opt, d⟩ := c
      obtain ⟨t, ht⟩ := hok _ (.head _) id ty opt d rfl
      refine ⟨.mk id t opt false :: comps, ?_⟩
      rw [mapOut, Out.bind_ok]
      refine ⟨.mk id t opt false, by rw [resolveComponent, ht]; rfl, ?_⟩
      rw [h1]; rfl
  obtain ⟨c', hc'⟩ := hm
  rw [h1, h2, e _ _ h1 _ hc', e _ _ h2 _ hc']

example : ∀ c ∈ [SeqComponent.mk "a".toList (.mk (.integer none) none) true none], ∀ id ty opt d,
    c = .mk id ty opt d → ∃ t, resolveType 1 {} ty = .ok t := by
  intro c hc id ty opt d he
  rw [List.mem_singleton] at hc
  subst hc
  cases he
  exact ⟨_, rfl⟩

/-! ## C76 -/

/-- C76: a definition that is a reference to something that is not a resolved type is refused. -/
theorem C76_unknown_type_refused_partial (n : Nat) (R : Resolver) (r : Text) (cs : Option (List Constraint))
    (h : ¬ IsType R r) : resolveDefinition (n + 1) R (.type (.mk (.reference r) cs)) = .err .resolve := by
  have : resolveType (n + 1) R (.mk (.reference r) cs) = .err .resolve := by
    rw [resolveType]
    split
    · rename_i t ht; exact absurd ⟨t, ht⟩ h
    · rfl
  rw [resolveDefinition, this]
  rfl

example : ¬ IsType {} "T".toList := by rintro ⟨t, ht⟩; cases ht

/-- C76: and so is a CHOICE or SEQUENCE OF that contains one. -/
theorem C76_unknown_type_in_choice_refused (n : Nat) (R : Resolver) (pre post : List Component) (id r : Text)
    (adds : Option (List ChoiceGroup)) (cs cs' : Option (List Constraint)) (h : ¬ IsType R r) (t : RType) :
    resolveDefinition (n + 2) R (.type (.mk (.choice (pre ++ .mk id (.mk (.reference r) cs) :: post) adds) cs')) ≠
      .ok (.type t) := by
  intro hd
  rw [resolveDefinition, Out.bind_ok] at hd
  obtain ⟨t, ht, _⟩ := hd
  rw [resolveType, Out.bind_ok] at ht
  obtain ⟨comps, hc, _⟩ := ht
  obtain ⟨y, _, hy⟩ := (mapOut_ok hc).mem_left (.mk id (.mk (.reference r) cs)) (by simp)
  rw [resolveAlternative, Out.bind_ok] at hy
  obtain ⟨t', ht', _⟩ := hy
  rw [resolveType] at ht'
  split at ht'
  · rename_i t ht; exact absurd ⟨t, ht⟩ h
  · cases ht'

/-- C76, violated: in a SEQUENCE whose first component has no constraint, an unknown type is not
reported: the compiler panics. -/
theorem C76_unknown_type_in_sequence_violated (n : Nat) (R : Resolver) (id r : Text) (kind : Kind) (id' : Text)
    (post : List SeqComponent) (adds : List SeqGroup) (ext opt opt' : Bool) (d d' : Option Text)
    (cs cs' : Option (List Constraint)) (t : RType)
    (hfirst : resolveType (n + 1) R (.mk kind none) = .ok t) (h : ¬ IsType R r) :
    resolveType (n + 2) R (.mk (.sequence
      (.mk id (.mk kind none) opt d :: .mk id' (.mk (.reference r) cs) opt' d' :: post) adds ext) cs') = .panic := by
  have h2 : resolveType (n + 1) R (.mk (.reference r) cs) = .err .resolve := by
    rw [resolveType]
    split
    · rename_i t ht; exact absurd ⟨t, ht⟩ h
    · rfl
  rw [resolveType]
  have : mapOut (resolveComponent (resolveType (n + 1) R))
      (.mk id (.mk kind none) opt d :: .mk id' (.mk (.reference r) cs) opt' d' :: post) = .err .resolve := by
    rw [mapOut, resolveComponent, hfirst]
    show (mapOut _ _).bind _ = _
    rw [mapOut, resolveComponent, h2]
    rfl
  rw [this]
  rfl

/-- `Foo ::= SEQUENCE { a INTEGER, b Unknown }`. -/
example : resolveType 2 {} (.mk (.sequence
    [.mk "a".toList (.mk (.integer none) none) false none,
     .mk "b".toList (.mk (.reference "Unknown".toList) none) false none] [] false) none) = .panic := rfl

/-! ## C77 -/

/-- C77, violated: in a SEQUENCE with components taken from the fields of a class, the other components
disappear: the result is that of the same SEQUENCE without them. (`first` is a class field; the set has
been resolved.) -/
theorem C77_ordinary_component_lost_violated (setref : Text) (s : RObjectSet) (pre post : List (Text × AsnType))
    (id : Text) (kind : Kind) (cs : Option (List Constraint)) (hkind : ∀ c f, kind ≠ .classField c f) :
    objectComponents setref s (pre ++ (id, .mk kind cs) :: post) = objectComponents setref s (pre ++ post) := by
  unfold objectComponents
  split
  · rfl
  · rename_i first rest hel
    have hone : objectComponent setref s first id (.mk kind cs) = .ok none := by
      unfold objectComponent
      split
      · rename_i h; cases h; exact absurd rfl (hkind _ _)
      · rfl
    have key : ∀ pre : List (Text × AsnType),
        ((mapOut (fun c => objectComponent setref s first c.1 c.2) (pre ++ (id, .mk kind cs) :: post)).bind fun l =>
          (.ok (l.filterMap _root_.id) : Out Err (List RSeqComponent))) =
        (mapOut (fun c => objectComponent setref s first c.1 c.2) (pre ++ post)).bind fun l =>
          .ok (l.filterMap _root_.id) := by
      intro pre
      induction pre with
      | nil =>
        simp only [List.nil_append, mapOut, hone]
        cases mapOut (fun c => objectComponent setref s first c.1 c.2) post <;> rfl
      | cons p pre ih =>
        simp only [List.cons_append, mapOut]
        cases h : objectComponent setref s first p.1 p.2 with
        | ok a =>
          simp only [Out.bind] at ih ⊢
          cases h1 : mapOut (fun c => objectComponent setref s first c.1 c.2) (pre ++ (id, .mk kind cs) :: post) <;>
            cases h2 : mapOut (fun c => objectComponent setref s first c.1 c.2) (pre ++ post) <;>
            simp only [h1, h2] at ih ⊢ <;> first | (cases ih; done) | (cases ih; rfl) | skip
          · simp only [Out.ok.injEq] at ih
            cases a <;> simp [ih]
        | err e => rfl
        | panic => rfl
        | diverge => rfl
    exact key pre

example : ∀ c f, Kind.boolean ≠ .classField c f := nofun

/-- C77, violated: no component of such a SEQUENCE is optional in the result, whatever was declared. -/
theorem C77_optional_lost_violated (setref : Text) (s : RObjectSet) (cs : List (Text × AsnType))
    (l : List RSeqComponent) (h : objectComponents setref s cs = .ok l) :
    ∀ id ty opt key, RSeqComponent.mk id ty opt key ∈ l → opt = false := by
  unfold objectComponents at h
  split at h
  · cases h; intro id ty opt key hm; cases hm
  · rw [Out.bind_ok] at h
    obtain ⟨l', hl', h⟩ := h
    cases h
    intro id ty opt key hm
    rw [List.mem_filterMap] at hm
    obtain ⟨y, hy, hm⟩ := hm
    simp only [_root_.id] at hm
    subst hm
    obtain ⟨c, _, hc⟩ := (mapOut_ok hl').mem_right _ hy
    unfold objectComponent at hc
    split at hc
    · split at hc
      · rw [Out.bind_ok] at hc
        obtain ⟨_, _, hc⟩ := hc
        cases hc; rfl
      · cases hc; rfl
    · cases hc

/-! ## C78 -/

theorem mem_putType_self (m : List (Text × Text × Text)) (e : Text × Text × Text) : e ∈ putType m e := by
  induction m with
  | nil => simp [putType]
  | cons f m ih =>
    rw [putType]
    split
    · exact .head _
    · split
      · exact .head _
      · exact .tail _ ih

theorem mem_putType_other {m : List (Text × Text × Text)} {e x : Text × Text × Text} (hx : x ∈ m)
    (hne : (x.1, x.2.1) ≠ (e.1, e.2.1)) : x ∈ putType m e := by
  induction m with
  | nil => cases hx
  | cons f m ih =>
    rw [putType]
    split
    · rename_i h
      rcases List.mem_cons.mp hx with rfl | hx
      · exact absurd h.symm hne
      · exact .tail _ hx
    · split
      · exact .tail _ hx
      · rcases List.mem_cons.mp hx with rfl | hx
        · exact .head _
        · exact .tail _ (ih hx)

/-- C78: the alternatives of an open type governed by an object set are exactly the objects of the set's
table that give the field a named type: one alternative for each, with the name of the object's key,
its number and that type. (`htable`: a table has each key once, as every table made by the resolver does.
Missing: objects that are in the set but not in its table, see `C78_literal_key_violated`.) -/
theorem C78_open_type_alternatives_partial (field : Text) (s : RObjectSet) (htable : (s.table.map (·.1)).Nodup)
    (name number ty : Text) :
    (name, number, ty) ∈ setTypes field s ↔
      ∃ o, ((number, name), o) ∈ s.table ∧ get o.fields field = some (.type (some (.reference ty))) := by
  refine ⟨fun h => mem_setTypes h, ?_⟩
  rintro ⟨o, ho, hg⟩
  unfold setTypes
  have key : ∀ (l : List ((Text × Text) × RObject)) (m : List (Text × Text × Text)),
      (l.map (·.1)).Nodup →
      ((((number, name), o) ∈ l) ∨ ((name, number, ty) ∈ m ∧ ∀ e ∈ l, e.1 ≠ (number, name))) →
      (name, number, ty) ∈ l.foldl (fun m (e : (Text × Text) × RObject) =>
        match get e.2.fields field with
        | some (.type (some (.reference t))) => putType m (e.1.2, e.1.1, t)
        | _ => m) m := by
    intro l
    induction l with
    | nil =>
      rintro m _ (h | h)
      · cases h
      · exact h.1
    | cons e l ih =>
      intro m hn h
      rw [List.map_cons, List.nodup_cons] at hn
      rw [List.foldl_cons]
      refine ih _ hn.2 ?_
      rcases h with h | ⟨h, hne⟩
      · rcases List.mem_cons.mp h with h | h
        · subst h
          refine .inr ⟨?_, fun e he hc => hn.1 (List.mem_map.mpr ⟨e, he, hc⟩)⟩
          dsimp only
          rw [hg]
          exact mem_putType_self _ _
        · exact .inl h
      · refine .inr ⟨?_, fun e' he' => hne e' (.tail _ he')⟩
        have := hne e (.head _)
        split
        · refine mem_putType_other h ?_
          rintro hc
          simp only [Prod.mk.injEq] at hc
          exact this (by rw [hc.1, hc.2])
        · exact h
  exact key _ _ htable (.inl ho)

example : setTypes "&Value".toList ⟨[], [(("7".toList, "id-a".toList),
    ⟨[("&id".toList, .fixedTypeValue (.base .boolean) none),
      ("&Value".toList, .type (some (.reference "A".toList)))]⟩)]⟩ =
    [("id-a".toList, "7".toList, "A".toList)] := by decide

/-- Keys stay different when objects are added. -/
theorem tablePut_nodup {t : List ((Text × Text) × RObject)} (h : (t.map (·.1)).Nodup) (k : Text × Text)
    (o : RObject) : ((tablePut t k o).map (·.1)).Nodup := by
  unfold tablePut
  rw [List.map_cons, List.nodup_cons]
  refine ⟨?_, h.sublist (List.filter_sublist.map _)⟩
  simp

theorem addObject_nodup {R : Resolver} {u : Option Text} {s s' : RObjectSet} {o : RObject}
    (h : addObject R u s o = .ok s') (hs : (s.table.map (·.1)).Nodup) : (s'.table.map (·.1)).Nodup := by
  unfold addObject at h
  dsimp only at h
  split at h
  · cases h; exact hs
  · split at h
    · cases h
    · cases h; exact hs
    · cases h
    · split at h
      · split at h
        · cases h; exact tablePut_nodup hs _ _
        · cases h
      · cases h; exact hs
      · cases h
    · cases h; exact hs

/-- C78: the table of every object set the resolver makes has each key once. -/
theorem C78_keys_once (n : Nat) (R : Resolver) (cls : Text) (root add : List SetElement) (s : RObjectSet)
    (h : resolveObjectSet n R cls root add = .ok s) : (s.table.map (·.1)).Nodup := by
  unfold resolveObjectSet at h
  split at h
  · cases h
  · rename_i fields _
    have step : ∀ (es : List SetElement) (s s' : RObjectSet), addElements n R (firstUnique fields) s es = .ok s' →
        (s.table.map (·.1)).Nodup → (s'.table.map (·.1)).Nodup := by
      intro es
      induction es with
      | nil => intro s s' h hs; cases h; exact hs
      | cons e es ih =>
        intro s s' h hs
        rw [addElements, Out.bind_ok] at h
        obtain ⟨s1, h1, h2⟩ := h
        refine ih s1 s' h2 ?_
        unfold addElement at h1
        split at h1
        · split at h1
          · rename_i o _
            cases h1
            show ((o.table.foldr (fun e t => tablePut t e.1 e.2) s.table).map (·.1)).Nodup
            generalize o.table = l
            induction l with
            | nil => exact hs
            | cons x l ihl => exact tablePut_nodup ihl _ _
          · cases h1
        · split at h1
          · exact addObject_nodup h1 hs
          · cases h1
        · rw [Out.bind_ok] at h1
          obtain ⟨o, _, h1⟩ := h1
          exact addObject_nodup h1 hs
    exact step _ _ _ h (by simp)

/-- C78, violated: an object whose unique field is given by a number instead of the name of a value is
in the set, but not in the table: the open type has no alternative for it. -/
theorem C78_literal_key_violated (R : Resolver) (u : Text) (s : RObjectSet) (o : RObject) (ty : RType) (i : Int)
    (h : get o.fields u = some (.fixedTypeValue ty (some (.integer i)))) :
    addObject R (some u) s o = .ok ⟨s.elements ++ [o], s.table⟩ := by
  unfold addObject
  dsimp only
  rw [h]

end Hampi.Compiler.Props
