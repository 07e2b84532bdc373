import Verif.Lemmas.Closed
/-!
# C58, C59, C63, C71 — the order in which modules and definitions are resolved

`Sorted needs order` says that `order` is an order the sorting loop can produce (which one depends on
the iteration order of hash maps). `Needs`, `Reaches`, `Cyclic` and `Before` are in Spec/Order.lean.
-/
namespace Hampi.Compiler.Props
open Spec

/-! ## C58 -/

/-- C58: in every order the sort can produce nothing is repeated, every name comes after all it needs,
and a name that is defined is present exactly when it is not on, or above, a reference cycle. There is
always such an order. -/
theorem C58_order (needs : List (Text × List Text)) :
    (∃ order, Sorted needs order) ∧
    ∀ order, Sorted needs order →
      order.Nodup ∧
      (∀ k r, k ∈ order → Needs needs k r → Before order r k) ∧
      (∀ k rs, (k, rs) ∈ needs → (k ∈ order ↔ ¬ Cyclic needs k)) :=
  ⟨PopsAll.exists _, fun _ h => ⟨h.nodup, fun _ _ hk hr => h.before hk hr,
    fun _ rs hk => h.mem_iff (.inl ⟨rs, hk⟩)⟩⟩

/-- C58: the names in the order are those that are defined and those that are needed. -/
theorem C58_nothing_else (needs : List (Text × List Text)) (order : List Text) (h : Sorted needs order)
    (k : Text) (hk : k ∈ order) : (∃ rs, (k, rs) ∈ needs) ∨ ∃ j, Needs needs j k := h.mem hk

/-- Four definitions: `a` needs `b` and `c`, `b` needs `c`; `d` needs itself and `a`. -/
def exampleNeeds : List (Text × List Text) :=
  [("a".toList, ["b".toList, "c".toList]), ("b".toList, ["c".toList]), ("c".toList, []),
   ("d".toList, ["d".toList, "a".toList])]

example : Sorted exampleNeeds ["c".toList, "b".toList, "a".toList] :=
  .round (popped := ["c".toList]) (rest := ["b".toList, "a".toList]) (by decide) (by decide)
    (.round (popped := ["b".toList]) (rest := ["a".toList]) (by decide) (by decide)
      (.round (popped := ["a".toList]) (rest := []) (by decide) (by decide) (.done (by decide))))
example : Cyclic exampleNeeds "d".toList :=
  .inl (.one ⟨["d".toList, "a".toList], by decide, by decide⟩)
example : ¬ Cyclic exampleNeeds "a".toList := by
  have h : Sorted exampleNeeds ["c".toList, "b".toList, "a".toList] :=
    .round (popped := ["c".toList]) (rest := ["b".toList, "a".toList]) (by decide) (by decide)
      (.round (popped := ["b".toList]) (rest := ["a".toList]) (by decide) (by decide)
        (.round (popped := ["a".toList]) (rest := []) (by decide) (by decide) (.done (by decide))))
  exact (((C58_order exampleNeeds).2 _ h).2.2 _ _ (.head _)).mp (by decide)

/-! ## C59 -/

/-- Whatever `resolve_definitions` does in a module, it goes through an order of the definitions it
read. -/
theorem resolvesModule_ok {n : Nat} {R R' : Resolver} {M : Module} (h : ResolvesModule n R M (.ok R')) :
    ∃ defs order, mapOut (readDefinition (addClasses R M.definitions) M) M.definitions = .ok defs ∧
      Sorted (needsOf M.imports defs) order ∧
      resolveInOrder n defs (addClasses R M.definitions) order = .ok R' := by
  unfold ResolvesModule at h
  split at h
  · rename_i defs hd
    obtain ⟨order, h1, h2⟩ := h
    exact ⟨defs, order, hd, h1, h2.symm⟩
  all_goals cases h

/-- C59 for definitions that are neither on nor above a reference cycle: when a module has been
resolved without error, each of them has been. (Missing: the others, which are lost, see
`C59_cyclic_lost_violated`.) -/
theorem C59_acyclic_partial (n : Nat) (imports : List (Text × Text)) (defs : List (Text × Definition))
    (hkeys : (defs.map (·.1)).Nodup) (R R' : Resolver) (order : List Text)
    (hs : Sorted (needsOf imports defs) order) (h : resolveInOrder n defs R order = .ok R')
    (k : Text) (d : Definition) (hk : (k, d) ∈ defs) (hc : ¬ Cyclic (needsOf imports defs) k) :
    (∀ e, d.params = some e → get R'.params k = some e) ∧
    (d.params = none → ∀ fs, d.kind = .class fs → get R'.classes k = some fs) ∧
    (d.params = none → (∀ fs, d.kind ≠ .class fs) →
      ∃ R1 x, resolveDefinition n R1 d.kind = .ok x ∧ get R'.resolved k = some x) := by
  have hm : k ∈ order := (hs.mem_iff (.inl ⟨_, List.mem_map.mpr ⟨_, hk, rfl⟩⟩)).mpr hc
  obtain ⟨a, b, R1, R2, _, _, h2, h3, h4, h5⟩ := resolveInOrder_at h hs.nodup hm
  unfold resolveOne at h2
  rw [get_of_mem hkeys hk] at h2
  dsimp only at h2
  refine ⟨fun e he => ?_, fun hp fs hf => ?_, fun hp hf => ?_⟩
  · rw [he] at h2
    cases h2
    rw [h4, get_put, if_pos rfl]
  · rw [hp] at h2
    dsimp only at h2
    rw [hf] at h2
    cases h2
    rw [h5, get_put, if_pos rfl]
  · rw [hp] at h2
    dsimp only at h2
    split at h2
    · rename_i fs hfs
      exact absurd hfs (hf fs)
    · rw [Out.bind_ok] at h2
      obtain ⟨x, hx, h2⟩ := h2
      cases h2
      exact ⟨R1, x, hx, by rw [h3, get_put, if_pos rfl]⟩

/-- C59, violated: whatever a definition on or above a reference cycle says, resolving the module
leaves no trace of it: neither a resolved nor a parameterized definition of that name is added. -/
theorem C59_cyclic_lost_violated (n : Nat) (imports : List (Text × Text)) (defs : List (Text × Definition))
    (R R' : Resolver) (order : List Text) (hs : Sorted (needsOf imports defs) order)
    (h : resolveInOrder n defs R order = .ok R') (k : Text) (d : Definition) (hk : (k, d) ∈ defs)
    (hc : Cyclic (needsOf imports defs) k) :
    get R'.resolved k = get R.resolved k ∧ get R'.params k = get R.params k := by
  have hm : k ∉ order := fun hm =>
    (hs.mem_iff (.inl ⟨_, List.mem_map.mpr ⟨_, hk, rfl⟩⟩)).mp hm hc
  have := resolveInOrder_keeps h hm
  exact ⟨this.1, this.2.1⟩

/-- A module without objects. -/
def plainModule (name : Text) (imports : List (Text × Text)) (defs : List (Text × Assignment)) : Module :=
  ⟨name, imports, defs.map fun d => (d.1, ⟨d.2, none⟩), fun _ _ => .err .parse, fun _ _ => .err .parse⟩

/-- `Tree ::= SEQUENCE { left Tree OPTIONAL, size INTEGER }`, `Depth ::= INTEGER`. -/
def treeModule : Module :=
  plainModule "M".toList []
    [("Tree".toList, .type (.mk (.sequence
        [.mk "left".toList (.mk (.reference "Tree".toList) none) true none,
         .mk "size".toList (.mk (.integer none) none) false none] [] false) none)),
     ("Depth".toList, .type (.mk (.integer none) none))]

/-- C59, violated, on a recursive type, which ASN.1 allows: the module is resolved without error, and
`Tree` is not among the results. -/
theorem C59_recursive_type_violated :
    ∃ R', ResolvesModule 5 {} treeModule (.ok R') ∧ get R'.resolved "Tree".toList = none ∧
      (get R'.resolved "Depth".toList).isSome := by
  refine ⟨_, ⟨["Depth".toList], ?_, rfl⟩, rfl, rfl⟩
  exact .round (popped := ["Depth".toList]) (rest := []) (by decide) (by decide) (.done (by decide))

example : ¬ Cyclic (needsOf treeModule.imports treeModule.definitions) "Depth".toList := by
  have h : Sorted (needsOf treeModule.imports treeModule.definitions) ["Depth".toList] :=
    .round (popped := ["Depth".toList]) (rest := []) (by decide) (by decide) (.done (by decide))
  exact (h.mem_iff (.inl ⟨[], by decide⟩)).mp (by decide)

/-! ## C63 -/

theorem getModule_isSome {ms : List Module} {k : Text} :
    (getModule ms k).isSome ↔ ∃ M ∈ ms, M.name = k := by
  simp [getModule]

/-- C63: when the modules imported from have been found, every order of the modules has each module
after those it imports from, contains only names of modules (looking them up does not panic), and
contains every module that is neither on nor above an import cycle. -/
theorem C63_module_order (ms : List Module) (hi : importsFound ms = true) (order : List Text)
    (h : Sorted (moduleNeeds ms) order) :
    order.Nodup ∧
    (∀ k ∈ order, ∃ M, getModule ms k = some M) ∧
    (∀ M ∈ ms, M.name ∈ order → ∀ i ∈ M.imports, Before order i.2 M.name) ∧
    (∀ M ∈ ms, M.name ∈ order ↔ ¬ Cyclic (moduleNeeds ms) M.name) := by
  refine ⟨h.nodup, fun k hk => ?_, fun M hM hk i him => ?_, fun M hM => ?_⟩
  · rw [← Option.isSome_iff_exists]
    rcases h.mem hk with ⟨rs, hr⟩ | ⟨j, rs, hr, hkr⟩
    · obtain ⟨M, hM, he⟩ := List.mem_map.mp hr
      cases he
      exact getModule_isSome.mpr ⟨M, hM, rfl⟩
    · obtain ⟨M, hM, he⟩ := List.mem_map.mp hr
      cases he
      obtain ⟨i, him, rfl⟩ := List.mem_map.mp hkr
      unfold importsFound at hi
      rw [List.all_eq_true] at hi
      have := hi M hM
      rw [List.all_eq_true] at this
      exact this i him
  · exact h.before hk ⟨_, List.mem_map.mpr ⟨M, hM, rfl⟩, List.mem_map.mpr ⟨i, him, rfl⟩⟩
  · exact h.mem_iff (.inl ⟨_, List.mem_map.mpr ⟨M, hM, rfl⟩⟩)

/-- `A` imports `T` from `B`; `B` imports nothing. -/
def twoModules : List Module :=
  [plainModule "A".toList [("T".toList, "B".toList)] [("S".toList, .type (.mk (.reference "T".toList) none))],
   plainModule "B".toList [] [("T".toList, .type (.mk .boolean none))]]

example : importsFound twoModules = true ∧ Sorted (moduleNeeds twoModules) ["B".toList, "A".toList] :=
  ⟨by decide, .round (popped := ["B".toList]) (rest := ["A".toList]) (by decide) (by decide)
    (.round (popped := ["A".toList]) (rest := []) (by decide) (by decide) (.done (by decide)))⟩

/-- C63, what it does not give: modules that import from each other, which ASN.1 allows, are left out
without an error, whatever they define. -/
theorem C63_mutual_imports_violated (a b : Text) (x y : Text) (da db : List (Text × Assignment))
    (hab : a ≠ b) :
    ∀ n r, ResolvesModules n {} [plainModule a [(x, b)] da, plainModule b [(y, a)] db] r ↔ r = .ok {} := by
  intro n r
  have hi : importsFound [plainModule a [(x, b)] da, plainModule b [(y, a)] db] = true := by
    simp [importsFound, plainModule, getModule]
  have hba : ¬ b = a := fun e => hab e.symm
  have hr : (graphOf (moduleNeeds [plainModule a [(x, b)] da, plainModule b [(y, a)] db])).ready = [] := by
    simp [moduleNeeds, plainModule, graphOf, Graph.addDependency, Graph.insert, Graph.ready, hab, hba]
  unfold ResolvesModules
  rw [if_pos hi]
  constructor
  · rintro ⟨order, hs, ho⟩
    rw [PopsAll.nothing hs hr] at ho
    exact ho
  · rintro rfl
    exact ⟨[], .done hr, rfl⟩

/-! ## C71 -/

/-- `Foo ::= SEQUENCE (SIZE (1..max)) OF INTEGER`, `max INTEGER ::= 5`. -/
def sizeModule : Module :=
  plainModule "M".toList []
    [("Foo".toList, .type (.mk (.sequenceOf
        (some (.subtype (.mk [[.size (.mk [[.range "1".toList true "max".toList true]] none)]] none)))
        (.mk (.integer none) none)) none)),
     ("max".toList, .value (.mk (.integer none) none) "5".toList)]

/-- C71, violated: the bound of a SEQUENCE OF may be a value of the same module, but does not count as
needed. Whether the module is resolved or refused depends on the iteration order of a hash map. -/
theorem C71_size_bound_violated :
    (∃ R', ResolvesModule 5 {} sizeModule (.ok R') ∧ (get R'.resolved "Foo".toList).isSome) ∧
    ∃ e, ResolvesModule 5 {} sizeModule (.err e) := by
  refine ⟨⟨_, ⟨["max".toList, "Foo".toList], ?_, rfl⟩, rfl⟩, ⟨_, ⟨["Foo".toList, "max".toList], ?_, rfl⟩⟩⟩
  · exact .round (popped := ["max".toList, "Foo".toList]) (rest := []) (by decide) (by decide)
      (.done (by decide))
  · exact .round (popped := ["Foo".toList, "max".toList]) (rest := []) (by decide) (by decide)
      (.done (by decide))

/-- `a INTEGER ::= b`, `b INTEGER ::= 5`. -/
def valueModule : Module :=
  plainModule "M".toList []
    [("a".toList, .value (.mk (.integer none) none) "b".toList),
     ("b".toList, .value (.mk (.integer none) none) "5".toList)]

/-- C71, violated: a value given by another value of the same module. The module is resolved, or the
compiler panics. -/
theorem C71_value_reference_violated :
    (∃ R', ResolvesModule 5 {} valueModule (.ok R') ∧ (get R'.resolved "a".toList).isSome) ∧
    ResolvesModule 5 {} valueModule .panic := by
  refine ⟨⟨_, ⟨["b".toList, "a".toList], ?_, rfl⟩, rfl⟩, ⟨["a".toList, "b".toList], ?_, rfl⟩⟩
  · exact .round (popped := ["b".toList, "a".toList]) (rest := []) (by decide) (by decide)
      (.done (by decide))
  · exact .round (popped := ["a".toList, "b".toList]) (rest := []) (by decide) (by decide)
      (.done (by decide))

end Hampi.Compiler.Props
