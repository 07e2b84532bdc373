import Verif.Props.Pipeline
import Verif.Props.Tokenizer
import Verif.Compiler.ParserDefs
import Verif.Lemmas.MoreModules
/-!
# C71, C72 — what does not depend on the order, or on other modules
-/
namespace Hampi.Compiler.Props
open _root_.Hampi.Compiler.Spec

/-! ## C71 -/

/-- **C71 (partial).** Whether a schema in which every definition has a meaning is accepted does not depend on the
iteration order of hash maps: it always is. Neither do the types that are generated: in the files of two runs, each
type has the same codec. Missing, because false: schemas whose definitions use values of their own module in sizes and
values, or names that are neither imported nor their own. -/
theorem C71_order_partial (ms ms' : List Module) (hread : ReadAs ms ms') (h : ProperSchema ms') :
    ∃ n₀, ∀ n, n₀ ≤ n → ∀ r s, ResolvesModules n {} ms r → ResolvesModules n {} ms s →
      ∃ R S, r = .ok R ∧ s = .ok S ∧ ∀ sp, ∃ items jtems, generate sp R = .ok items ∧ generate sp S = .ok jtems ∧
        ∀ M ∈ ms', ∀ x ty, (x, ⟨.type ty, none⟩) ∈ M.definitions → ∃ t,
          Stands items (typeIdent x) t ∧ Stands jtems (typeIdent x) t ∧
            (DistinctNames items → DistinctNames jtems → ∀ u, Stands items (typeIdent x) u ↔ Stands jtems (typeIdent x) u) := by
  obtain ⟨n₀, hn₀⟩ := C95_schema_compiles ms ms' hread h
  refine ⟨n₀, fun n hn r s hr hs => ?_⟩
  obtain ⟨R, rfl, -, hR⟩ := (hn₀ n hn).2 r hr
  obtain ⟨S, rfl, -, hS⟩ := (hn₀ n hn).2 s hs
  refine ⟨R, S, rfl, rfl, fun sp => ?_⟩
  obtain ⟨items, hi, hR⟩ := hR sp
  obtain ⟨jtems, hj, hS⟩ := hS sp
  refine ⟨items, jtems, hi, hj, fun M hM x ty hx => ?_⟩
  obtain ⟨t, ht⟩ : ∃ t, Describes true ms' (.module M) ty t := by
    cases h.proper M hM _ hx with
    | type ht => exact ⟨_, ht⟩
  have h1 := hR M hM x ty true t hx ht
  have h2 := hS M hM x ty true t hx ht
  refine ⟨t, h1.1, h2.1, fun d1 d2 u => ⟨fun hu => ?_, fun hu => ?_⟩⟩
  · rw [h1.2 d1 u hu]
    exact h2.1
  · rw [h2.2 d2 u hu]
    exact h1.1

example := C71_order_partial schema schema schema_read schema_proper

/-- `A`: `S ::= T`; `B`: `T ::= BOOLEAN`. Nothing is imported. -/
def unimported : List Module :=
  [plainModule "A".toList [] [("S".toList, .type (.mk (.reference "T".toList) none))],
   plainModule "B".toList [] [("T".toList, .type (.mk .boolean none))]]

/-- **C71 is violated** by a name that is not imported: the schema is accepted if the module that defines it happens
to be resolved first, and refused otherwise. -/
theorem C71_unimported_violated :
    (∃ R, ResolvesModules 5 {} unimported (.ok R) ∧ (get R.resolved "S".toList).isSome) ∧
    ∃ e, ResolvesModules 5 {} unimported (.err e) := by
  refine ⟨⟨_, ⟨["B".toList, "A".toList], ?_, _, ⟨["T".toList], ?_, rfl⟩, _, ⟨["T".toList, "S".toList], ?_, rfl⟩, rfl⟩, rfl⟩,
    _, ⟨["A".toList, "B".toList], ?_, _, ⟨["T".toList, "S".toList], ?_, rfl⟩, rfl⟩⟩
  · exact .round (popped := ["B".toList, "A".toList]) (rest := []) (by decide) (by decide) (.done (by decide))
  · exact .round (popped := ["T".toList]) (rest := []) (by decide) (by decide) (.done (by decide))
  · exact .round (popped := ["T".toList]) (rest := ["S".toList]) (by decide) (by decide)
      (.round (popped := ["S".toList]) (rest := []) (by decide) (by decide) (.done (by decide)))
  · exact .round (popped := ["A".toList, "B".toList]) (rest := []) (by decide) (by decide) (.done (by decide))
  · exact .round (popped := ["T".toList]) (rest := ["S".toList]) (by decide) (by decide)
      (.round (popped := ["S".toList]) (rest := []) (by decide) (by decide) (.done (by decide)))

/-- `Color ::= ENUMERATED { red }`, `Number ::= INTEGER`, `red Number ::= 5`, `paint Color ::= red`. -/
def paintModule : Module :=
  plainModule "M".toList []
    [("Color".toList, .type (.mk (.enumerated [⟨"red".toList, none⟩] none []) none)),
     ("Number".toList, .type (.mk (.integer none) none)),
     ("paint".toList, .value (.mk (.reference "Color".toList) none) "red".toList),
     ("red".toList, .value (.mk (.reference "Number".toList) none) "5".toList)]

/-- **C71 is violated** by an enumeration item that is also the name of a value: which of the two is meant depends on
the order of a hash map. -/
theorem C71_same_word_violated :
    (∃ R, ResolvesModule 5 {} paintModule (.ok R) ∧ get R.resolved "paint".toList = some (.value (.reference "red".toList))) ∧
    ∃ R, ResolvesModule 5 {} paintModule (.ok R) ∧
      get R.resolved "paint".toList = some (.value (.referencedType "Color".toList (.enum 0))) := by
  refine ⟨⟨_, ⟨["Color".toList, "Number".toList, "red".toList, "paint".toList], ?_, rfl⟩, rfl⟩,
    ⟨_, ⟨["Color".toList, "Number".toList, "paint".toList, "red".toList], ?_, rfl⟩, rfl⟩⟩
  · exact .round (popped := ["Color".toList, "Number".toList]) (rest := ["red".toList, "paint".toList]) (by decide)
      (by decide) (.round (popped := ["red".toList, "paint".toList]) (rest := []) (by decide) (by decide) (.done (by decide)))
  · exact .round (popped := ["Color".toList, "Number".toList]) (rest := ["paint".toList, "red".toList]) (by decide)
      (by decide) (.round (popped := ["paint".toList, "red".toList]) (rest := []) (by decide) (by decide) (.done (by decide)))

/-- `C ::= CLASS { &id INTEGER UNIQUE } WITH SYNTAX { ID &id }`, `Number ::= INTEGER`, `a Number ::= 1`,
`S C ::= { { ID a } }`. -/
def keyModule : Module :=
  ⟨"M".toList, [],
    [("C".toList, ⟨.class [("&id".toList, .fixedTypeValue "&id".toList (.mk (.integer none) none) true false none
       (some "ID".toList))], none⟩),
     ("Number".toList, ⟨.type (.mk (.integer none) none), none⟩),
     ("S".toList, ⟨.objectSet "C".toList [.object (.input "{ ID a }".toList)] [], none⟩),
     ("a".toList, ⟨.value (.mk (.reference "Number".toList) none) "1".toList, none⟩)],
    parseObject ascii 20, parseObjectsOfSet ascii 20⟩

/-- The definitions of the module, with its objects read. -/
def keyDefs : List (Text × Definition) :=
  [("C".toList, ⟨.class [("&id".toList, .fixedTypeValue "&id".toList (.mk (.integer none) none) true false none
       (some "ID".toList))], none⟩),
   ("Number".toList, ⟨.type (.mk (.integer none) none), none⟩),
   ("S".toList, ⟨.objectSet "C".toList
      [.object (.fields [("&id".toList, .fixedTypeValue (.mk (.integer none) none) (some "a".toList))])] [], none⟩),
   ("a".toList, ⟨.value (.mk (.reference "Number".toList) none) "1".toList, none⟩)]

theorem keyDefs_read : mapOut (readDefinition (addClasses {} keyModule.definitions) keyModule) keyModule.definitions =
    .ok keyDefs := by
  with_unfolding_all rfl

/-- **C71 is violated** by an object whose key is a value of the same module: the module is resolved, or the compiler
panics. -/
theorem C71_object_key_violated :
    (∃ R, ResolvesModule 5 {} keyModule (.ok R) ∧ (get R.resolved "S".toList).isSome) ∧
    ResolvesModule 5 {} keyModule .panic := by
  unfold ResolvesModule
  rw [keyDefs_read]
  refine ⟨⟨_, ⟨["C".toList, "Number".toList, "a".toList, "S".toList], ?_, rfl⟩, rfl⟩,
    ⟨["C".toList, "Number".toList, "S".toList, "a".toList], ?_, rfl⟩⟩
  · exact .round (popped := ["C".toList, "Number".toList]) (rest := ["a".toList, "S".toList]) (by decide)
      (by decide) (.round (popped := ["a".toList, "S".toList]) (rest := []) (by decide) (by decide) (.done (by decide)))
  · exact .round (popped := ["C".toList, "Number".toList]) (rest := ["S".toList, "a".toList]) (by decide)
      (by decide) (.round (popped := ["S".toList, "a".toList]) (rest := []) (by decide) (by decide) (.done (by decide)))

/-! ## C72 -/

/-- **C72 (partial).** Modules that are added to a schema do not change the codecs of the types in it, as long as the
names of modules and definitions are different, and no module of the schema imports from them. Missing, because false:
definitions of the same name. -/
theorem C72_separate_partial (ms ms' big big' : List Module) (hread : ReadAs ms ms') (hreadb : ReadAs big big')
    (h : ProperSchema ms') (hb : ProperSchema big') (hsub : ∀ M ∈ ms', M ∈ big') :
    ∃ n₀, ∀ n, n₀ ≤ n → ∀ r s, ResolvesModules n {} ms r → ResolvesModules n {} big s →
      ∃ R S, r = .ok R ∧ s = .ok S ∧ ∀ sp, ∃ items jtems, generate sp R = .ok items ∧ generate sp S = .ok jtems ∧
        ∀ M ∈ ms', ∀ x ty, (x, ⟨.type ty, none⟩) ∈ M.definitions → ∃ t,
          Stands items (typeIdent x) t ∧ Stands jtems (typeIdent x) t ∧
            (DistinctNames items → DistinctNames jtems → ∀ u, Stands items (typeIdent x) u ↔ Stands jtems (typeIdent x) u) := by
  obtain ⟨n₁, hn₁⟩ := C95_schema_compiles ms ms' hread h
  obtain ⟨n₂, hn₂⟩ := C95_schema_compiles big big' hreadb hb
  refine ⟨max n₁ n₂, fun n hn r s hr hs => ?_⟩
  obtain ⟨R, rfl, -, hR⟩ := (hn₁ n (by omega)).2 r hr
  obtain ⟨S, rfl, -, hS⟩ := (hn₂ n (by omega)).2 s hs
  refine ⟨R, S, rfl, rfl, fun sp => ?_⟩
  obtain ⟨items, hi, hR⟩ := hR sp
  obtain ⟨jtems, hj, hS⟩ := hS sp
  refine ⟨items, jtems, hi, hj, fun M hM x ty hx => ?_⟩
  obtain ⟨t, ht⟩ : ∃ t, Describes true ms' (.module M) ty t := by
    cases h.proper M hM _ hx with
    | type ht => exact ⟨_, ht⟩
  have p : Part ms' big' := ⟨hsub, hb.modules, fun M hM i hi => (h.imports M hM i hi).1⟩
  have h1 := hR M hM x ty true t hx ht
  have h2 := hS M (hsub M hM) x ty true t hx (p.describes (σ := .module M) hM ht)
  refine ⟨t, h1.1, h2.1, fun d1 d2 u => ⟨fun hu => ?_, fun hu => ?_⟩⟩
  · rw [h1.2 d1 u hu]
    exact h2.1
  · rw [h2.2 d2 u hu]
    exact h1.1

/-- The first module of the example, on its own. -/
theorem base_proper : ProperSchema [baseModule] where
  modules := by decide
  definitions := by
    intro M hM
    cases List.mem_singleton.mp hM
    decide
  distinct := by
    intro M hM N hN k d e h1 h2
    cases List.mem_singleton.mp hM
    cases List.mem_singleton.mp hN
    rfl
  names := by
    intro M hM
    cases List.mem_singleton.mp hM
    exact word_names (by decide)
  imports := by
    intro M hM
    cases List.mem_singleton.mp hM
    exact fun i hi => absurd hi (by simp [baseModule, plainModule])
  order := ⟨fun _ => 0, by
    intro M hM
    cases List.mem_singleton.mp hM
    exact fun i hi => absurd hi (by simp [baseModule, plainModule])⟩
  acyclic := by
    intro M hM
    cases List.mem_singleton.mp hM
    exact ⟨fun x => if x = "Id".toList then 1 else 0, by decide⟩
  proper := by
    intro M hM d hd
    cases List.mem_singleton.mp hM
    simp only [baseModule, plainModule, List.map_cons, List.map_nil, List.mem_cons, List.not_mem_nil, or_false] at hd
    rcases hd with rfl | rfl
    · exact .value (v := 10) ⟨_, _, rfl, by decide⟩ (.integer (.inl rfl))
        ⟨_, _, none, rfl, .here nofun, .inl ⟨⟨by decide, by decide⟩, by decide⟩, by unfold fits128; decide⟩
    · refine .type (t := idTy) (.boundedInteger (ns := maxNames) (fun x v h => ?_)
        (bounded_range maxNames_proper (.inl (digit ⟨by decide, by decide⟩ (by decide))) (.inr rfl) (by decide)
          (by decide) (by decide))
        (.unsigned (by decide) (by decide) rfl (by decide) (.inl rfl)))
      obtain ⟨rfl, rfl⟩ := maxNames_int h
      exact ⟨_, _, .own List.mem_cons_self, max_defined⟩

example := C72_separate_partial [baseModule] [baseModule] schema schema
  (.cons ⟨rfl, rfl, .cons (.other (by simp) (by simp)) (.cons (.other (by simp) (by simp)) .nil)⟩ .nil) schema_read
  base_proper schema_proper (by simp [schema])

end Hampi.Compiler.Props
