import Verif.Lemmas.Mentions
import Verif.Props.Order
/-!
# C58 — the order of definitions and the names they mention

`needsOf imports defs` is what the sort is given for the definitions of a module. Spec/Mentions says where the name of a
definition stands in another one.
-/
namespace Hampi.Compiler.Props
open _root_.Hampi.Compiler.Spec

theorem get_none_iff {α : Type} {m : List (Text × α)} {k : Text} : get m k = none ↔ ∀ v, (k, v) ∉ m := by
  unfold get
  rw [Option.map_eq_none_iff, List.find?_eq_none]
  constructor
  · intro h v hm
    exact h _ hm (by simp)
  · rintro h ⟨a, v⟩ hm he
    simp only [beq_iff_eq] at he
    exact h v (he ▸ hm)

theorem refers_of_needs {imports : List (Text × Text)} {defs : List (Text × Definition)} {k x : Text}
    (h : Needs (needsOf imports defs) k x) : Refers imports defs k x := by
  obtain ⟨rs, h1, h2⟩ := h
  obtain ⟨⟨k', d⟩, hd, e⟩ := List.mem_map.mp h1
  cases e
  obtain ⟨h2, h3⟩ := List.mem_filter.mp h2
  exact ⟨⟨d, hd, Ment.of_definition _ h2⟩, get_none_iff.mp (Option.isNone_iff_eq_none.mp h3)⟩

theorem needs_of_refers {imports : List (Text × Text)} {defs : List (Text × Definition)} {k x : Text} (hx : IsName x)
    (h : Refers imports defs k x) : Needs (needsOf imports defs) k x := by
  obtain ⟨⟨d, hd, h1⟩, h2⟩ := h
  exact ⟨_, List.mem_map.mpr ⟨_, hd, rfl⟩,
    List.mem_filter.mpr ⟨Ment.definition_refs hx h1, Option.isNone_iff_eq_none.mpr (get_none_iff.mpr h2)⟩⟩

theorem leads_of_reaches {imports : List (Text × Text)} {defs : List (Text × Definition)} {a b : Text}
    (h : Reaches (needsOf imports defs) a b) : Leads (Refers imports defs) a b := by
  induction h with
  | one h => exact .one (refers_of_needs h)
  | more h _ ih => exact .more (refers_of_needs h) ih

theorem leads_from {imports : List (Text × Text)} {defs : List (Text × Definition)} {a b : Text}
    (h : Leads (Refers imports defs) a b) : ∃ d, (a, d) ∈ defs := by
  cases h with
  | one h => obtain ⟨⟨d, h, -⟩, -⟩ := h; exact ⟨d, h⟩
  | more h _ => obtain ⟨⟨d, h, -⟩, -⟩ := h; exact ⟨d, h⟩

theorem reaches_of_leads {imports : List (Text × Text)} {defs : List (Text × Definition)} (hn : ∀ d ∈ defs, IsName d.1)
    {a b : Text} (h : Leads (Refers imports defs) a b) (hb : IsName b) : Reaches (needsOf imports defs) a b := by
  induction h with
  | one h => exact .one (needs_of_refers hb h)
  | more h t ih =>
    obtain ⟨d, hd⟩ := leads_from t
    exact .more (needs_of_refers (hn _ hd) h) (ih hb)

/-- **C58 (partial).** Full statement: in the order of the definitions of a module no definition is repeated, every
definition comes after all definitions of the module it mentions, and a definition is missing exactly if following
references from it leads into a cycle. Proved for names in all places but the hidden ones of `InDefinition`. Missing,
because false: names in those places, see `C58_hidden_violated`. -/
theorem C58_definitions_partial (imports : List (Text × Text)) (defs : List (Text × Definition)) (order : List Text)
    (hn : ∀ d ∈ defs, IsName d.1) (h : Sorted (needsOf imports defs) order) :
    order.Nodup ∧
    (∀ k x, k ∈ order → IsName x → Refers imports defs k x → Before order x k) ∧
    (∀ d ∈ defs, d.1 ∈ order ↔
      ¬ ∃ c, (c = d.1 ∨ Leads (Refers imports defs) d.1 c) ∧ Leads (Refers imports defs) c c) := by
  obtain ⟨h1, h2, h3⟩ := (C58_order _).2 order h
  refine ⟨h1, fun k x hk hx hr => h2 k x hk (needs_of_refers hx hr), fun d hd => ?_⟩
  rw [h3 d.1 _ (List.mem_map.mpr ⟨d, hd, rfl⟩)]
  refine not_congr ⟨?_, ?_⟩
  · rintro (hc | ⟨c, hr, hc⟩)
    · exact ⟨d.1, .inl rfl, leads_of_reaches hc⟩
    · exact ⟨c, .inr (leads_of_reaches hr), leads_of_reaches hc⟩
  · rintro ⟨c, rfl | hr, hc⟩
    · exact .inl (reaches_of_leads hn hc (hn _ hd))
    · obtain ⟨e, he⟩ := leads_from hc
      have := hn _ he
      exact .inr ⟨c, reaches_of_leads hn hr this, reaches_of_leads hn hc this⟩

/-- **C58 is violated** by every definition `k` that mentions `x` in hidden places and nothing else in other places: in
one of the possible orders it comes before `x`. -/
theorem C58_hidden_violated (k x : Text) (d e : Definition) (hkx : k ≠ x) (_hx : InDefinition true d.kind x)
    (hd : ∀ y, ¬ InDefinition false d.kind y) (he : ∀ y, ¬ InDefinition false e.kind y) :
    Sorted (needsOf [] [(k, d), (x, e)]) [k, x] := by
  have nil : ∀ a : Assignment, (∀ y, ¬ InDefinition false a y) → a.refs = [] := fun a h =>
    List.eq_nil_iff_forall_not_mem.mpr fun y hy => h y (Ment.of_definition a hy)
  have hg : graphOf (needsOf [] [(k, d), (x, e)]) = ⟨[k, x], []⟩ := by
    simp [needsOf, nil _ hd, nil _ he, graphOf, Graph.insert, Ne.symm hkx]
  unfold Sorted
  rw [hg]
  exact .round (popped := [k, x]) (rest := []) (by simp [Graph.ready]) (by simp [Graph.ready])
    (.done (by simp [Graph.remove, Graph.ready]))

/-! ## Examples -/

/-- `T ::= SEQUENCE { a A, ..., [[ b B ]], [[ c C (0..max) ]] }`. -/
def grouped : Definition :=
  ⟨.type (.mk (.sequence [.mk "a".toList (.mk (.reference "A".toList) (some [])) false none]
    [.mk none [.mk "b".toList (.mk (.reference "B".toList) (some [])) false none],
     .mk none [.mk "c".toList (.mk (.reference "C".toList)
      (some [.subtype (.mk [[.range "0".toList true "max".toList true]] none)])) false none]] true) (some [])), none⟩

theorem around_name {p : Char → Prop} {x : Text} (h : ∀ c ∈ x, ¬ p c) : Around p x x :=
  ⟨[], [], by simp, nofun, nofun, fun c hc => h c (List.mem_of_mem_head? hc), fun c hc => h c (List.mem_of_mem_getLast? hc)⟩

-- It mentions the types of all groups and the bound, and they come before it:
example : ∀ x ∈ ["A".toList, "B".toList, "C".toList, "max".toList], InDefinition false grouped.kind x := by
  intro x hx
  simp only [List.mem_cons, List.not_mem_nil, or_false] at hx
  rcases hx with rfl | rfl | rfl | rfl
  · exact .type (.kind (.component (List.mem_cons_self ..) (.kind .reference)))
  · exact .type (.kind (.addedComponent (List.mem_cons_self ..) (List.mem_cons_self ..) (.kind .reference)))
  · exact .type (.kind (.addedComponent (List.mem_cons_of_mem _ (List.mem_cons_self ..)) (List.mem_cons_self ..)
      (.kind .reference)))
  · refine .type (.kind (.addedComponent (List.mem_cons_of_mem _ (List.mem_cons_self ..)) (List.mem_cons_self ..)
      (.constraint (List.mem_cons_self ..) (.subtype (.root (List.mem_cons_self ..) (List.mem_cons_self ..) (.upper ?_))))))
    refine around_name ?_
    unfold White
    decide

example : Sorted (needsOf [] [("T".toList, grouped)])
    ["A".toList, "B".toList, "C".toList, "max".toList, "T".toList] :=
  .round (popped := ["A".toList, "B".toList, "C".toList, "max".toList]) (rest := ["T".toList]) (by decide +kernel)
    (by decide +kernel) (.round (popped := ["T".toList]) (rest := []) (by decide +kernel) (by decide +kernel)
      (.done (by decide +kernel)))
example : ∀ d ∈ [("T".toList, grouped)], IsName d.1 := by
  intro d hd
  cases List.mem_singleton.mp hd
  exact ⟨⟨'T', [], rfl, rfl⟩, by decide⟩

/-- `Foo ::= SEQUENCE (SIZE (1..max)) OF INTEGER`. -/
def sizedList : Definition :=
  ⟨.type (.mk (.sequenceOf (some (.subtype (.mk [[.size (.mk [[.range "1".toList true "max".toList true]] none)]] none)))
    (.mk (.integer none) none)) none), none⟩

/-- `b INTEGER ::= 5`. -/
def plainValue (v : String) : Definition := ⟨.value (.mk (.integer none) none) v.toList, none⟩

theorem plainValue_none (v : String) (y : Text) : ¬ InDefinition false (plainValue v).kind y := by
  rintro (h | h)
  · obtain h | h := h
    cases h <;> contradiction
  · contradiction

-- The size of a SEQUENCE OF and the value of a value are hidden:
example : InDefinition true sizedList.kind "max".toList := by
  refine .type (.kind (.size rfl (.subtype (.root (List.mem_cons_self ..) (List.mem_cons_self ..)
    (.size (.root (List.mem_cons_self ..) (List.mem_cons_self ..) (.upper ?_)))))))
  refine around_name ?_
  unfold White
  decide
example : InDefinition true (plainValue "b").kind "b".toList := .value rfl
example : Sorted (needsOf [] [("a".toList, plainValue "b"), ("b".toList, plainValue "5")]) ["a".toList, "b".toList] :=
  C58_hidden_violated _ _ _ _ (by decide) (.value rfl) (plainValue_none _) (plainValue_none _)

end Hampi.Compiler.Props
