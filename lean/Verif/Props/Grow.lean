import Verif.Lemmas.Grow
import Verif.Props.Separate
/-!
# C128: adding definitions leaves the other types alone
-/
namespace Hampi.Compiler.Props
open Hampi.Compiler.Spec

/-- **C128 (partial).** Full statement: adding definitions, imports and modules to a schema does not change what is
generated for its types. Proved: the codecs do not change, whatever the order of the hash tables. `ms` and `big` are
the parsed schemas, `ms'` and `big'` the same with their objects read. Missing, because false: the names of the Rust
types that stand for parts of a type change, see `C128_names_violated`. -/
theorem C128_codecs_partial (ms ms' big big' : List Module) (hread : ReadAs ms ms') (hreadb : ReadAs big big')
    (h : ProperSchema ms') (hb : ProperSchema big') (hg : SchemaGrows ms' big') :
    ∃ n₀, ∀ n, n₀ ≤ n → ∀ r s, ResolvesModules n {} ms r → ResolvesModules n {} big s →
      ∃ R S, r = .ok R ∧ s = .ok S ∧ ∀ sp, ∃ items jtems, generate sp R = .ok items ∧ generate sp S = .ok jtems ∧
        ∀ M ∈ ms', ∀ x ty, (x, ⟨.type ty, none⟩) ∈ M.definitions → ∃ t,
          Stands items (typeIdent x) t ∧ Stands jtems (typeIdent x) t ∧
            (DistinctNames items → DistinctNames jtems →
              ∀ u, Stands items (typeIdent x) u ↔ Stands jtems (typeIdent x) u) := by
  obtain ⟨n₁, hn₁⟩ := C95_schema_compiles ms ms' hread h
  obtain ⟨n₂, hn₂⟩ := C95_schema_compiles big big' hreadb hb
  obtain ⟨g, p⟩ := hg.growth h hb
  refine ⟨max n₁ n₂, fun n hn r s hr hs => ?_⟩
  obtain ⟨R, rfl, -, hR⟩ := (hn₁ n (by omega)).2 r hr
  obtain ⟨S, rfl, -, hS⟩ := (hn₂ n (by omega)).2 s hs
  refine ⟨R, S, rfl, rfl, fun sp => ?_⟩
  obtain ⟨items, hi, hR⟩ := hR sp
  obtain ⟨jtems, hj, hS⟩ := hS sp
  refine ⟨items, jtems, hi, hj, fun M hM x ty hx => ?_⟩
  obtain ⟨t, ht⟩ : ∃ t, Describes true ms' (.module M) ty t := by
    cases h.proper M hM _ hx with
    | type ht => exact ⟨_, ht⟩
  have h1 := hR M hM x ty true t hx ht
  have h2 := hS (g M) (p.mem M hM) x ty true t ((p.ext M hM).definitions _ hx) (p.describes (σ := .module M) hM ht)
  refine ⟨t, h1.1, h2.1, fun d1 d2 u => ⟨fun hu => ?_, fun hu => ?_⟩⟩
  · rw [h1.2 d1 u hu]
    exact h2.1
  · rw [h2.2 d2 u hu]
    exact h1.1

/-- `SEQUENCE { a INTEGER }` with the given constraint. -/
def oneField (cs : Option (List Constraint)) : AsnType :=
  .mk (.sequence [.mk "a".toList (.mk (.integer none) cs) false none] [] false) none

/-- `B ::= SEQUENCE { a INTEGER }`. -/
def smallModule : Module := plainModule "M".toList [] [("B".toList, .type (oneField none))]

/-- `A ::= SEQUENCE { a INTEGER (0..7) }` in addition. -/
def largeModule : Module := plainModule "M".toList []
  [("B".toList, .type (oneField none)),
   ("A".toList, .type (oneField (some [.subtype (.mk [[.range "0".toList true "7".toList true]] none)])))]

/-- **C128 is violated** for the names of types: after a definition is added, the type called `INTEGER_2` is another
one, with other bounds. Code that uses it still compiles. -/
theorem C128_names_violated :
    (∃ R items, ResolvesModules 5 {} [smallModule] (.ok R) ∧ generate plainSpelling R = .ok items ∧ DistinctNames items ∧
      Stands items "INTEGER_2".toList (.integer .i64 none none false)) ∧
    (∃ R items, ResolvesModules 5 {} [largeModule] (.ok R) ∧ generate plainSpelling R = .ok items ∧ DistinctNames items ∧
      Stands items "INTEGER_2".toList (.integer .u8 (some 0) (some 7) false)) := by
  constructor
  · refine ⟨_, _, ⟨["M".toList], ?_, _, ⟨["B".toList], ?_, rfl⟩, rfl⟩, rfl, ?_, .newtype (cs := []) ?_⟩
    · exact .round (popped := ["M".toList]) (rest := []) (by decide) (by decide) (.done (by decide))
    · exact .round (popped := ["B".toList]) (rest := []) (by decide) (by decide) (.done (by decide))
    · unfold DistinctNames; decide
    · exact .tail _ (.head _)
  · refine ⟨_, _, ⟨["M".toList], ?_, _, ⟨["B".toList, "A".toList], ?_, rfl⟩, rfl⟩, rfl, ?_, .newtype (cs := []) ?_⟩
    · exact .round (popped := ["M".toList]) (rest := []) (by decide) (by decide) (.done (by decide))
    · exact .round (popped := ["B".toList, "A".toList]) (rest := []) (by decide) (by decide) (.done (by decide))
    · unfold DistinctNames; decide
    · exact .tail _ (.tail _ (.head _))

/-- A module without imports and with types only, none of which refers to another, is proper if they have meanings. -/
theorem single_proper {name : Text} {types : List (Text × AsnType)}
    (hn : (types.map (·.1)).Nodup) (hw : ∀ d ∈ (plainModule name [] (types.map fun d => (d.1, .type d.2))).definitions, IsName d.1) (hr : ∀ d ∈ types, d.2.refs = [])
    (hd : ∀ d ∈ types, ∃ t, Describes true [plainModule name [] (types.map fun d => (d.1, .type d.2))]
      (.module (plainModule name [] (types.map fun d => (d.1, .type d.2)))) d.2 t) :
    ProperSchema [plainModule name [] (types.map fun d => (d.1, .type d.2))] := by
  have hm : ∀ d ∈ (plainModule name [] (types.map fun d => (d.1, .type d.2))).definitions,
      ∃ e ∈ types, d = (e.1, ⟨.type e.2, none⟩) := by
    intro d hd
    simp only [plainModule, List.map_map] at hd
    obtain ⟨e, he, rfl⟩ := List.mem_map.mp hd
    exact ⟨e, he, rfl⟩
  refine ⟨by simp, ?_, ?_, ?_, ?_, ⟨fun _ => 0, ?_⟩, ?_, ?_⟩
  · intro M hM
    cases List.mem_singleton.mp hM
    simp only [plainModule, List.map_map]
    exact hn
  · intro M hM N hN k d e _ _
    rw [List.mem_singleton.mp hM, List.mem_singleton.mp hN]
  · intro M hM d hd
    cases List.mem_singleton.mp hM
    exact hw d hd
  · intro M hM i hi
    cases List.mem_singleton.mp hM
    cases hi
  · intro M hM i hi
    cases List.mem_singleton.mp hM
    cases hi
  · intro M hM
    cases List.mem_singleton.mp hM
    refine ⟨fun _ => 0, fun d hd e he hx => ?_⟩
    obtain ⟨f, hf, rfl⟩ := hm d hd
    rw [show (Assignment.type f.2).refs = f.2.refs from rfl, hr f hf] at hx
    cases hx
  · intro M hM d hd'
    cases List.mem_singleton.mp hM
    obtain ⟨e, he, rfl⟩ := hm d hd'
    obtain ⟨t, ht⟩ := hd e he
    exact .type ht

theorem small_proper : ProperSchema [smallModule] := by
  refine single_proper (types := [("B".toList, oneField none)]) (by decide) (word_names (by decide)) (by decide) ?_
  intro d hd
  cases List.mem_singleton.mp hd
  exact ⟨_, .sequence (.inl rfl) (.required (.inl rfl) (.integer (.inl rfl)) .nil)⟩

theorem large_proper : ProperSchema [largeModule] := by
  refine single_proper (types := [("B".toList, oneField none), ("A".toList, oneField (some
    [.subtype (.mk [[.range "0".toList true "7".toList true]] none)]))]) (by decide) (word_names (by decide))
    (by decide) ?_
  intro d hd
  rcases List.mem_cons.mp hd with rfl | hd
  · exact ⟨_, .sequence (.inl rfl) (.required (.inl rfl) (.integer (.inl rfl)) .nil)⟩
  · cases List.mem_singleton.mp hd
    exact ⟨_, .sequence (.inl rfl) (.required (.inl rfl) (.boundedInteger (ns := noNames) (lb := 0) (ub := 7) (w := .u8)
      (fun _ _ h => nomatch h)
      (bounded_range noNames_proper (.inl (digit ⟨by decide, by decide⟩ (by decide)))
        (.inl (digit ⟨by decide, by decide⟩ (by decide))) (by decide) (by decide) (by decide))
      (.unsigned (by decide) (by decide) rfl (by decide) (.inl rfl))) .nil)⟩

/-- The theorem applies to these schemas. -/
example := C128_codecs_partial [smallModule] [smallModule] [largeModule] [largeModule]
  (.cons ⟨rfl, rfl, .cons (.other (by simp) (by simp)) .nil⟩ .nil)
  (.cons ⟨rfl, rfl, .cons (.other (by simp) (by simp)) (.cons (.other (by simp) (by simp)) .nil)⟩ .nil)
  small_proper large_proper
  (fun M hM => ⟨largeModule, .head _, by
    cases List.mem_singleton.mp hM
    exact ⟨rfl, nofun, fun d hd => by cases List.mem_singleton.mp hd; exact .head _⟩⟩)

end Hampi.Compiler.Props
