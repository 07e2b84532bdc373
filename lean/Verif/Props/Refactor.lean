import Verif.Lemmas.Refactor
import Verif.Props.Grow
/-!
# C132: writing a schema differently does not change the codecs
-/
namespace Hampi.Compiler.Props
open Hampi.Compiler.Spec

/-- **C132.** Whether the parts of a type are written in place or by name, how components, alternatives, values
of enumerations and numbers of INTEGERs are called, and how a constraint is written, as long as the least and the
greatest value it allows and its extension marker stay the same, makes no difference to the codecs, whatever the order
of the hash tables. `ms` and `ns` are
the parsed schemas, `ms'` and `ns'` the same with their objects read. -/
theorem C132_codecs (ms ms' ns ns' : List Module) (hread : ReadAs ms ms') (hreadn : ReadAs ns ns')
    (h : ProperSchema ms') (hn : ProperSchema ns') (hg : SchemaRewritten ms' ns') :
    ∃ n₀, ∀ n, n₀ ≤ n → ∀ r s, ResolvesModules n {} ms r → ResolvesModules n {} ns s →
      ∃ R S, r = .ok R ∧ s = .ok S ∧ ∀ sp, ∃ items jtems, generate sp R = .ok items ∧ generate sp S = .ok jtems ∧
        ∀ M ∈ ms', ∀ x ty, (x, ⟨.type ty, none⟩) ∈ M.definitions → ∃ t,
          Stands items (typeIdent x) t ∧ Stands jtems (typeIdent x) t ∧
            (DistinctNames items → DistinctNames jtems →
              ∀ u, Stands items (typeIdent x) u ↔ Stands jtems (typeIdent x) u) := by
  obtain ⟨n₁, hn₁⟩ := C95_schema_compiles ms ms' hread h
  obtain ⟨n₂, hn₂⟩ := C95_schema_compiles ns ns' hreadn hn
  obtain ⟨g, p⟩ := hg.rewriting h hn
  refine ⟨max n₁ n₂, fun n hn r s hr hs => ?_⟩
  obtain ⟨R, rfl, -, hR⟩ := (hn₁ n (by omega)).2 r hr
  obtain ⟨S, rfl, -, hS⟩ := (hn₂ n (by omega)).2 s hs
  refine ⟨R, S, rfl, rfl, fun sp => ?_⟩
  obtain ⟨items, hi, hR⟩ := hR sp
  obtain ⟨jtems, hj, hS⟩ := hS sp
  refine ⟨items, jtems, hi, hj, fun M hM x ty hx => ?_⟩
  obtain ⟨t, ht⟩ : ∃ t, Describes true ms' (.module M) ty t := by
    cases h.proper M hM _ hx with
    | type ht => exact ⟨_, ht⟩
  have h1 := hR M hM x ty true t hx ht
  have h2 : Stands jtems (typeIdent x) t ∧ (DistinctNames jtems → ∀ u, Stands jtems (typeIdent x) u → u = t) := by
    obtain ⟨d', hd, hr'⟩ := (p.ext M hM).definitions _ _ hx
    cases hr' with
    | same => exact hS (g M) (p.mem M hM) x _ true t hd (p.describes (σ := .module M) hM ht _ .same)
    | type hw => exact hS (g M) (p.mem M hM) x _ true t hd (hw.describes (p.describes (σ := .module M) hM ht))
  refine ⟨t, h1.1, h2.1, fun d1 d2 u => ⟨fun hu => ?_, fun hu => ?_⟩⟩
  · rw [h1.2 d1 u hu]
    exact h2.1
  · rw [h2.2 d2 u hu]
    exact h1.1

/-! ## An example -/

/-- `INTEGER (0..7)`. -/
def toSeven : AsnType := .mk (.integer none) (some [.subtype (.mk [[.range "0".toList true "7".toList true]] none)])

theorem toSeven_describes {ms : List Module} {σ : Scope} :
    Describes true ms σ toSeven (.integer .u8 (some 0) (some 7) false) :=
  .boundedInteger (ns := noNames) (lb := 0) (ub := 7) (w := .u8) (fun _ _ h => nomatch h)
    (bounded_range noNames_proper (.inl (digit ⟨by decide, by decide⟩ (by decide)))
      (.inl (digit ⟨by decide, by decide⟩ (by decide))) (by decide) (by decide) (by decide))
    (.unsigned (by decide) (by decide) rfl (by decide) (.inl rfl))

/-- `A ::= SEQUENCE { a SEQUENCE OF INTEGER (0..7), b BOOLEAN }`. -/
def inPlace : AsnType :=
  .mk (.sequence [.mk "a".toList (.mk (.sequenceOf none toSeven) none) false none,
    .mk "b".toList (.mk .boolean none) false none] [] false) none

/-- `A ::= SEQUENCE { digits SEQUENCE OF Digit, flag BOOLEAN }`. -/
def byName : AsnType :=
  .mk (.sequence [.mk "digits".toList (.mk (.sequenceOf none (.mk (.reference "Digit".toList) none)) none) false none,
    .mk "flag".toList (.mk .boolean none) false none] [] false) none

def inPlaceModule : Module := plainModule "M".toList [] [("A".toList, .type inPlace)]

/-- With `Digit ::= INTEGER (0..7)`. -/
def byNameModule : Module := plainModule "M".toList [] [("A".toList, .type byName), ("Digit".toList, .type toSeven)]

theorem inPlace_proper : ProperSchema [inPlaceModule] := by
  refine single_proper (types := [("A".toList, inPlace)]) (by decide) (word_names (by decide)) (by decide) ?_
  intro d hd
  cases List.mem_singleton.mp hd
  exact ⟨_, .sequence (.inl rfl) (.required (.inl rfl) (.sequenceOf (ns := noNames) (.inl rfl) (fun _ _ h => nomatch h)
    (.any (.inl rfl)) toSeven_describes) (.required (.inl rfl) (.boolean (.inl rfl)) .nil))⟩

theorem byName_proper : ProperSchema [byNameModule] := by
  refine ⟨by decide, ?_, ?_, ?_, ?_, ⟨fun _ => 0, ?_⟩, ?_, ?_⟩
  · intro M hM
    cases List.mem_singleton.mp hM
    decide
  · intro M hM N hN k d e _ _
    rw [List.mem_singleton.mp hM, List.mem_singleton.mp hN]
  · intro M hM d hd
    cases List.mem_singleton.mp hM
    exact word_names (by decide) d hd
  · intro M hM i hi
    cases List.mem_singleton.mp hM
    cases hi
  · intro M hM i hi
    cases List.mem_singleton.mp hM
    cases hi
  · intro M hM
    cases List.mem_singleton.mp hM
    refine ⟨fun x => if x = "A".toList then 1 else 0, ?_⟩
    simp only [byNameModule, plainModule]
    intro d hd e he hx
    rcases List.mem_cons.mp hd with rfl | hd
    · have hx : e.1 ∈ ["Digit".toList] := hx
      rw [List.mem_singleton.mp hx]
      decide
    · cases List.mem_singleton.mp hd
      have hx : e.1 ∈ ([] : List Text) := hx
      cases hx
  · intro M hM d hd
    cases List.mem_singleton.mp hM
    rcases List.mem_cons.mp hd with rfl | hd
    · exact .type (.sequence (.inl rfl) (.required (.inl rfl) (.sequenceOf (ns := noNames) (.inl rfl)
        (fun _ _ h => nomatch h) (.any (.inl rfl)) (.reference (N := byNameModule) (.inl (.inl rfl))
          (.own (.tail _ (.head _))) toSeven_describes))
        (.required (.inl rfl) (.boolean (.inl rfl)) .nil)))
    · cases List.mem_singleton.mp hd
      exact .type toSeven_describes

/-- The theorem applies to these schemas. -/
example := C132_codecs [inPlaceModule] [inPlaceModule] [byNameModule] [byNameModule]
  (.cons ⟨rfl, rfl, .cons (.other (by simp) (by simp)) .nil⟩ .nil)
  (.cons ⟨rfl, rfl, .cons (.other (by simp) (by simp)) (.cons (.other (by simp) (by simp)) .nil)⟩ .nil)
  inPlace_proper byName_proper
  (fun M hM => ⟨byNameModule, .head _, by
    cases List.mem_singleton.mp hM
    refine ⟨rfl, nofun, fun x d hd => ?_⟩
    cases List.mem_singleton.mp hd
    exact ⟨_, .head _, .type (.direct (.sequence (.change (by simp) (.direct (.sequenceOf (.named (ty' := toSeven)
      (.tail _ (.head _)) (.direct .same)))) (.change (by simp) (.direct .same) .nil))))⟩⟩)

/-- With both definitions, of which the first does not need the second. -/
def bothModule : Module := plainModule "M".toList [] [("A".toList, .type inPlace), ("Digit".toList, .type toSeven)]

theorem both_proper : ProperSchema [bothModule] := by
  refine single_proper (types := [("A".toList, inPlace), ("Digit".toList, toSeven)]) (by decide)
    (word_names (by decide)) (by decide) ?_
  intro d hd
  rcases List.mem_cons.mp hd with rfl | hd
  · exact ⟨_, .sequence (.inl rfl) (.required (.inl rfl) (.sequenceOf (ns := noNames) (.inl rfl) (fun _ _ h => nomatch h)
      (.any (.inl rfl)) toSeven_describes) (.required (.inl rfl) (.boolean (.inl rfl)) .nil))⟩
  · cases List.mem_singleton.mp hd
    exact ⟨_, toSeven_describes⟩

/-- And in the other direction, where the definition of `Digit` is written in place. -/
example := C132_codecs [byNameModule] [byNameModule] [bothModule] [bothModule]
  (.cons ⟨rfl, rfl, .cons (.other (by simp) (by simp)) (.cons (.other (by simp) (by simp)) .nil)⟩ .nil)
  (.cons ⟨rfl, rfl, .cons (.other (by simp) (by simp)) (.cons (.other (by simp) (by simp)) .nil)⟩ .nil)
  byName_proper both_proper
  (fun M hM => ⟨bothModule, .head _, by
    cases List.mem_singleton.mp hM
    refine ⟨rfl, nofun, fun x d hd => ?_⟩
    rcases List.mem_cons.mp hd with hd | hd
    · cases hd
      exact ⟨_, .head _, .type (.direct (.sequence (.change (by simp) (.direct (.sequenceOf (.direct
        (.inlined (ty := toSeven) (.tail _ (.head _)) (.direct .same))))) (.change (by simp) (.direct .same) .nil))))⟩
    · cases List.mem_singleton.mp hd
      exact ⟨_, .tail _ (.head _), .same⟩⟩)

/-- `A ::= INTEGER (0..10)`. -/
def toTenModule : Module :=
  plainModule "M".toList [] [("A".toList, .type (.mk (.integer none)
    (some [.subtype (.mk [[.range "0".toList true "10".toList true]] none)])))]

/-- `A ::= INTEGER { ten(10) } (0..max)`, `max INTEGER ::= 10`. -/
def toMaxModule : Module :=
  plainModule "M".toList [] [("A".toList, .type (.mk (.integer (some [("ten".toList, .number "10".toList)]))
    (some [.subtype (.mk [[.range "0".toList true "max".toList true]] none)]))),
    ("max".toList, .value (.mk (.integer none) none) "10".toList)]

theorem toTen_bounded : Bounded noNames (.mk [[.range "0".toList true "10".toList true]] none) 0 10 false :=
  bounded_range noNames_proper (.inl (digit ⟨by decide, by decide⟩ (by decide)))
    (.inl (.inl ⟨⟨by decide, by decide⟩, by decide⟩)) (by decide) (by decide) (by decide)

theorem toMax_bounded : Bounded maxNames (.mk [[.range "0".toList true "max".toList true]] none) 0 10 false :=
  bounded_range maxNames_proper (.inl (digit ⟨by decide, by decide⟩ (by decide))) (.inr rfl) (by decide)
    (by decide) (by decide)

theorem toTen_proper : ProperSchema [toTenModule] := by
  refine single_proper (types := [("A".toList, _)]) (by decide) (word_names (by decide)) (by decide) ?_
  intro d hd
  cases List.mem_singleton.mp hd
  exact ⟨_, .boundedInteger (ns := noNames) (fun _ _ h => nomatch h) toTen_bounded
    (.unsigned (by decide) (by decide) (w := .u8) rfl (by decide) (.inl rfl))⟩

theorem toMax_proper : ProperSchema [toMaxModule] := by
  refine ⟨by decide, ?_, ?_, ?_, ?_, ⟨fun _ => 0, ?_⟩, ?_, ?_⟩
  · intro M hM
    cases List.mem_singleton.mp hM
    decide
  · intro M hM N hN k d e _ _
    rw [List.mem_singleton.mp hM, List.mem_singleton.mp hN]
  · intro M hM d hd
    cases List.mem_singleton.mp hM
    exact word_names (by decide) d hd
  · intro M hM i hi
    cases List.mem_singleton.mp hM
    cases hi
  · intro M hM i hi
    cases List.mem_singleton.mp hM
    cases hi
  · intro M hM
    cases List.mem_singleton.mp hM
    refine ⟨fun x => if x = "A".toList then 1 else 0, ?_⟩
    simp only [toMaxModule, plainModule]
    intro d hd e he hx
    rcases List.mem_cons.mp hd with rfl | hd
    · rcases List.mem_cons.mp he with rfl | he
      · exact absurd hx (by decide)
      · cases List.mem_singleton.mp he
        decide
    · cases List.mem_singleton.mp hd
      have hx : e.1 ∈ ([] : List Text) := hx
      cases hx
  · intro M hM d hd
    cases List.mem_singleton.mp hM
    rcases List.mem_cons.mp hd with rfl | hd
    · exact .type (.boundedInteger (ns := maxNames) (fun x v h => by
        obtain ⟨rfl, rfl⟩ := maxNames_int h
        exact ⟨toMaxModule, _, .own (.tail _ (.head _)), max_defined⟩) toMax_bounded
        (.unsigned (by decide) (by decide) (w := .u8) rfl (by decide) (.inl rfl)))
    · cases List.mem_singleton.mp hd
      exact .value ⟨_, _, rfl, by decide⟩ (.integer (.inl rfl)) (v := 10) ⟨_, _, none, rfl, .here nofun,
        .inl ⟨⟨by decide, by decide⟩, by decide⟩, by unfold fits128; decide⟩

/-- A bound that is given a name, and a number that is given one. -/
example := C132_codecs [toTenModule] [toTenModule] [toMaxModule] [toMaxModule]
  (.cons ⟨rfl, rfl, .cons (.other (by simp) (by simp)) .nil⟩ .nil)
  (.cons ⟨rfl, rfl, .cons (.other (by simp) (by simp)) (.cons (.other (by simp) (by simp)) .nil)⟩ .nil)
  toTen_proper toMax_proper
  (fun M hM => ⟨toMaxModule, .head _, by
    cases List.mem_singleton.mp hM
    refine ⟨rfl, nofun, fun x d hd => ?_⟩
    cases List.mem_singleton.mp hd
    exact ⟨_, .head _, .type (.direct (.bounds (ns := noNames) (fun _ _ h => nomatch h) toTen_bounded (fun x v h => by
      obtain ⟨rfl, rfl⟩ := maxNames_int h
      exact ⟨_, .tail _ (.head _), max_defined⟩) toMax_bounded))⟩⟩)

end Hampi.Compiler.Props
