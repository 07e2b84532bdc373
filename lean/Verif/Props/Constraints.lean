import Verif.Lemmas.Bounds
import Verif.Props.Integers
/-!
# C54-C57, C68: INTEGER constraints
-/
namespace Hampi.Compiler

open Hampi.Spec

/-! ## C54: unions -/

/-- **C54.** The set computed for a union holds exactly the integers the union permits, before and
after the extension marker, and there is an extension part exactly when the marker is there. -/
theorem C54_union {ns : Names} (hn : ns.Proper) (e : ElementSet) (hu : UnionsOnly e) {vs : ValueSet}
    (h : e.valueset ns.int = .ok vs) :
    (∀ x, Holds vs.root x ↔ Permits ns e x) ∧
      (∀ a, vs.additional = some a → ∀ x, Holds a x ↔ PermitsExtension ns e x) ∧
      (vs.additional = none ↔ ∃ root, e = .mk root none) := by
  obtain ⟨h1, h2, h3⟩ := elementSet_holds hn e hu h
  refine ⟨h1, h2, h3, ?_⟩
  rintro ⟨root, rfl⟩
  simp only [ElementSet.valueset, Out.bind_ok] at h
  obtain ⟨r, -, h⟩ := h
  injection h with h; subst h; rfl

/-- **C68 (part).** Every union of single values, ranges and constrained INTEGER types whose values are
numerals or names of integers in range is accepted. Missing: MIN and MAX, sets in parentheses,
references to types, EXCEPT and ALL (all refused, see below). -/
theorem C68_union_accepted_partial {ns : Names} (hn : ns.Proper) (e : ElementSet) (hu : UnionsOnly e)
    (hs : SmallSet ns e) : ∃ vs, e.valueset ns.int = .ok vs := elementSet_ok hn e hu hs

/-- The union `(1 | 5..k, ..., INTEGER (20..30))`, where `k` is a value equal to 9. -/
def exampleUnion : ElementSet :=
  .mk [[exactly 1], [.range (intText 5) true "k".toList true]]
    (some [[.contained (integerOf [[between 20 30]])]])

/-- The names of the example. -/
def exampleNames : Names where
  int t := if t = "k".toList then some 9 else none
  type _ _ := False

theorem exampleNames_proper : exampleNames.Proper := by
  intro t v h
  simp only [exampleNames] at h
  split at h
  · rename_i ht
    subst ht
    exact ⟨fun w => not_numeral_word (w := "k".toList) rfl (by decide) (by decide) (by decide) w,
      by decide, by decide⟩
  · exact absurd h (by simp)

theorem exampleUnion_small : UnionsOnly exampleUnion ∧ SmallSet exampleNames exampleUnion := by
  refine ⟨by simp [exampleUnion, UnionsOnly, UnionList, OneElement, PlainElement, exactly, between,
    integerOf, integerType], ?_⟩
  simp only [exampleUnion, SmallSet, SmallUnion, SmallAll, SmallElement, exactly, between, integerOf,
    integerType, and_true]
  exact ⟨⟨⟨1, Or.inl (numeral_intText 1), by decide, by decide⟩,
    ⟨5, Or.inl (numeral_intText 5), by decide, by decide⟩, 9, Or.inr (by decide), by decide, by decide⟩,
    ⟨20, Or.inl (numeral_intText 20), by decide, by decide⟩,
    30, Or.inl (numeral_intText 30), by decide, by decide⟩

example : ∃ vs, exampleUnion.valueset exampleNames.int = .ok vs :=
  C68_union_accepted_partial exampleNames_proper _ exampleUnion_small.1 exampleUnion_small.2

example : ∃ vs, exampleUnion.valueset exampleNames.int = .ok vs ∧ ¬ Holds vs.root 4 ∧ Holds vs.root 7 := by
  obtain ⟨vs, h⟩ := C68_union_accepted_partial exampleNames_proper _ exampleUnion_small.1
    exampleUnion_small.2
  obtain ⟨h1, -, -⟩ := C54_union exampleNames_proper _ exampleUnion_small.1 h
  refine ⟨vs, h, ?_, ?_⟩
  · rw [h1]
    have hd : ∀ v : Int, Denotes exampleNames (intText v) 4 → v = 4 := fun v h =>
      Denotes.unique exampleNames_proper (Or.inl (numeral_intText v)) h
    simp only [exampleUnion, Permits, SomePermits, EveryElement, ElementPermits, exactly, and_true,
      or_false]
    rintro (h | ⟨h, -⟩)
    · exact absurd (hd 1 h) (by decide)
    · rcases h with h | ⟨v, hv, h⟩
      · exact not_numeral_word (w := minWord) rfl (by decide) (by decide) (by decide) 5
          (h ▸ numeral_intText 5)
      · have := Denotes.unique exampleNames_proper hv (Or.inl (numeral_intText 5)); omega
  · rw [h1]
    simp only [exampleUnion, Permits, SomePermits, EveryElement, ElementPermits, and_true, or_false]
    exact Or.inr ⟨Or.inr ⟨5, Or.inl (numeral_intText 5), by omega⟩,
      Or.inr ⟨9, Or.inr (by decide), by omega⟩⟩

/-! ## C68: what is refused -/

theorem parseOrResolve_none {ns : Names} {t : Text} (hd : ∀ v, ¬ Denotes ns t v) :
    parseOrResolve ns.int t = .err .constraint := by
  unfold parseOrResolve
  split
  · rename_i v hv
    exact absurd (Or.inl (parseI128_sound hv).1) (hd v)
  · split
    · rename_i v hv
      exact absurd (Or.inr hv) (hd v)
    · rfl

theorem word_denotes_nothing {ns : Names} (hn : ns.Proper) :
    (∀ v, ¬ Denotes ns minWord v) ∧ ∀ v, ¬ Denotes ns maxWord v := by
  constructor <;> rintro v (h | h)
  · exact not_numeral_word (w := minWord) rfl (by decide) (by decide) (by decide) v h
  · exact (hn _ _ h).2.1 rfl
  · exact not_numeral_word (w := maxWord) rfl (by decide) (by decide) (by decide) v h
  · exact (hn _ _ h).2.2 rfl

/-- **C68 (violated).** A constraint with no lower bound or no upper bound is legal, but
`INTEGER (MIN..b)` and `INTEGER (a..MAX)` are refused for every `a` and `b`. -/
theorem C68_min_max_violated {ns : Names} (hn : ns.Proper) (a b : Int) (ha : fits128 a) :
    resolveInteger ns.int (integerOf [[.range minWord true (intText b) true]]) = .err .constraint ∧
      resolveInteger ns.int (integerOf [[.range (intText a) true maxWord true]]) = .err .constraint := by
  have h1 := parseOrResolve_none (word_denotes_nothing hn).1
  have h2 := parseOrResolve_none (word_denotes_nothing hn).2
  constructor <;>
    simp [resolveInteger, integerOf, integerType, AsnType.valueset, Constraint.valueset,
      ElementSet.valueset, unionValues, interValues, Elements.values, Out.bind, h1, h2,
      parseOrResolve_intText _ ha]

/-- **C68 (violated).** A set in parentheses is legal, but refused whatever it contains. -/
theorem C68_parentheses_violated (env : Text → Option Int) (e : ElementSet) :
    resolveInteger env (integerOf [[.set e]]) = .err .constraint := rfl

/-- **C68 (violated).** Including the values of a named type is legal, but refused whatever the
type. -/
theorem C68_inclusion_violated (env : Text → Option Int) (name : Text) (cs : Option (List Constraint)) :
    resolveInteger env (integerOf [[.contained (.mk (.reference name) cs)]]) = .err .constraint := by
  cases cs <;> rfl

/-! ## C55: intersections -/

theorem between_values (env : Text → Option Int) {a b : Int} (ha : fits128 a) (hb : fits128 b)
    (hb' : fits128 (b + 1)) : (between a b).values env = .ok { ranges := [(a, b + 1)] } := by
  simp [between, Elements.values, Out.bind, parseOrResolve_intText env ha,
    parseOrResolve_intText env hb, checked128, hb']

theorem exactly_values (env : Text → Option Int) {a : Int} (ha : fits128 a) :
    (exactly a).values env = .ok { values := [a] } := by
  simp [exactly, Elements.values, Out.bind, parseOrResolve_intText env ha]

theorem between_permits {ns : Names} (hn : ns.Proper) (a b x : Int) :
    ElementPermits ns (between a b) x ↔ a ≤ x ∧ x ≤ b := by
  simp only [between, ElementPermits]
  have hw := word_denotes_nothing hn
  constructor
  · rintro ⟨h1 | ⟨v, hv, h1⟩, h2 | ⟨w, hw', h2⟩⟩
    · exact absurd (h1 ▸ Or.inl (numeral_intText a)) (hw.1 a)
    · exact absurd (h1 ▸ Or.inl (numeral_intText a)) (hw.1 a)
    · exact absurd (h2 ▸ Or.inl (numeral_intText b)) (hw.2 b)
    · have := Denotes.unique hn hv (Or.inl (numeral_intText a))
      have := Denotes.unique hn hw' (Or.inl (numeral_intText b))
      omega
  · rintro ⟨h1, h2⟩
    exact ⟨Or.inr ⟨a, Or.inl (numeral_intText a), by simp; omega⟩,
      Or.inr ⟨b, Or.inl (numeral_intText b), by simp; omega⟩⟩

theorem exactly_permits {ns : Names} (hn : ns.Proper) (a x : Int) :
    ElementPermits ns (exactly a) x ↔ x = a :=
  ⟨fun h => Denotes.unique hn h (Or.inl (numeral_intText a)),
    fun h => by subst h; exact Or.inl (numeral_intText x)⟩

/-- **C55 (violated).** For overlapping ranges `a..c` and `b..d` the intersection is `b..c`, but the
computed set is empty, and resolving the type panics. -/
theorem C55_overlap_violated {ns : Names} (hn : ns.Proper) {a b c d : Int} (h1 : a < b) (h2 : b ≤ c)
    (h3 : c < d) (ha : fits128 a) (hd : fits128 (d + 1)) :
    Permits ns (.mk [[between a c, between b d]] none) b ∧
      (∃ vs, (ElementSet.mk [[between a c, between b d]] none).valueset ns.int = .ok vs ∧
        ∀ x, ¬ Holds vs.root x) ∧
      resolveInteger ns.int (integerOf [[between a c, between b d]]) = .panic := by
  unfold fits128 at ha hd
  have e1 := between_values ns.int (a := a) (b := c) ⟨by omega, by omega⟩ ⟨by omega, by omega⟩
    ⟨by omega, by omega⟩
  have e2 := between_values ns.int (a := b) (b := d) ⟨by omega, by omega⟩ ⟨by omega, by omega⟩
    ⟨by omega, by omega⟩
  have hne : ((a, c + 1) == (b, d + 1)) = false := by simp; omega
  have hv : (ElementSet.mk [[between a c, between b d]] none).valueset ns.int = .ok ⟨{}, none⟩ := by
    simp [ElementSet.valueset, unionValues, interValues, Out.bind, e1, e2, intersectStep,
      ConstraintValues.isEmpty, ConstraintValues.append, List.filter, show a ≠ b by omega]
  refine ⟨?_, ⟨_, hv, fun x => holds_empty x⟩, ?_⟩
  · simp only [Permits, SomePermits, EveryElement, between_permits hn, and_true, or_false]
    omega
  · simp [resolveInteger, integerOf, integerType, AsnType.valueset, Constraint.valueset, hv, Out.bind,
      integerOfValueset, ConstraintValues.min, minOf]

/-- **C55 (violated).** A value and a range that contains it: the intersection is the value, but the
computed set is empty, and resolving the type panics. -/
theorem C55_value_range_violated {ns : Names} (hn : ns.Proper) {a b c : Int} (h1 : b ≤ a) (h2 : a ≤ c)
    (hb : fits128 b) (hc : fits128 (c + 1)) :
    Permits ns (.mk [[exactly a, between b c]] none) a ∧
      resolveInteger ns.int (integerOf [[exactly a, between b c]]) = .panic := by
  unfold fits128 at hb hc
  have e1 := exactly_values ns.int (a := a) ⟨by omega, by omega⟩
  have e2 := between_values ns.int (a := b) (b := c) ⟨by omega, by omega⟩ ⟨by omega, by omega⟩
    ⟨by omega, by omega⟩
  refine ⟨?_, ?_⟩
  · simp only [Permits, SomePermits, EveryElement, between_permits hn, exactly_permits hn, and_true, or_false]
    exact ⟨trivial, h1, h2⟩
  · simp [resolveInteger, integerOf, integerType, AsnType.valueset, Constraint.valueset,
      ElementSet.valueset, unionValues, interValues, Out.bind, e1, e2, intersectStep,
      ConstraintValues.isEmpty, ConstraintValues.append, List.filter, integerOfValueset,
      ConstraintValues.min, minOf]

/-- **C55 (violated).** `a ^ b ^ c` with `a ≠ b` permits nothing, but the computed set holds `c`: an
empty intermediate result is taken for the start of the computation. -/
theorem C55_empty_start_violated {ns : Names} (hn : ns.Proper) {a b c : Int} (h : a ≠ b)
    (ha : fits128 a) (hb : fits128 b) (hc : fits128 c) :
    (∀ x, ¬ Permits ns (.mk [[exactly a, exactly b, exactly c]] none) x) ∧
      ∃ vs, (ElementSet.mk [[exactly a, exactly b, exactly c]] none).valueset ns.int = .ok vs ∧
        Holds vs.root c := by
  refine ⟨?_, ⟨{ values := [c] }, none⟩, ?_, Or.inl (by simp)⟩
  · intro x
    simp only [Permits, SomePermits, EveryElement, exactly_permits hn, and_true, or_false]
    omega
  · have hne : (a == b) = false := by simp [h]
    simp [ElementSet.valueset, unionValues, interValues, Out.bind, exactly_values, ha, hb, hc,
      intersectStep, ConstraintValues.isEmpty, ConstraintValues.append, List.filter, h]

/-- **C55 (part).** For two operands of which the first permits some value, every integer in the
computed set is in both operands. Missing: the converse (false, see above) and more operands (false,
see above). -/
theorem C55_sound_partial {ns : Names} (hn : ns.Proper) (e f : Elements) (he : PlainElement e)
    (hf : PlainElement f) (hne : ∃ x, ElementPermits ns e x) {vs : ValueSet}
    (h : (ElementSet.mk [[e, f]] none).valueset ns.int = .ok vs) (x : Int) (hx : Holds vs.root x) :
    ElementPermits ns e x ∧ ElementPermits ns f x := by
  simp only [ElementSet.valueset, unionValues, interValues, Out.bind_ok] at h
  obtain ⟨r, ⟨a, ⟨s, hs, t, ht, h1⟩, b, h2, h3⟩, h4⟩ := h
  injection h1 with h1; injection h2 with h2; injection h3 with h3; injection h4 with h4
  subst h4; subst h3; subst h2; subst h1
  have es := element_holds hn e he hs
  have fs := element_holds hn f hf ht
  simp only [holds_append, holds_empty, or_false] at hx
  have hs0 : s.isEmpty = false := by
    cases hb : s.isEmpty with
    | false => rfl
    | true =>
      obtain ⟨y, hy⟩ := hne
      simp only [ConstraintValues.isEmpty, Bool.and_eq_true, List.isEmpty_iff] at hb
      rcases (es y).2 hy with h | ⟨r, h, -⟩
      · rw [hb.1] at h; simp at h
      · rw [hb.2] at h; simp at h
  have hstart : intersectStep {} s = s := by
    simp [intersectStep, ConstraintValues.isEmpty, ConstraintValues.append]
  rw [hstart] at hx
  simp only [intersectStep, hs0] at hx
  rw [← es, ← fs]
  rcases hx with hx | ⟨r, hr, hx⟩
  · simp only [Bool.false_eq_true, if_false, List.mem_filter, List.contains_iff_mem] at hx
    exact ⟨Or.inl hx.1, Or.inl hx.2⟩
  · simp only [Bool.false_eq_true, if_false, List.mem_filter, List.contains_iff_mem] at hr
    exact ⟨Or.inr ⟨r, hr.1, hx⟩, Or.inr ⟨r, hr.2, hx⟩⟩

/-- An operand of an intersection, written out: a value, or a range. -/
inductive Operand where
  | value (a : Int)
  | range (a b : Int)
deriving DecidableEq

/-- The notation. -/
def Operand.element : Operand → Elements
  | .value a => exactly a
  | .range a b => between a b

/-- The numbers meant. -/
def Operand.Contains : Operand → Int → Prop
  | .value a, x => x = a
  | .range a b, x => a ≤ x ∧ x ≤ b

/-- The numbers written, and the one after the last, fit an `i128`. -/
def Operand.Fits : Operand → Prop
  | .value a => fits128 a
  | .range a b => fits128 a ∧ fits128 b ∧ fits128 (b + 1)

/-- What the resolver computes for it. -/
def Operand.set : Operand → ConstraintValues
  | .value a => { values := [a] }
  | .range a b => { ranges := [(a, b + 1)] }

theorem Operand.values (env : Text → Option Int) (o : Operand) (h : o.Fits) : o.element.values env = .ok o.set := by
  cases o with
  | value a => exact exactly_values env h
  | range a b => exact between_values env h.1 h.2.1 h.2.2

theorem Operand.step_same (o : Operand) : intersectStep o.set o.set = o.set := by
  cases o <;> simp [intersectStep, Operand.set, ConstraintValues.isEmpty]

theorem Operand.step_first (o : Operand) : intersectStep {} o.set = o.set := by
  cases o <;> simp [intersectStep, Operand.set, ConstraintValues.isEmpty, ConstraintValues.append]

theorem Operand.step_other (o p : Operand) (h : o ≠ p) : intersectStep o.set p.set = {} := by
  cases o with
  | value a =>
    cases p with
    | value b =>
      have : a ≠ b := fun e => h (by rw [e])
      simp [intersectStep, Operand.set, ConstraintValues.isEmpty, List.filter, this]
    | range b c => simp [intersectStep, Operand.set, ConstraintValues.isEmpty]
  | range a b =>
    cases p with
    | value c => simp [intersectStep, Operand.set, ConstraintValues.isEmpty]
    | range c d =>
      have : ¬ (a = c ∧ b = d) := fun e => h (by rw [e.1, e.2])
      simp only [intersectStep, Operand.set, ConstraintValues.isEmpty]
      simp [List.filter, this]

theorem Operand.run (env : Text → Option Int) (o : Operand) (h : o.Fits) (k : Nat) (rest : List Elements) :
    interValues env {} (List.replicate (k + 1) o.element ++ rest) = interValues env o.set rest := by
  have step : ∀ k, interValues env o.set (List.replicate k o.element ++ rest) = interValues env o.set rest := by
    intro k
    induction k with
    | zero => rfl
    | succ k ih =>
      rw [List.replicate_succ, List.cons_append, interValues, o.values env h]
      show interValues env (intersectStep o.set o.set) _ = _
      rw [o.step_same, ih]
  rw [List.replicate_succ, List.cons_append, interValues, o.values env h]
  show interValues env (intersectStep {} o.set) _ = _
  rw [o.step_first, step]

/-- **C55 (part).** The intersection of any number of operands that are all written alike is exact. -/
theorem C55_alike_partial {ns : Names} (hn : ns.Proper) (o : Operand) (h : o.Fits) (k : Nat) :
    ∃ vs, (ElementSet.mk [List.replicate (k + 1) o.element] none).valueset ns.int = .ok vs ∧
      (∀ x, Holds vs.root x ↔ o.Contains x) ∧
      ∀ x, Permits ns (.mk [List.replicate (k + 1) o.element] none) x ↔ o.Contains x := by
  have hr := o.run ns.int h k []
  rw [List.append_nil] at hr
  refine ⟨⟨o.set.append {}, none⟩, ?_, ?_, ?_⟩
  · simp only [ElementSet.valueset, unionValues, hr]
    rfl
  · intro x
    rw [holds_append]
    cases o with
    | value a => simp [Operand.set, Holds, Operand.Contains]
    | range a b =>
      simp [Operand.set, Holds, Operand.Contains]
      omega
  · intro x
    have he : ElementPermits ns o.element x ↔ o.Contains x := by
      cases o with
      | value a => exact exactly_permits hn a x
      | range a b => exact between_permits hn a b x
    have hk : ∀ k, EveryElement ns (List.replicate (k + 1) o.element) x ↔ o.Contains x := by
      intro k
      induction k with
      | zero => simp [EveryElement, he]
      | succ k ih =>
        rw [List.replicate_succ]
        simp only [EveryElement, he, ih, and_self]
    simp only [Permits, SomePermits, hk, or_false]

/-- **C55 is violated** by every intersection with an operand written unlike the one before: that operand and all before it are
forgotten, and the constraint is read as if only those after it were there. With C55_alike_partial this says what the resolver makes of
any intersection of values and ranges. -/
theorem C55_unlike_violated (env : Text → Option Int) (o p : Operand) (ho : o.Fits) (hp : p.Fits) (h : o ≠ p) (k : Nat)
    (rest : List Elements) :
    (ElementSet.mk [List.replicate (k + 1) o.element ++ p.element :: rest] none).valueset env =
      (ElementSet.mk [rest] none).valueset env := by
  have e : interValues env {} (List.replicate (k + 1) o.element ++ p.element :: rest) = interValues env {} rest := by
    rw [o.run env ho, interValues, p.values env hp]
    show interValues env (intersectStep o.set p.set) _ = _
    rw [o.step_other p h]
  simp only [ElementSet.valueset, unionValues, e]

-- (0..5) ^ (3..8) ^ (4..9) is read as (4..9), although 9 is not in the first.
example : (ElementSet.mk [[between 0 5, between 3 8, between 4 9]] none).valueset (fun _ => none) =
    (ElementSet.mk [[between 4 9]] none).valueset (fun _ => none) :=
  C55_unlike_violated _ (.range 0 5) (.range 3 8) (by unfold Operand.Fits fits128; decide)
    (by unfold Operand.Fits fits128; decide) (by decide) 0 [between 4 9]

/-- **C55 (part).** The intersection of two single values is exact. -/
theorem C55_values_partial {ns : Names} (hn : ns.Proper) (a b : Int) (ha : fits128 a) (hb : fits128 b) :
    ∃ vs, (ElementSet.mk [[exactly a, exactly b]] none).valueset ns.int = .ok vs ∧
      ∀ x, Holds vs.root x ↔ Permits ns (.mk [[exactly a, exactly b]] none) x := by
  refine ⟨_, by simp [ElementSet.valueset, unionValues, interValues, Out.bind, exactly_values, ha, hb,
    intersectStep, ConstraintValues.isEmpty, ConstraintValues.append]; rfl, ?_⟩
  intro x
  simp only [Permits, SomePermits, EveryElement, exactly_permits hn, Holds]
  by_cases h : a = b
  · subst h; simp [List.filter]
  · simp [List.filter, h]
    omega

example : Permits exampleNames (.mk [[between 0 10, between 5 20]] none) 5 :=
  (C55_overlap_violated exampleNames_proper (by decide) (by decide) (by decide) (by decide)
    (by decide)).1

example : ∃ vs, (ElementSet.mk [[between 0 10, between 0 10]] none).valueset exampleNames.int = .ok vs ∧
    Holds vs.root 7 := by
  refine ⟨⟨{ ranges := [(0, 11)] }, none⟩, ?_, Or.inr ⟨(0, 11), by decide, by decide⟩⟩
  simp [ElementSet.valueset, unionValues, interValues, Out.bind,
    between_values (a := 0) (b := 10) _ (by decide) (by decide) (by decide), intersectStep,
    ConstraintValues.isEmpty, ConstraintValues.append, List.filter]

end Hampi.Compiler
