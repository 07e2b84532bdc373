import Verif.Props.Bounds
/-!
# C56: exactly which mixtures of values and ranges get the right upper bound
-/
namespace Hampi.Compiler

open Hampi.Spec

/-- The operands of a union that are single values. -/
def singlesOf (root : List (List Elements)) : List (List Elements) :=
  root.filter fun i => match i with | [.single _] => true | _ => false

/-- The operands of a union that are ranges. -/
def rangesOf (root : List (List Elements)) : List (List Elements) :=
  root.filter fun i => match i with | [.range ..] => true | _ => false

/-- The values come from the single values and the ranges from the ranges. -/
theorem mixture_values {env : Text → Option Int} : (root : List (List Elements)) → SimpleUnion root →
    ∀ {s}, unionValues env root = .ok s →
    unionValues env (singlesOf root) = .ok { values := s.values } ∧
      unionValues env (rangesOf root) = .ok { ranges := s.ranges }
  | [], _, s, h => by
    simp only [unionValues, Out.ok.injEq] at h
    subst h
    exact ⟨rfl, rfl⟩
  | i :: is, hs, s, h => by
    simp only [unionValues, Out.bind_ok] at h
    obtain ⟨a, ha, b, hb, h⟩ := h
    injection h with h; subst h
    obtain ⟨h1, h2⟩ := mixture_values is (fun j hj => hs j (List.mem_cons_of_mem _ hj)) hb
    rcases hs i (by simp) with ⟨t, rfl⟩ | ⟨lo, li, hi, hj, rfl⟩
    · have e1 : singlesOf ([.single t] :: is) = [.single t] :: singlesOf is := rfl
      have e2 : rangesOf ([.single t] :: is) = rangesOf is := rfl
      rw [e1, e2, h2]
      have ha' := ha
      simp only [interValues, Elements.values, Out.bind_ok] at ha
      obtain ⟨v, ⟨w, hw, h⟩, h'⟩ := ha
      injection h with h; injection h' with h'
      subst h; subst h'
      refine ⟨?_, ?_⟩
      · simp only [unionValues, ha', h1, Out.bind]
        rfl
      · rfl
    · have e1 : singlesOf ([.range lo li hi hj] :: is) = singlesOf is := rfl
      have e2 : rangesOf ([.range lo li hi hj] :: is) = [.range lo li hi hj] :: rangesOf is := rfl
      rw [e1, e2, h1]
      have ha' := ha
      simp only [interValues, Out.bind_ok] at ha
      obtain ⟨v, hv, h'⟩ := ha
      injection h' with h'
      simp only [Elements.values, Out.bind_ok] at hv
      obtain ⟨l, -, l', -, u, -, u', -, z, -, hv⟩ := hv
      injection hv with hv
      subst hv; subst h'
      refine ⟨?_, ?_⟩
      · rfl
      · simp only [unionValues, ha', h2, Out.bind]
        rfl

theorem singlesOf_simple {root : List (List Elements)} (h : SimpleUnion root) : SimpleUnion (singlesOf root) :=
  fun i hi => h i (List.mem_filter.mp hi).1

theorem rangesOf_simple {root : List (List Elements)} (h : SimpleUnion root) : SimpleUnion (rangesOf root) :=
  fun i hi => h i (List.mem_filter.mp hi).1

/-- **C56, exactly.** In a union of single values and ranges, none of them empty, with both kinds in it, the upper bound
of the generated type bounds the permitted values exactly when the greatest of them is both one of the single values and
in one of the ranges. (Otherwise the smaller of two greatest values is taken, see `C56_mixture_violated`. Without one of
the kinds the bound is right, see `C56_bounds_partial`.) -/
theorem C56_upper_bound_iff {ns : Names} (hn : ns.Proper) {root : List (List Elements)}
    {add : Option (List (List Elements))} (hs : SimpleUnion root) (hi : Inhabited ns root)
    (h1 : singlesOf root ≠ []) (h2 : rangesOf root ≠ []) {t : Ty}
    (h : baseTy ns.int (integerType [.subtype (.mk root add)]) = .ok (some t)) :
    ∃ w lb ub, t = .integer w (some lb) (some ub) add.isSome ∧
      ((∀ x, Permits ns (.mk root add) x → x ≤ ub) ↔
        ∃ m, Permits ns (.mk (singlesOf root) none) m ∧ Permits ns (.mk (rangesOf root) none) m ∧
          ∀ x, Permits ns (.mk root add) x → x ≤ m) := by
  obtain ⟨vs, mx, k, sg, hv, hmax, ht, hc⟩ := baseTy_integer h
  simp only [Constraint.valueset] at hv
  have hu := root_values hv
  obtain ⟨p1, -, -⟩ := simple_values hn root hs hi hu
  obtain ⟨q1, q2⟩ := mixture_values root hs hu
  have hmin : ∃ mn, vs.root.min = some mn := by
    rcases hc with ⟨-, ⟨mn, h, -⟩, -⟩ | ⟨-, mn, h, -⟩ <;> exact ⟨mn, h⟩
  obtain ⟨mn, hmin⟩ := hmin
  rw [hmin, hmax, additional_isSome hv] at ht
  refine ⟨_, mn, mx, ht, ?_⟩
  have hr := root_holds hn hs hv
  have hr1 : ∀ x, Permits ns (.mk (singlesOf root) none) x ↔ x ∈ vs.root.values := fun x => by
    have := unionList_holds hn _ (simple_unions (singlesOf_simple hs)) q1 x
    rw [show Permits ns (.mk (singlesOf root) none) x ↔ Holds { values := vs.root.values } x from by
      simpa [Permits] using this.symm]
    simp [Holds]
  have hr2 : ∀ x, Permits ns (.mk (rangesOf root) none) x ↔ ∃ r ∈ vs.root.ranges, r.1 ≤ x ∧ x < r.2 := fun x => by
    have := unionList_holds hn _ (simple_unions (rangesOf_simple hs)) q2 x
    rw [show Permits ns (.mk (rangesOf root) none) x ↔ Holds { ranges := vs.root.ranges } x from by
      simpa [Permits] using this.symm]
    simp [Holds]
  -- both kinds are there
  have n1 : vs.root.values ≠ [] := by
    cases hx : singlesOf root with
    | nil => exact absurd hx h1
    | cons i l =>
      have hmem : i ∈ singlesOf root := by rw [hx]; simp
      obtain ⟨x, hpx⟩ := hi i (List.mem_filter.mp hmem).1
      have : Permits ns (.mk (singlesOf root) none) x := by
        rw [hx]
        exact Or.inl hpx
      intro hnil
      have := (hr1 x).mp this
      rw [hnil] at this
      cases this
  have n2 : vs.root.ranges ≠ [] := by
    cases hx : rangesOf root with
    | nil => exact absurd hx h2
    | cons i l =>
      have hmem : i ∈ rangesOf root := by rw [hx]; simp
      obtain ⟨x, hpx⟩ := hi i (List.mem_filter.mp hmem).1
      have : Permits ns (.mk (rangesOf root) none) x := by
        rw [hx]
        exact Or.inl hpx
      intro hnil
      obtain ⟨r, hr, -⟩ := (hr2 x).mp this
      rw [hnil] at hr
      cases hr
  unfold ConstraintValues.max at hmax
  cases e1 : maxOf vs.root.values with
  | none => exact absurd (maxOf_none e1) n1
  | some v =>
    cases e2 : maxOf (vs.root.ranges.map (·.2 - 1)) with
    | none => exact absurd (List.map_eq_nil_iff.mp (maxOf_none e2)) n2
    | some r =>
      rw [e1, e2] at hmax
      have hmax : min r v = mx := by injection hmax
      obtain ⟨v1, v2⟩ := maxOf_some e1
      obtain ⟨r1, r2⟩ := maxOf_some e2
      obtain ⟨p, hp, hpr⟩ := List.mem_map.mp r1
      have hpp : p.1 < p.2 := p1 p hp
      constructor
      · intro hb
        have hv := hb v ((hr v).mp (Or.inl v1))
        have hrr := hb r ((hr r).mp (Or.inr ⟨p, hp, by omega, by omega⟩))
        have e : v = r := by omega
        refine ⟨v, (hr1 v).mpr v1, (hr2 v).mpr ⟨p, hp, by omega, by omega⟩, fun x hx => ?_⟩
        have := hb x hx
        omega
      · rintro ⟨m, hm1, hm2, hm⟩ x hx
        have a1 := v2 m ((hr1 m).mp hm1)
        obtain ⟨q, hq, hq1, hq2⟩ := (hr2 m).mp hm2
        have a2 := r2 (q.2 - 1) (List.mem_map_of_mem (f := fun r : Int × Int => r.2 - 1) hq)
        have := hm x hx
        omega

/-- In `(9 | 3..9)` the greatest value is of both kinds and the bound is right; in `(1 | 3..9)` it is not. -/
theorem mixture_example {a : Int} (h : a = 9 ∨ a = 1) :
    SimpleUnion [[exactly a], [between 3 9]] ∧ Inhabited exampleNames [[exactly a], [between 3 9]] ∧
    singlesOf [[exactly a], [between 3 9]] ≠ [] ∧ rangesOf [[exactly a], [between 3 9]] ≠ [] ∧
    ∃ t, baseTy exampleNames.int (integerType [.subtype (.mk [[exactly a], [between 3 9]] none)]) = .ok (some t) := by
  refine ⟨?_, ?_, by simp [singlesOf, exactly], by simp [rangesOf, between], ?_⟩
  · intro i hi
    simp only [List.mem_cons, List.not_mem_nil, or_false] at hi
    rcases hi with rfl | rfl
    · exact Or.inl ⟨_, rfl⟩
    · exact Or.inr ⟨_, _, _, _, rfl⟩
  · intro i hi
    simp only [List.mem_cons, List.not_mem_nil, or_false] at hi
    rcases hi with rfl | rfl
    · exact ⟨a, (exactly_permits exampleNames_proper a a).2 rfl, trivial⟩
    · exact ⟨5, (between_permits exampleNames_proper 3 9 5).2 (by decide), trivial⟩
  · have e1 := exactly_values exampleNames.int (a := a) (by rcases h with rfl | rfl <;> decide)
    have e2 := between_values exampleNames.int (a := 3) (b := 9) (by decide) (by decide) (by decide)
    have hv : (Constraint.subtype (.mk [[exactly a], [between 3 9]] none)).valueset exampleNames.int =
        .ok ⟨{ ranges := [(3, 10)], values := [a] }, none⟩ := by
      simp [Constraint.valueset, ElementSet.valueset, unionValues, interValues, Out.bind, e1, e2,
        intersectStep, ConstraintValues.isEmpty, ConstraintValues.append]
    rcases h with rfl | rfl
    · exact ⟨_, (baseTy_of (cs := []) hv (mn := 3) (mx := 9) (by decide) (by decide)).1 (by decide)⟩
    · exact ⟨_, (baseTy_of (cs := []) hv (mn := 1) (mx := 1) (by decide) (by decide)).1 (by decide)⟩

-- (9 | 3..9): the bound covers everything.
example : ∃ w lb ub, baseTy exampleNames.int (integerType [.subtype (.mk [[exactly 9], [between 3 9]] none)]) =
      .ok (some (.integer w (some lb) (some ub) false)) ∧
    ∀ x, Permits exampleNames (.mk [[exactly 9], [between 3 9]] none) x → x ≤ ub := by
  obtain ⟨h1, h2, h3, h4, t, ht⟩ := mixture_example (a := 9) (Or.inl rfl)
  obtain ⟨w, lb, ub, rfl, hb⟩ := C56_upper_bound_iff exampleNames_proper h1 h2 h3 h4 ht
  refine ⟨w, lb, ub, ht, hb.mpr ⟨9, ?_, ?_, ?_⟩⟩
  · exact Or.inl ⟨(exactly_permits exampleNames_proper 9 9).2 rfl, trivial⟩
  · exact Or.inl ⟨(between_permits exampleNames_proper 3 9 9).2 (by decide), trivial⟩
  · intro x
    simp only [Permits, SomePermits, EveryElement, between_permits exampleNames_proper,
      exactly_permits exampleNames_proper, and_true, or_false]
    omega

-- (1 | 3..9): it does not.
example : ∃ w lb ub, baseTy exampleNames.int (integerType [.subtype (.mk [[exactly 1], [between 3 9]] none)]) =
      .ok (some (.integer w (some lb) (some ub) false)) ∧
    ¬ ∀ x, Permits exampleNames (.mk [[exactly 1], [between 3 9]] none) x → x ≤ ub := by
  obtain ⟨h1, h2, h3, h4, t, ht⟩ := mixture_example (a := 1) (Or.inr rfl)
  obtain ⟨w, lb, ub, rfl, hb⟩ := C56_upper_bound_iff exampleNames_proper h1 h2 h3 h4 ht
  refine ⟨w, lb, ub, ht, fun h => ?_⟩
  obtain ⟨m, hm, hm', -⟩ := hb.mp h
  simp only [singlesOf, rangesOf, exactly, between, List.filter] at hm hm'
  have a1 : m = 1 := (exactly_permits exampleNames_proper 1 m).1 (by
    simpa [Permits, SomePermits, EveryElement, exactly] using hm)
  have a2 : 3 ≤ m ∧ m ≤ 9 := (between_permits exampleNames_proper 3 9 m).1 (by
    simpa [Permits, SomePermits, EveryElement, between] using hm')
  omega

end Hampi.Compiler
