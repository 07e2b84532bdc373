import Verif.Spec.Trips
import Verif.Lemmas.Ends
import Verif.Compiler.Items
/-! # When resolving and generating do not panic -/
namespace Hampi.Compiler
open Hampi.Compiler.Spec

/-- No panic. -/
abbrev Quiet {ε α : Type} (m : Out ε α) : Prop := m ≠ .panic

/-- No panic, and `P` of the result. -/
def Calmly {ε α : Type} (P : α → Prop) (m : Out ε α) : Prop := m ≠ .panic ∧ ∀ a, m = .ok a → P a

namespace Calmly
variable {ε α β : Type} {P : α → Prop} {Q : β → Prop}

theorem ok {a : α} (h : P a) : Calmly P (.ok a : Out ε α) := ⟨nofun, fun _ e => by cases e; exact h⟩
theorem err (e : ε) : Calmly P (.err e : Out ε α) := ⟨nofun, nofun⟩
theorem div : Calmly P (.diverge : Out ε α) := ⟨nofun, nofun⟩

theorem bind {m : Out ε α} {f : α → Out ε β} (h : Calmly P m) (h' : ∀ a, m = .ok a → P a → Calmly Q (f a)) :
    Calmly Q (m.bind f) := by
  cases m with
  | ok a => exact h' a rfl (h.2 a rfl)
  | panic => exact absurd rfl h.1
  | err e => exact err e
  | diverge => exact div

theorem mono {P' : α → Prop} {m : Out ε α} (h : Calmly P m) (h' : ∀ a, P a → P' a) : Calmly P' m :=
  ⟨h.1, fun a e => h' a (h.2 a e)⟩

theorem mapOut {f : α → Out ε β} {l : List α} (h : ∀ x ∈ l, Calmly Q (f x)) : Calmly (fun r => ∀ y ∈ r, Q y) (mapOut f l) := by
  induction l with
  | nil => exact ok (by simp)
  | cons x xs ih =>
    refine bind (h x List.mem_cons_self) fun y _ hy =>
      bind (ih fun z hz => h z (List.mem_cons_of_mem _ hz)) fun ys _ hys => ok ?_
    intro z hz
    rcases List.mem_cons.mp hz with rfl | hz
    · exact hy
    · exact hys z hz

end Calmly

/-! ## Constraints -/

/-- Between the two ends of 128 bits. -/
def Mid (v : Int) : Prop := -(2 ^ 127) < v ∧ v ≤ 2 ^ 127 - 1

/-- All that is in the set is between the ends. -/
def MidSet (c : ConstraintValues) : Prop := (∀ v ∈ c.values, Mid v) ∧ ∀ r ∈ c.ranges, Mid r.1 ∧ Mid (r.2 - 1)

theorem MidSet.append {a b : ConstraintValues} (ha : MidSet a) (hb : MidSet b) : MidSet (a.append b) := by
  refine ⟨fun v hv => ?_, fun r hr => ?_⟩
  · rcases List.mem_append.mp hv with h | h
    · exact ha.1 v h
    · exact hb.1 v h
  · rcases List.mem_append.mp hr with h | h
    · exact ha.2 r h
    · exact hb.2 r h

theorem MidSet.empty : MidSet {} := ⟨fun _ => nofun, fun _ => nofun⟩

theorem MidSet.intersect {a b : ConstraintValues} (ha : MidSet a) (hb : MidSet b) : MidSet (intersectStep a b) := by
  unfold intersectStep
  split
  · exact ha.append hb
  · exact ⟨fun v hv => ha.1 v (List.mem_filter.mp hv).1, fun r hr => ha.2 r (List.mem_filter.mp hr).1⟩

/-- The root and the additions. -/
def MidValues (vs : ValueSet) : Prop := MidSet vs.root ∧ ∀ a, vs.additional = some a → MidSet a

/-- No number in the list is huge. -/
def SmallBounds (l : List Text) : Prop := ∀ t ∈ l, ∀ v, parseI128 t = some v → ¬ Huge v

theorem SmallBounds.left {a b : List Text} (h : SmallBounds (a ++ b)) : SmallBounds a :=
  fun t ht => h t (List.mem_append.mpr (.inl ht))
theorem SmallBounds.right {a b : List Text} (h : SmallBounds (a ++ b)) : SmallBounds b :=
  fun t ht => h t (List.mem_append.mpr (.inr ht))

/-- No INTEGER in the list is without constraint. -/
def NoBare (l : List AsnType) : Prop := ∀ nm cs, .mk (.integer nm) cs ∈ l → ¬ Unconstrained (.mk (.integer nm) cs)

theorem NoBare.left {a b : List AsnType} (h : NoBare (a ++ b)) : NoBare a :=
  fun nm cs ht => h nm cs (List.mem_append.mpr (.inl ht))
theorem NoBare.right {a b : List AsnType} (h : NoBare (a ++ b)) : NoBare b :=
  fun nm cs ht => h nm cs (List.mem_append.mpr (.inr ht))

/-- No value that is known is huge. -/
def SmallEnv (env : Text → Option Int) : Prop := ∀ t v, env t = some v → ¬ Huge v

theorem parseOrResolve_calmly {env : Text → Option Int} (he : SmallEnv env) {t : Text} (ht : ∀ v, parseI128 t = some v → ¬ Huge v) :
    Calmly (fun v => ¬ Huge v) (parseOrResolve env t) := by
  unfold parseOrResolve
  split
  · rename_i v hv; exact .ok (ht v hv)
  · split
    · rename_i v hv; exact .ok (he t v hv)
    · exact .err _

theorem checked128_calmly {v : Int} (h : fits128 v) : Calmly (fun w => w = v) (checked128 v) := by
  unfold checked128
  rw [if_pos h]
  exact .ok rfl

mutual

theorem AsnType.valueset_calmly {env : Text → Option Int} (he : SmallEnv env) : (ty : AsnType) →
    (∀ nm cs, ty = .mk (.integer nm) cs → ¬ Unconstrained ty) →
    SmallBounds (boundsOfType ty) → NoBare (includedInType ty) → Calmly MidValues (ty.valueset env)
  | .mk kind cs, hne, hb, hi => by
    cases kind with
    | integer named =>
      match cs with
      | some (c :: _) =>
        rw [AsnType.valueset]
        rw [boundsOfType] at hb
        rw [includedInType] at hi
        exact c.valueset_calmly he hb hi
      | some [] => exact absurd trivial (hne named _ rfl)
      | none => exact absurd trivial (hne named _ rfl)
    | _ => rw [AsnType.valueset]; exact .err _; all_goals nofun

theorem Constraint.valueset_calmly {env : Text → Option Int} (he : SmallEnv env) : (c : Constraint) →
    SmallBounds (boundsOfConstraint c) → NoBare (includedInConstraint c) → Calmly MidValues (c.valueset env)
  | .subtype e, hb, hi => by
    rw [Constraint.valueset]
    rw [boundsOfConstraint] at hb
    rw [includedInConstraint] at hi
    exact e.valueset_calmly he hb hi
  | .tableSimple _, _, _ | .tableRelation .., _, _ | .contents _, _, _ => by
    rw [Constraint.valueset]; exact .err _; all_goals nofun

theorem ElementSet.valueset_calmly {env : Text → Option Int} (he : SmallEnv env) : (e : ElementSet) →
    SmallBounds (boundsOfSet e) → NoBare (includedInSet e) → Calmly MidValues (e.valueset env)
  | .mk root none, hb, hi => by
    rw [ElementSet.valueset]
    rw [boundsOfSet] at hb
    rw [includedInSet] at hi
    exact .bind (unionValues_calmly he root hb hi) fun _ _ h => .ok ⟨h, fun _ => nofun⟩
  | .mk root (some add), hb, hi => by
    rw [ElementSet.valueset]
    rw [boundsOfSet] at hb
    rw [includedInSet] at hi
    exact .bind (unionValues_calmly he root hb.left hi.left) fun _ _ h =>
      .bind (unionValues_calmly he add hb.right hi.right) fun _ _ h' => .ok ⟨h, fun _ e => by cases e; exact h'⟩

theorem unionValues_calmly {env : Text → Option Int} (he : SmallEnv env) : (l : List (List Elements)) →
    SmallBounds (boundsOfUnion l) → NoBare (includedInUnion l) → Calmly MidSet (unionValues env l)
  | [], _, _ => by rw [unionValues]; exact .ok .empty
  | i :: is, hb, hi => by
    rw [unionValues]
    rw [boundsOfUnion] at hb
    rw [includedInUnion] at hi
    exact .bind (interValues_calmly he {} .empty i hb.left hi.left) fun _ _ h =>
      .bind (unionValues_calmly he is hb.right hi.right) fun _ _ h' => .ok (h.append h')

theorem interValues_calmly {env : Text → Option Int} (he : SmallEnv env) (acc : ConstraintValues) (ha : MidSet acc) :
    (l : List Elements) → SmallBounds (boundsOfIntersection l) → NoBare (includedInIntersection l) →
    Calmly MidSet (interValues env acc l)
  | [], _, _ => by rw [interValues]; exact .ok ha
  | e :: es, hb, hi => by
    rw [interValues]
    rw [boundsOfIntersection] at hb
    rw [includedInIntersection] at hi
    exact .bind (e.values_calmly he hb.left hi.left) fun s _ h =>
      interValues_calmly he (intersectStep acc s) (ha.intersect h) es hb.right hi.right

theorem Elements.values_calmly {env : Text → Option Int} (he : SmallEnv env) : (e : Elements) →
    SmallBounds (boundsOfElements e) → NoBare (includedInElements e) → Calmly MidSet (e.values env)
  | .single t, hb, _ => by
    rw [Elements.values]
    rw [boundsOfElements] at hb
    refine .bind (parseOrResolve_calmly he (hb t List.mem_cons_self)) fun v _ h => .ok ⟨fun w hw => ?_, fun _ => nofun⟩
    cases List.mem_singleton.mp hw
    unfold Huge at h
    unfold Mid
    omega
  | .contained ty, hb, hi => by
    rw [Elements.values]
    rw [boundsOfElements] at hb
    rw [includedInElements] at hi
    exact .bind (ty.valueset_calmly he (fun nm cs e => by subst e; exact hi nm cs List.mem_cons_self) hb
      fun nm cs h => hi nm cs (List.mem_cons_of_mem _ h)) fun s _ h => .ok h.1
  | .range lo loIncl hi hiIncl, hb, _ => by
    rw [Elements.values]
    rw [boundsOfElements] at hb
    refine .bind (parseOrResolve_calmly he (hb lo (by simp))) fun l _ hl => ?_
    refine .bind (P := Mid) ?_ fun l' _ hl' => .bind (parseOrResolve_calmly he (hb hi (by simp))) fun h _ hh =>
      .bind (P := fun h => Mid h ∧ h < 2 ^ 127 - 1) ?_ fun h' _ hh' => ?_
    · unfold Huge at hl
      split
      · exact .ok (by unfold Mid; omega)
      · exact (checked128_calmly (by unfold fits128; omega)).mono (by rintro w rfl; unfold Mid; omega)
    · unfold Huge at hh
      split
      · exact .ok (by unfold Mid; omega)
      · exact (checked128_calmly (by unfold fits128; omega)).mono (by rintro w rfl; unfold Mid; omega)
    · have h1 := hh'.1
      unfold Mid at h1
      refine .bind (checked128_calmly (by unfold fits128; omega)) fun e _ he => .ok ?_
      subst he
      refine ⟨fun _ => nofun, fun r hr => ?_⟩
      cases List.mem_singleton.mp hr
      have : h' + 1 - 1 = h' := by omega
      refine ⟨hl', ?_⟩
      dsimp only
      rw [this]
      exact hh'.1
  | .size e, hb, hi => by
    rw [Elements.values]
    rw [boundsOfElements] at hb
    rw [includedInElements] at hi
    refine .bind (e.valueset_calmly he hb hi) fun s _ h => .ok ?_
    cases ha : s.additional with
    | none => exact h.1
    | some a => exact h.1.append (h.2 a ha)
  | .alphabet _, _, _ => by rw [Elements.values]; exact .err _
  | .set _, _, _ => by rw [Elements.values]; exact .err _

end

/-! ## Sets of one operand are not empty -/

theorem append_filled {a b : ConstraintValues} (h : a.isEmpty = false ∨ b.isEmpty = false) : (a.append b).isEmpty = false := by
  unfold ConstraintValues.isEmpty ConstraintValues.append at *
  rcases a with ⟨ar, av⟩
  rcases b with ⟨br, bv⟩
  cases ar <;> cases av <;> cases br <;> cases bv <;> simp_all

mutual

theorem AsnType.valueset_filled {env : Text → Option Int} : (ty : AsnType) → crossedType ty = false → ∀ vs,
    ty.valueset env = .ok vs → vs.root.isEmpty = false
  | .mk kind cs, h, vs, hv => by
    cases kind with
    | integer named =>
      match cs with
      | some (c :: _) =>
        rw [AsnType.valueset] at hv
        rw [crossedType] at h
        exact c.valueset_filled h vs hv
      | some [] => rw [AsnType.valueset] at hv; cases hv; all_goals nofun
      | none => rw [AsnType.valueset] at hv; cases hv; all_goals nofun
    | _ => rw [AsnType.valueset] at hv; cases hv; all_goals nofun

theorem Constraint.valueset_filled {env : Text → Option Int} : (c : Constraint) → crossedConstraint c = false → ∀ vs,
    c.valueset env = .ok vs → vs.root.isEmpty = false
  | .subtype e, h, vs, hv => by
    rw [Constraint.valueset] at hv
    rw [crossedConstraint] at h
    exact e.valueset_filled h vs hv
  | .tableSimple _, _, _, hv | .tableRelation .., _, _, hv | .contents _, _, _, hv => by
    rw [Constraint.valueset] at hv; cases hv; all_goals nofun

theorem ElementSet.valueset_filled {env : Text → Option Int} : (e : ElementSet) → crossedSet e = false → ∀ vs,
    e.valueset env = .ok vs → vs.root.isEmpty = false
  | .mk root none, h, vs, hv => by
    rw [ElementSet.valueset] at hv
    rw [crossedSet, Bool.or_eq_false_iff] at h
    obtain ⟨r, hr, hv⟩ := Out.bind_ok.mp hv
    cases hv
    exact unionValues_filled root h.1 h.2 r hr
  | .mk root (some add), h, vs, hv => by
    rw [ElementSet.valueset] at hv
    rw [crossedSet, Bool.or_eq_false_iff] at h
    obtain ⟨r, hr, hv⟩ := Out.bind_ok.mp hv
    obtain ⟨a, _, hv⟩ := Out.bind_ok.mp hv
    cases hv
    exact unionValues_filled root h.1 h.2 r hr

theorem unionValues_filled {env : Text → Option Int} : (l : List (List Elements)) → l.isEmpty = false →
    crossedUnion l = false → ∀ r, unionValues env l = .ok r → r.isEmpty = false
  | [], h, _, _, _ => by cases h
  | i :: is, _, h, r, hr => by
    rw [unionValues] at hr
    obtain ⟨a, ha, hr⟩ := Out.bind_ok.mp hr
    obtain ⟨b, hb, hr⟩ := Out.bind_ok.mp hr
    cases hr
    match i with
    | [e] =>
      rw [crossedUnion, Bool.or_eq_false_iff] at h
      refine append_filled (.inl ?_)
      rw [interValues] at ha
      obtain ⟨s, hs, ha⟩ := Out.bind_ok.mp ha
      rw [interValues] at ha
      cases ha
      have := e.values_filled h.1 s hs
      unfold intersectStep
      rw [if_pos (show ({} : ConstraintValues).isEmpty = true from rfl)]
      exact append_filled (.inr this)
    | [] => rw [crossedUnion] at h; cases h; all_goals nofun
    | _ :: _ :: _ => rw [crossedUnion] at h; cases h; all_goals nofun

theorem Elements.values_filled {env : Text → Option Int} : (e : Elements) → crossedElements e = false → ∀ s,
    e.values env = .ok s → s.isEmpty = false
  | .single t, _, s, hs => by
    rw [Elements.values] at hs
    obtain ⟨v, _, hs⟩ := Out.bind_ok.mp hs
    cases hs
    rfl
  | .contained ty, h, s, hs => by
    rw [Elements.values] at hs
    rw [crossedElements] at h
    obtain ⟨v, hv, hs⟩ := Out.bind_ok.mp hs
    cases hs
    exact ty.valueset_filled h v hv
  | .range lo loIncl hi hiIncl, _, s, hs => by
    rw [Elements.values] at hs
    obtain ⟨_, _, hs⟩ := Out.bind_ok.mp hs
    obtain ⟨_, _, hs⟩ := Out.bind_ok.mp hs
    obtain ⟨_, _, hs⟩ := Out.bind_ok.mp hs
    obtain ⟨_, _, hs⟩ := Out.bind_ok.mp hs
    obtain ⟨_, _, hs⟩ := Out.bind_ok.mp hs
    cases hs
    rfl
  | .size e, h, s, hs => by
    rw [Elements.values] at hs
    rw [crossedElements] at h
    obtain ⟨v, hv, hs⟩ := Out.bind_ok.mp hs
    have := e.valueset_filled h v hv
    cases hs
    cases v.additional with
    | none => exact this
    | some a => exact append_filled (.inl this)
  | .alphabet _, _, _, hs => by rw [Elements.values] at hs; cases hs
  | .set _, _, _, hs => by rw [Elements.values] at hs; cases hs

end

theorem minOf_mem : {l : List Int} → l ≠ [] → ∃ v, minOf l = some v ∧ v ∈ l
  | [], h => absurd rfl h
  | x :: xs, _ => by
    refine ⟨_, rfl, ?_⟩
    have : ∀ (l : List Int) (a : Int), l.foldl min a = a ∨ l.foldl min a ∈ l := by
      intro l
      induction l with
      | nil => exact fun a => .inl rfl
      | cons b l ih =>
        intro a
        rw [List.foldl_cons]
        rcases ih (min a b) with h | h
        · rw [h]
          rcases (by omega : min a b = a ∨ min a b = b) with e | e
          · exact .inl e
          · exact .inr (List.mem_cons.mpr (.inl e))
        · exact .inr (List.mem_cons_of_mem _ h)
    rcases this xs x with h | h
    · rw [h]; exact List.mem_cons_self
    · exact List.mem_cons_of_mem _ h

theorem maxOf_mem : {l : List Int} → l ≠ [] → ∃ v, maxOf l = some v ∧ v ∈ l
  | [], h => absurd rfl h
  | x :: xs, _ => by
    refine ⟨_, rfl, ?_⟩
    have : ∀ (l : List Int) (a : Int), l.foldl max a = a ∨ l.foldl max a ∈ l := by
      intro l
      induction l with
      | nil => exact fun a => .inl rfl
      | cons b l ih =>
        intro a
        rw [List.foldl_cons]
        rcases ih (max a b) with h | h
        · rw [h]
          rcases (by omega : max a b = a ∨ max a b = b) with e | e
          · exact .inl e
          · exact .inr (List.mem_cons.mpr (.inl e))
        · exact .inr (List.mem_cons_of_mem _ h)
    rcases this xs x with h | h
    · rw [h]; exact List.mem_cons_self
    · exact List.mem_cons_of_mem _ h

/-- A set that is not empty has a smallest and a largest member, both between the ends. -/
theorem MidSet.ends {c : ConstraintValues} (h : MidSet c) (hf : c.isEmpty = false) :
    (∃ v, c.min = some v ∧ Mid v) ∧ ∃ v, c.max = some v ∧ Mid v := by
  obtain ⟨rs, vs⟩ := c
  unfold ConstraintValues.min ConstraintValues.max
  dsimp only
  have hmin : ∀ a b : Int, Mid a → Mid b → Mid (min a b) := by
    intro a b ha hb
    unfold Mid at *
    omega
  by_cases hv : vs = []
  · subst hv
    have hr : rs ≠ [] := by rintro rfl; cases hf
    obtain ⟨a, ha, ham⟩ := minOf_mem (l := rs.map (·.1)) (by simpa using hr)
    obtain ⟨b, hb, hbm⟩ := maxOf_mem (l := rs.map (·.2 - 1)) (by simpa using hr)
    obtain ⟨x, hx, rfl⟩ := List.mem_map.mp ham
    obtain ⟨y, hy, rfl⟩ := List.mem_map.mp hbm
    exact ⟨⟨_, ha, (h.2 x hx).1⟩, ⟨_, hb, (h.2 y hy).2⟩⟩
  · obtain ⟨v, hv1, hvm⟩ := minOf_mem hv
    obtain ⟨w, hw1, hwm⟩ := maxOf_mem hv
    rw [hv1, hw1]
    by_cases hr : rs = []
    · subst hr
      exact ⟨⟨v, rfl, h.1 v hvm⟩, ⟨w, rfl, h.1 w hwm⟩⟩
    · obtain ⟨a, ha, ham⟩ := minOf_mem (l := rs.map (·.1)) (by simpa using hr)
      obtain ⟨b, hb, hbm⟩ := maxOf_mem (l := rs.map (·.2 - 1)) (by simpa using hr)
      obtain ⟨x, hx, rfl⟩ := List.mem_map.mp ham
      obtain ⟨y, hy, rfl⟩ := List.mem_map.mp hbm
      rw [ha, hb]
      exact ⟨⟨_, rfl, hmin _ _ (h.2 x hx).1 (h.1 v hvm)⟩, ⟨_, rfl, hmin _ _ (h.2 y hy).2 (h.1 w hwm)⟩⟩

theorem integerOfValueset_quiet {vs : ValueSet} (h : MidSet vs.root) (hf : vs.root.isEmpty = false) :
    Quiet (integerOfValueset vs) := by
  obtain ⟨⟨mn, h1, m1⟩, mx, h2, m2⟩ := h.ends hf
  have habs : ∀ v, Mid v → Calmly (fun _ => True) (abs128 v) := by
    intro v hv
    unfold Mid at hv
    unfold abs128
    exact (checked128_calmly (by unfold fits128; omega)).mono fun _ _ => trivial
  unfold integerOfValueset
  rw [h1, h2]
  refine (Calmly.bind (P := fun _ => True) (Q := fun _ => True) ?_ fun _ _ _ => .ok trivial).1
  dsimp only
  split
  · exact .bind (habs mx m2) fun _ _ _ => .bind (habs mn m1) fun _ _ _ => .ok trivial
  · exact .ok trivial

end Hampi.Compiler
