import Verif.Props.Generate
/-!
# The names of types without a name of their own: C80
-/
namespace Hampi.Compiler.Props
open _root_.Hampi.Compiler.Spec

/-! ## Numbers and their digits -/

theorem toString_digits (n : Nat) : (toString n).toList = Nat.toDigits 10 n := by
  rw [Nat.toString_eq_repr, Nat.repr, String.toList_ofList]

theorem toString_inj {m n : Nat} (h : (toString m).toList = (toString n).toList) : m = n := by
  rw [toString_digits, toString_digits] at h
  rw [← Nat.ofDigitChars_toDigits (b := 10) (n := m) (by decide) (by decide), h,
    Nat.ofDigitChars_toDigits (by decide) (by decide)]

theorem toString_isDigit {n : Nat} {c : Char} (h : c ∈ (toString n).toList) : c.isDigit = true := by
  rw [toString_digits] at h
  exact Nat.isDigit_of_mem_toDigits (by decide) (by decide) h

/-- The name for the `n`-th unnamed type `b`. -/
def unnamed (b : RBase) (n : Nat) : Text := typeIdent (b.label ++ ' ' :: (toString n).toList)

theorem append_cons_inj {c : Char} {a a' : Text} : ∀ {b b' : Text}, c ∉ b → c ∉ b' →
    a ++ c :: b = a' ++ c :: b' → b = b' := by
  intro b b' hb hb' h
  have key : ∀ a a' : Text, ∀ b b' : Text, c ∉ b → c ∉ b' → a ++ c :: b = a' ++ c :: b' →
      b.length ≤ b'.length → b = b' := by
    intro a a' b b' _ hb' h hl
    have e := congrArg (List.drop a.length) h
    rw [List.drop_left] at e
    have hlen := congrArg List.length h
    simp only [List.length_append, List.length_cons] at hlen
    rcases Nat.lt_or_ge a'.length a.length with hlt | hge
    · exfalso
      have : c ∈ b' := by
        rw [List.drop_append, List.drop_eq_nil_of_le (by omega), List.nil_append] at e
        obtain ⟨k, hk⟩ : ∃ k, a.length - a'.length = k + 1 := ⟨a.length - a'.length - 1, by omega⟩
        rw [hk, List.drop_succ_cons] at e
        exact List.mem_of_mem_drop (e ▸ List.mem_cons_self)
      exact hb' this
    · have : a.length = a'.length := by omega
      rw [this, List.drop_left] at e
      exact (List.cons.inj e).2
  rcases Nat.le_total b.length b'.length with hl | hl
  · exact key a a' b b' hb hb' h hl
  · exact (key a' a b' b hb' hb h.symm hl).symm

theorem unnamed_eq (b : RBase) (n : Nat) : ∃ a, unnamed b n = a ++ '_' :: (toString n).toList := by
  have hd : ∀ ds : Text, (∀ c ∈ ds, c.isDigit = true) →
      ds.map (fun c => if c = '-' ∨ c = ' ' then '_' else c) = ds := by
    intro ds h
    refine (List.map_congr_left fun c hc => ?_).trans (List.map_id ds)
    have := h c hc
    split
    · rename_i he
      rcases he with rfl | rfl <;> revert this <;> decide
    · rfl
  have ha : ∃ x xs, b.label = x :: xs := by cases b <;> exact ⟨_, _, rfl⟩
  obtain ⟨x, xs, hx⟩ := ha
  unfold unnamed typeIdent
  rw [hx, List.cons_append]
  simp only [capitalizeFirst, List.map_cons, List.map_append, hd _ fun c hc => toString_isDigit hc]
  exact ⟨_ :: _, rfl⟩

/-- Names for different numbers differ, whatever the types. -/
theorem unnamed_inj {b b' : RBase} {m n : Nat} (h : unnamed b m = unnamed b' n) : m = n := by
  obtain ⟨a, ha⟩ := unnamed_eq b m
  obtain ⟨a', ha'⟩ := unnamed_eq b' n
  rw [ha, ha'] at h
  have no : ∀ n : Nat, '_' ∉ (toString n).toList := by
    intro n hc
    have := toString_isDigit hc
    revert this
    decide
  exact toString_inj (append_cons_inj (no m) (no n) h)

/-! ## The items made on the way -/

/-- The names of the types that are made for base types. -/
def newtypes (is : List Item) : List Text :=
  is.filterMap fun | .newtype i _ _ => some i | _ => none

/-- From `g` to `g'` the unnamed types got names with different numbers, all of them new. -/
def Fresh (g g' : Gen) : Prop :=
  g.counter ≤ g'.counter ∧ ∃ ns : List (RBase × Nat),
    newtypes g'.aux = newtypes g.aux ++ ns.map (fun p => unnamed p.1 p.2) ∧
    (ns.map (·.2)).Nodup ∧ ∀ p ∈ ns, g.counter < p.2 ∧ p.2 ≤ g'.counter

theorem Fresh.refl (g : Gen) : Fresh g g :=
  ⟨Nat.le_refl _, [], by simp, by simp, fun p hp => by cases hp⟩

theorem Fresh.trans {a b c : Gen} (h1 : Fresh a b) (h2 : Fresh b c) : Fresh a c := by
  obtain ⟨l1, n1, e1, d1, r1⟩ := h1
  obtain ⟨l2, n2, e2, d2, r2⟩ := h2
  refine ⟨by omega, n1 ++ n2, by rw [e2, e1]; simp, ?_, ?_⟩
  · rw [List.map_append, List.nodup_append]
    refine ⟨d1, d2, fun x hx y hy => ?_⟩
    obtain ⟨p, hp, rfl⟩ := List.mem_map.mp hx
    obtain ⟨q, hq, rfl⟩ := List.mem_map.mp hy
    have := (r1 p hp).2
    have := (r2 q hq).1
    omega
  · intro p hp
    rcases List.mem_append.mp hp with hp | hp
    · have := r1 p hp; omega
    · have := r2 p hp; omega

theorem Fresh.push {g : Gen} {i : Item} (h : newtypes [i] = []) : Fresh g (g.push i) := by
  refine ⟨Nat.le_refl _, [], ?_, by simp, fun p hp => by cases hp⟩
  have : newtypes (g.push i).aux = newtypes g.aux ++ newtypes [i] := by
    simp [newtypes, Gen.push]
  rw [this, h]
  simp

/-- A type that gets no name of its own has an item that is not a newtype. -/
theorem genItem_nested {sp : Spelling} {name : Text} {ty : RType} {g : Gen} {i : Item} {g' : Gen}
    (h : genItem sp name ty g = .ok (i, g')) (hb : ∀ b, ty ≠ .base b) : newtypes [i] = [] := by
  match ty with
  | .base b => exact absurd rfl (hb b)
  | .reference r => rw [genItem] at h; cases h; rfl
  | .set s types => rw [genItem] at h; cases h; rfl
  | .sequenceOf ty size =>
    rw [genItem] at h
    obtain ⟨p, _, h⟩ := Out.bind_ok.mp h
    cases h; rfl
  | .sequence ext cs =>
    rw [genItem] at h
    obtain ⟨p, _, h⟩ := Out.bind_ok.mp h
    cases h; rfl
  | .choice root none =>
    rw [genItem] at h
    obtain ⟨p, _, h⟩ := Out.bind_ok.mp h
    split at h <;> cases h; rfl
  | .choice root (some adds) =>
    rw [genItem] at h
    obtain ⟨p, _, h⟩ := Out.bind_ok.mp h
    obtain ⟨q, _, h⟩ := Out.bind_ok.mp h
    split at h <;> cases h; rfl

theorem withIdent_fresh {sp : Spelling} {ty : RType} {input : Text} {g : Gen} {y : Text} {g' : Gen}
    (h : withIdent sp ty input (fun nm => genItem sp nm ty) g = .ok (y, g'))
    (ih : ∀ nm g i g', genItem sp nm ty g = .ok (i, g') → Fresh g g') : Fresh g g' := by
  unfold withIdent at h
  split at h
  · cases h; exact .refl _
  · rename_i b
    obtain ⟨i, hi, h⟩ := Out.bind_ok.mp h
    cases h
    unfold genBase at hi
    obtain ⟨t, _, hi⟩ := Out.bind_ok.mp hi
    cases hi
    refine ⟨Nat.le_succ _, [(b, g.counter + 1)], ?_, by simp, ?_⟩
    · simp [newtypes, Gen.push, Gen.next, unnamed, Gen.uniqueName]
    · intro p hp
      rw [List.mem_singleton] at hp
      subst hp
      exact ⟨Nat.lt_succ_self _, Nat.le_refl _⟩
  · rename_i hb
    obtain ⟨p, hp, h⟩ := Out.bind_ok.mp h
    cases h
    exact (ih _ _ _ _ hp).trans (.push (genItem_nested hp hb))

mutual

theorem genItem_fresh (sp : Spelling) (ty : RType) : ∀ (name : Text) (g : Gen) (i : Item) (g' : Gen),
    genItem sp name ty g = .ok (i, g') → Fresh g g' := by
  intro name g i g' h
  match ty with
  | .base b =>
      rw [genItem] at h
      obtain ⟨_, _, h⟩ := Out.bind_ok.mp h
      cases h; exact .refl _
  | .reference r => rw [genItem] at h; cases h; exact .refl _
  | .set s types => rw [genItem] at h; cases h; exact .refl _
  | .sequenceOf ty size =>
      rw [genItem] at h
      obtain ⟨p, hp, h⟩ := Out.bind_ok.mp h
      cases h
      exact withIdent_fresh hp (genItem_fresh sp ty)
  | .sequence ext cs =>
      rw [genItem] at h
      obtain ⟨p, hp, h⟩ := Out.bind_ok.mp h
      cases h
      exact genFields_fresh sp cs name 0 g p.1 p.2 hp
  | .choice root none =>
      rw [genItem] at h
      obtain ⟨p, hp, h⟩ := Out.bind_ok.mp h
      split at h
      · cases h
      · cases h
        exact genVariants_fresh sp root name false 0 g p.1 p.2 hp
  | .choice root (some adds) =>
      rw [genItem] at h
      obtain ⟨p, hp, h⟩ := Out.bind_ok.mp h
      obtain ⟨q, hq, h⟩ := Out.bind_ok.mp h
      split at h
      · cases h
      · cases h
        exact (genVariants_fresh sp root name false 0 g p.1 p.2 hp).trans
          (genVariants_fresh sp adds name true 0 p.2 q.1 q.2 hq)

theorem genFields_fresh (sp : Spelling) (cs : List RSeqComponent) : ∀ (name : Text) (n : Nat) (g : Gen)
    (r : List FieldItem × Nat) (g' : Gen), genFields sp name n cs g = .ok (r, g') → Fresh g g' := by
  intro name n g r g' h
  match cs with
  | [] => rw [genFields] at h; cases h; exact .refl _
  | .mk id ty opt key :: cs =>
      rw [genFields] at h
      obtain ⟨p, hp, h⟩ := Out.bind_ok.mp h
      obtain ⟨q, hq, h⟩ := Out.bind_ok.mp h
      cases h
      exact (withIdent_fresh hp (genItem_fresh sp ty)).trans (genFields_fresh sp cs name _ p.2 q.1 q.2 hq)

theorem genVariants_fresh (sp : Spelling) (cs : List RComponent) : ∀ (name : Text) (x : Bool) (i : Nat)
    (g : Gen) (r : List VariantItem) (g' : Gen), genVariants sp name x i cs g = .ok (r, g') → Fresh g g' := by
  intro name x i g r g' h
  match cs with
  | [] => rw [genVariants] at h; cases h; exact .refl _
  | .mk id ty :: cs =>
      rw [genVariants] at h
      obtain ⟨p, hp, h⟩ := Out.bind_ok.mp h
      obtain ⟨q, hq, h⟩ := Out.bind_ok.mp h
      cases h
      exact (withIdent_fresh hp (genItem_fresh sp ty)).trans (genVariants_fresh sp cs name x _ p.2 q.1 q.2 hq)

end

theorem genAll_fresh {sp : Spelling} {ts : List (Text × RType)} : ∀ {g : Gen} {is : List Item} {g' : Gen},
    genAll sp ts g = .ok (is, g') → Fresh g g' := by
  induction ts with
  | nil => intro g is g' h; rw [genAll] at h; cases h; exact .refl _
  | cons t ts ih =>
    intro g is g' h
    obtain ⟨k, t⟩ := t
    rw [genAll] at h
    obtain ⟨p, hp, h⟩ := Out.bind_ok.mp h
    obtain ⟨q, hq, h⟩ := Out.bind_ok.mp h
    cases h
    exact (genItem_fresh sp t k g p.1 p.2 hp).trans (ih hq)

/-- **C80 (partial).** The types made for INTEGER, ENUMERATED, strings and so on that are written inside
of other types have different names: after the items for the definitions (`is`), no two newtypes have
the same name. -/
theorem C80_unnamed_types_partial (sp : Spelling) (R : Resolver) (items : List Item)
    (h : generate sp R = .ok items) :
    ∃ is aux, items = is ++ aux ∧ is.length = (resolvedTypes R.resolved).length ∧ (newtypes aux).Nodup := by
  obtain ⟨p, hp, h⟩ := Out.bind_ok.mp h
  cases h
  refine ⟨p.1, p.2.aux, rfl, ?_, ?_⟩
  · have := congrArg List.length (genAll_spec hp).1
    simpa using this
  · obtain ⟨_, ns, e, d, _⟩ := genAll_fresh hp
    rw [e]
    show ([] ++ _ : List Text).Nodup
    rw [List.nil_append]
    have key : ∀ ns : List (RBase × Nat), (ns.map (·.2)).Nodup → (ns.map fun p => unnamed p.1 p.2).Nodup := by
      intro ns
      induction ns with
      | nil => exact fun _ => by simp
      | cons x ns ih =>
        intro hd
        rw [List.map_cons, List.nodup_cons] at hd ⊢
        refine ⟨fun hm => ?_, ih hd.2⟩
        obtain ⟨y, hy, he⟩ := List.mem_map.mp hm
        exact hd.1 (List.mem_map.mpr ⟨y, hy, unnamed_inj he⟩)
    exact key ns d

/-- `T ::= SEQUENCE { a INTEGER, b BOOLEAN }`. -/
def twoUnnamed : Resolver where
  resolved := [("T".toList, .type (.sequence false
    [.mk "a".toList (.base (.integer 64 true none)) false false, .mk "b".toList (.base .boolean) false false]))]

example : ∃ items, generate plainSpelling twoUnnamed = .ok items ∧
    newtypes items = ["INTEGER_2".toList, "BOOLEAN_3".toList] := ⟨_, rfl, by decide⟩

/-- `INTEGER-2 ::= BOOLEAN`, `T ::= SEQUENCE { a INTEGER }`. -/
def numberClash : Resolver where
  resolved := [("INTEGER-2".toList, .type (.base .boolean)), ("T".toList, .type (.sequence false
    [.mk "a".toList (.base (.integer 64 true none)) false false]))]

/-- C80, violated: they may be the names of definitions. -/
theorem C80_unnamed_and_defined_violated : ∃ items, generate plainSpelling numberClash = .ok items ∧
    IsTypeReference "INTEGER-2".toList ∧ ¬ DistinctNames items := by
  refine ⟨_, rfl, ⟨_, _, rfl, by decide, by decide⟩, ?_⟩
  unfold DistinctNames
  decide

end Hampi.Compiler.Props
