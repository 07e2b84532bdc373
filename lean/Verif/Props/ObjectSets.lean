import Verif.Props.Resolve
import Verif.Props.Generate
/-!
# Unconstrained integers, enumerations and object sets, from the written form to what is resolved:
C57, C77, C78, C84
-/
namespace Hampi.Compiler.Props
open _root_.Hampi.Compiler.Spec

/-! ## C57 -/

/-- C57: an INTEGER without a constraint becomes an `i64` without bounds. -/
theorem C57_unconstrained (env : Text → Option Int) (named : Option (List (Text × NamedValue))) :
    baseTy env (.mk (.integer named) (some [])) = .ok (some (.integer .i64 none none false)) ∧
    baseTy env (.mk (.integer named) none) = .ok (some (.integer .i64 none none false)) := ⟨rfl, rfl⟩

/-! ## C84 -/

theorem explicitNumbers_none {vs : List EnumValue} (h : ∀ v ∈ vs, v.value = none) :
    explicitNumbers vs = .ok false := by
  induction vs with
  | nil => rfl
  | cons v vs ih =>
    obtain ⟨name, value⟩ := v
    have := h _ (.head _)
    simp only at this
    subst this
    exact ih fun v hv => h v (.tail _ hv)

/-- **C84 (partial).** The codec of an enumeration without explicit numbers takes exactly the positions
of the values of the root, 0 to their number less one, and is extensible exactly when the extension
marker is written. Missing: explicit numbers (see `C82_explicit_numbers_violated`). -/
theorem C84_enumeration_partial (env : Text → Option Int) (first : EnumValue) (rest : List EnumValue)
    (marker : Option Nat) (ext : List EnumValue) (cs : Option (List Constraint))
    (hr : ∀ v ∈ first :: rest, v.value = none) (he : ∀ v ∈ ext, v.value = none) :
    baseTy env (.mk (.enumerated (first :: rest) marker ext) cs) =
      .ok (some (.enumerated .u8 (some 0) (some rest.length) marker.isSome)) := by
  unfold baseTy
  simp only [resolveBase, resolveEnumerated, explicitNumbers_none hr, explicitNumbers_none he, Out.bind]
  simp only [Bool.false_eq_true, if_false]
  have : ∃ p ps, numbered (first :: rest) = p :: ps ∧ ps.length = rest.length := by
    refine ⟨_, _, rfl, ?_⟩
    simp
  obtain ⟨p, ps, h, hl⟩ := this
  rw [h]
  simp only [RBase.attrs, hl]
  rfl

/-- `ENUMERATED { a, b, ... }`. -/
example : ∀ v ∈ [⟨"a".toList, none⟩, ⟨"b".toList, none⟩], EnumValue.value v = none := by
  intro v hv
  simp only [List.mem_cons, List.not_mem_nil, or_false] at hv
  rcases hv with rfl | rfl <;> rfl

/-! ## C78 -/

/-- The unique field `u` of the object `o` is the name of a value that is an integer: the pair of the
decimal notation of the integer and the name. -/
def Keyed (R : Resolver) (u : Text) (o : RObject) (key : Text × Text) : Prop :=
  ∃ ty v i, get o.fields u = some (.fixedTypeValue ty (some (.reference key.2))) ∧
    get R.resolved key.2 = some (.value v) ∧ v.baseInteger = some i ∧ key.1 = (toString i).toList

/-- The table of a set holds exactly the keys of its objects, each with an object that has the key. -/
structure Tabled (R : Resolver) (u : Text) (s : RObjectSet) : Prop where
  sound : ∀ e ∈ s.table, e.2 ∈ s.elements ∧ Keyed R u e.2 e.1
  complete : ∀ o ∈ s.elements, ∀ k, Keyed R u o k → ∃ o', (k, o') ∈ s.table

theorem mem_tablePut {t : List ((Text × Text) × RObject)} {k : Text × Text} {o : RObject}
    {e : (Text × Text) × RObject} : e ∈ tablePut t k o ↔ e = (k, o) ∨ (e ∈ t ∧ e.1 ≠ k) := by
  simp [tablePut]

theorem Keyed.unique {R : Resolver} {u : Text} {o : RObject} {k k' : Text × Text} (h : Keyed R u o k)
    (h' : Keyed R u o k') : k = k' := by
  obtain ⟨k1, k2⟩ := k
  obtain ⟨k1', k2'⟩ := k'
  obtain ⟨ty, v, i, h1, h2, h3, h4⟩ := h
  obtain ⟨ty', v', i', h1', h2', h3', h4'⟩ := h'
  simp only at h1 h2 h4 h1' h2' h4'
  rw [h1] at h1'
  cases h1'
  rw [h2] at h2'
  cases h2'
  rw [h3] at h3'
  cases h3'
  rw [h4, h4']

theorem addObject_tabled {R : Resolver} {u : Text} {s s' : RObjectSet} {o : RObject} (hs : Tabled R u s)
    (h : addObject R (some u) s o = .ok s') :
    s'.elements = s.elements ++ [o] ∧ Tabled R u s' := by
  have other : s' = { s with elements := s.elements ++ [o] } → (∀ k, ¬ Keyed R u o k) →
      s'.elements = s.elements ++ [o] ∧ Tabled R u s' := by
    rintro rfl hk
    refine ⟨rfl, fun e he => ⟨List.mem_append_left _ (hs.sound e he).1, (hs.sound e he).2⟩, ?_⟩
    intro o' ho' k hko
    rcases List.mem_append.mp ho' with ho' | ho'
    · exact hs.complete o' ho' k hko
    · rw [List.mem_singleton] at ho'
      subst ho'
      exact absurd hko (hk k)
  unfold addObject at h
  dsimp only at h
  split at h
  · cases h
  · rename_i hg
    cases h
    refine other rfl ?_
    rintro k ⟨ty, v, i, h1, _⟩
    rw [hg] at h1
    cases h1
  · cases h
  · rename_i ty name hg
    split at h
    · rename_i v hv
      split at h
      · rename_i i hi
        cases h
        have hk : Keyed R u o (showInt i, name) := ⟨ty, v, i, hg, hv, hi, rfl⟩
        refine ⟨rfl, ?_, ?_⟩
        · intro e he
          rcases mem_tablePut.mp he with rfl | ⟨he, _⟩
          · exact ⟨by simp, hk⟩
          · exact ⟨List.mem_append_left _ (hs.sound e he).1, (hs.sound e he).2⟩
        · intro o' ho' k hko
          by_cases hkk : k = (showInt i, name)
          · exact ⟨o, mem_tablePut.mpr (.inl (by rw [hkk]))⟩
          · rcases List.mem_append.mp ho' with ho' | ho'
            · obtain ⟨x, hx⟩ := hs.complete o' ho' k hko
              exact ⟨x, mem_tablePut.mpr (.inr ⟨hx, hkk⟩)⟩
            · rw [List.mem_singleton] at ho'
              subst ho'
              exact absurd (hko.unique hk) hkk
      · cases h
    · rename_i d hne hd
      cases h
      refine other rfl ?_
      rintro k ⟨ty', v, i, h1, h2, _⟩
      rw [hg] at h1
      cases h1
      rw [hd] at h2
      cases h2
      exact hne _ rfl
    · cases h
  · rename_i w hne hg
    cases h
    refine other rfl ?_
    rintro k ⟨ty', v, i, h1, _⟩
    rw [hg] at h1
    cases h1
    exact hne _ rfl

/-- The objects an element of a set adds to it. -/
inductive Adds (n : Nat) (R : Resolver) : SetElement → List RObject → Prop
  | ref {r s} : get R.resolved r = some (.objectSet s) → Adds n R (.setRef r) s.elements
  | object {r o} : get R.resolved r = some (.object o) → Adds n R (.objectRef r) [o]
  | fields {v o} : resolveObject n R v = .ok o → Adds n R (.object v) [o]

theorem addElement_tabled {n : Nat} {R : Resolver} {u : Text} {s s' : RObjectSet} {e : SetElement}
    (href : ∀ r o, e = .setRef r → get R.resolved r = some (.objectSet o) → Tabled R u o) (hs : Tabled R u s)
    (h : addElement n R (some u) s e = .ok s') :
    ∃ os, Adds n R e os ∧ s'.elements = s.elements ++ os ∧ Tabled R u s' := by
  cases e with
  | setRef r =>
    rw [addElement] at h
    split at h
    · rename_i o ho
      cases h
      have hto := href r o rfl ho
      refine ⟨_, .ref ho, rfl, ?_⟩
      have key : ∀ l : List ((Text × Text) × RObject), ∀ t, ∀ e,
          e ∈ l.foldr (fun e t => tablePut t e.1 e.2) t → e ∈ l ∨ e ∈ t := by
        intro l t
        induction l with
        | nil => exact fun e he => .inr he
        | cons x l ih =>
          intro e he
          rcases mem_tablePut.mp he with rfl | ⟨he, _⟩
          · exact .inl (.head _)
          · rcases ih e he with h | h
            · exact .inl (.tail _ h)
            · exact .inr h
      have keep : ∀ l : List ((Text × Text) × RObject), ∀ t k,
          (∃ o', (k, o') ∈ l ∨ (k, o') ∈ t) → ∃ o', (k, o') ∈ l.foldr (fun e t => tablePut t e.1 e.2) t := by
        intro l t k
        induction l with
        | nil => rintro ⟨o', h | h⟩; cases h; exact ⟨o', h⟩
        | cons x l ih =>
          rintro ⟨o', h⟩
          by_cases hx : k = x.1
          · subst hx; exact ⟨x.2, mem_tablePut.mpr (.inl rfl)⟩
          · have : (k, o') ∈ l ∨ (k, o') ∈ t := by
              rcases h with h | h
              · rcases List.mem_cons.mp h with h | h
                · exact absurd (by rw [← h]) hx
                · exact .inl h
              · exact .inr h
            obtain ⟨y, hy⟩ := ih ⟨o', this⟩
            exact ⟨y, mem_tablePut.mpr (.inr ⟨hy, hx⟩)⟩
      refine ⟨fun e he => ?_, fun x hx k hk => keep _ _ _ ?_⟩
      · rcases key _ _ e he with he | he
        · exact ⟨List.mem_append_right _ (hto.sound e he).1, (hto.sound e he).2⟩
        · exact ⟨List.mem_append_left _ (hs.sound e he).1, (hs.sound e he).2⟩
      · rcases List.mem_append.mp hx with hx | hx
        · obtain ⟨y, hy⟩ := hs.complete x hx k hk; exact ⟨y, .inr hy⟩
        · obtain ⟨y, hy⟩ := hto.complete x hx k hk; exact ⟨y, .inl hy⟩
    · cases h
  | objectRef r =>
    rw [addElement] at h
    split at h
    · rename_i o ho
      obtain ⟨h1, h2⟩ := addObject_tabled hs h
      exact ⟨_, .object ho, h1, h2⟩
    · cases h
  | object v =>
    rw [addElement] at h
    obtain ⟨o, ho, h⟩ := Out.bind_ok.mp h
    obtain ⟨h1, h2⟩ := addObject_tabled hs h
    exact ⟨_, .fields ho, h1, h2⟩

/-- **C78.** Resolving an object set of a class with the unique field `u` keeps the objects of its
elements, root first, in the order written, and fills its table with exactly their keys: the number and
the name of the value of `u`. (`href`: the sets it refers to have been resolved for the same class.) -/
theorem C78_table_of_a_set (n : Nat) (R : Resolver) (cls u : Text) (fields : List (Text × ClassField))
    (root add : List SetElement) (s : RObjectSet) (hcls : get R.classes cls = some fields)
    (hu : firstUnique fields = some u)
    (href : ∀ r o, .setRef r ∈ root ++ add → get R.resolved r = some (.objectSet o) → Tabled R u o)
    (h : resolveObjectSet n R cls root add = .ok s) :
    (∃ oss, All2 (Adds n R) (root ++ add) oss ∧ s.elements = oss.flatten) ∧ Tabled R u s := by
  unfold resolveObjectSet at h
  rw [hcls] at h
  simp only [hu] at h
  have step : ∀ (es : List SetElement) (s s' : RObjectSet),
      (∀ r o, .setRef r ∈ es → get R.resolved r = some (.objectSet o) → Tabled R u o) →
      Tabled R u s → addElements n R (some u) s es = .ok s' →
      (∃ oss, All2 (Adds n R) es oss ∧ s'.elements = s.elements ++ oss.flatten) ∧ Tabled R u s' := by
    intro es
    induction es with
    | nil =>
      intro s s' _ hs h
      cases h
      exact ⟨⟨[], .nil, by simp⟩, hs⟩
    | cons e es ih =>
      intro s s' hr hs h
      rw [addElements] at h
      obtain ⟨s1, h1, h⟩ := Out.bind_ok.mp h
      obtain ⟨os, ha, he, ht⟩ := addElement_tabled (fun r o hro => hr r o (hro ▸ .head _)) hs h1
      obtain ⟨⟨oss, hall, hel⟩, ht'⟩ := ih s1 s' (fun r o hm => hr r o (.tail _ hm)) ht h
      refine ⟨⟨os :: oss, .cons ha hall, ?_⟩, ht'⟩
      rw [hel, he]
      simp
  obtain ⟨⟨oss, h1, h2⟩, h3⟩ := step _ _ _ href ⟨(fun e he => by cases he), (fun o ho => by cases ho)⟩ h
  exact ⟨⟨oss, h1, by simpa using h2⟩, h3⟩

/-- **C78.** When the keys of the objects of a set differ, the open type has exactly one alternative for
each object with a key and a named type: the object's own. -/
theorem C78_alternatives_of_the_objects (R : Resolver) (u field : Text) (s : RObjectSet) (ht : Tabled R u s)
    (hn : (s.table.map (·.1)).Nodup)
    (hd : ∀ o ∈ s.elements, ∀ o' ∈ s.elements, ∀ k, Keyed R u o k → Keyed R u o' k → o = o')
    (name number ty : Text) :
    (name, number, ty) ∈ setTypes field s ↔
      ∃ o ∈ s.elements, Keyed R u o (number, name) ∧ get o.fields field = some (.type (some (.reference ty))) := by
  rw [C78_open_type_alternatives_partial field s hn]
  constructor
  · rintro ⟨o, ho, hg⟩
    exact ⟨o, (ht.sound _ ho).1, (ht.sound _ ho).2, hg⟩
  · rintro ⟨o, ho, hk, hg⟩
    obtain ⟨o', ho'⟩ := ht.complete o ho _ hk
    have := hd o ho o' (ht.sound _ ho').1 _ hk (ht.sound _ ho').2
    subst this
    exact ⟨o, ho', hg⟩

namespace Example
/-- `id-a INTEGER ::= 7`, and a class with `&id INTEGER UNIQUE` and `&Value`. -/
def R : Resolver where
  resolved := [("A".toList, .type (.base .boolean)), ("id-a".toList, .value (.integer 7))]
  classes := [("C".toList, [
    ("&Value".toList, .type "&Value".toList false none (some "TYPE".toList)),
    ("&id".toList, .fixedTypeValue "&id".toList (.mk (.integer none) none) true false none (some "ID".toList))])]

/-- `{ { TYPE A ID id-a } }`. -/
def root : List SetElement := [.object (.fields [
  ("&Value".toList, .type (some (.mk (.reference "A".toList) none))),
  ("&id".toList, .fixedTypeValue (.mk (.integer none) none) (some "id-a".toList))])]

example : ∃ s, resolveObjectSet 5 R "C".toList root [] = .ok s ∧ s.elements.length = 1 ∧ s.table.length = 1 ∧
    setTypes "&Value".toList s = [("id-a".toList, "7".toList, "A".toList)] :=
  ⟨_, rfl, rfl, rfl, by decide⟩
end Example

/-! ## C77 -/

/-- What becomes of a component `id C.&field` with the constraint `k`: the type of the field's value in
the first object of the set, as the key unless the constraint names another component, or the open type
of the set. -/
inductive FromClass (setref : Text) (s : RObjectSet) (first : RObject) : SeqComponent → RSeqComponent → Prop
  | value {id cls field k ks opt d t v} : get first.fields field = some (.fixedTypeValue t v) →
      FromClass setref s first (.mk id (.mk (.classField cls field) (some (k :: ks))) opt d)
        (.mk id t false k.compReference.isNone)
  | open_ {id cls field cs opt d} : (∀ t v, get first.fields field ≠ some (.fixedTypeValue t v)) →
      FromClass setref s first (.mk id (.mk (.classField cls field) cs) opt d)
        (.mk id (.set setref (setTypes field s)) false false)

theorem objectComponent_fromClass {setref : Text} {s : RObjectSet} {first : RObject} (all : List SeqComponent) :
    ∀ l, (∀ c ∈ all, ∃ id cls field cs opt d, c = .mk id (.mk (.classField cls field) cs) opt d) →
    ((mapOut (fun c => objectComponent setref s first c.1 c.2) (all.map fun | .mk id ty _ _ => (id, ty))).bind
      fun l => (.ok (l.filterMap id) : Out Err (List RSeqComponent))) = .ok l →
    All2 (FromClass setref s first) all l := by
  induction all with
  | nil => intro l _ hl; cases hl; exact .nil
  | cons x all ih =>
    intro l hall hl
    obtain ⟨id, cls, field, xs, opt, d, rfl⟩ := hall x (.head _)
    obtain ⟨l', hl', hl⟩ := Out.bind_ok.mp hl
    rw [List.map_cons, mapOut] at hl'
    obtain ⟨y, hy, hl'⟩ := Out.bind_ok.mp hl'
    obtain ⟨ys, hys, hl'⟩ := Out.bind_ok.mp hl'
    cases hl'
    cases hl
    have ih' := ih (ys.filterMap _root_.id) (fun c hc => hall c (.tail _ hc)) (by rw [hys]; rfl)
    unfold objectComponent at hy
    dsimp only at hy
    split at hy
    · rename_i t v hg
      obtain ⟨c, hc, hy⟩ := Out.bind_ok.mp hy
      cases hy
      unfold AsnType.firstConstraint at hc
      split at hc
      · rename_i hm
        cases hm
        cases hc
        exact .cons (.value hg) ih'
      · cases hc
    · rename_i hne
      cases hy
      exact .cons (.open_ fun t v he => hne t v he) ih'

/-- **C77 (partial).** When all components of a SEQUENCE, those of its addition groups included, are
taken from the fields of a class, each of them is kept, in order and with its name. Missing, because
false: other components among them, and OPTIONAL. -/
theorem C77_class_components_kept_partial (R : Resolver) (root : List SeqComponent) (adds : List SeqGroup)
    (ext : Bool) (t : RType)
    (hall : ∀ c ∈ root ++ adds.flatMap (fun | .mk _ cs => cs), ∃ id cls field cs opt d,
      c = .mk id (.mk (.classField cls field) cs) opt d)
    (h : resolveClassFields R root adds ext = .ok t) :
    ∃ setref s, get R.resolved setref = some (.objectSet s) ∧ (∀ first rest, s.elements = first :: rest →
      ∃ l, t = .sequence ext l ∧
        All2 (FromClass setref s first) (root ++ adds.flatMap (fun | .mk _ cs => cs)) l) := by
  unfold resolveClassFields at h
  have hcs : allComponents root adds =
    (root ++ adds.flatMap (fun | .mk _ cs => cs)).map fun | .mk id ty _ _ => (id, ty) := rfl
  generalize root ++ adds.flatMap (fun | .mk _ cs => cs) = all at *
  split at h
  · cases h
  · rename_i c cs heq
    obtain ⟨k, hk, h⟩ := Out.bind_ok.mp h
    obtain ⟨setref, hsr, h⟩ := Out.bind_ok.mp h
    split at h
    · rename_i s hs
      refine ⟨setref, s, hs, fun first rest hf => ?_⟩
      obtain ⟨l, hl, h⟩ := Out.bind_ok.mp h
      cases h
      refine ⟨l, rfl, ?_⟩
      rw [← heq, hcs] at hl
      unfold objectComponents at hl
      rw [hf] at hl
      simp only at hl
      exact objectComponent_fromClass all l hall hl
    · cases h

example : ∃ t, resolveClassFields { resolved := [("S".toList, .objectSet ⟨[⟨[("&id".toList,
      .fixedTypeValue (.base .boolean) none)]⟩], []⟩)] }
    [.mk "a".toList (.mk (.classField "C".toList "&id".toList) (some [.tableSimple "S".toList])) false none]
    [.mk none [.mk "b".toList (.mk (.classField "C".toList "&Value".toList) (some [.tableSimple "S".toList])) false none]]
    true = .ok t := ⟨_, rfl⟩

/-- **C77 is violated** by an object set without objects, like `{...}`: all components are lost. -/
theorem C77_empty_set_violated (R : Resolver) (c : SeqComponent) (cs : List SeqComponent) (adds : List SeqGroup)
    (ext : Bool) (id cls field setref : Text) (k : Constraint) (ks : List Constraint) (opt : Bool) (d : Option Text)
    (s : RObjectSet) (hc : c = .mk id (.mk (.classField cls field) (some (k :: ks))) opt d)
    (hk : k.setReference = .ok setref) (hs : get R.resolved setref = some (.objectSet s)) (he : s.elements = []) :
    resolveClassFields R (c :: cs) adds ext = .ok (.sequence ext []) := by
  subst hc
  simp [resolveClassFields, allComponents, AsnType.firstConstraint, Out.bind, hk, hs, objectComponents, he]

example : resolveType 3 { resolved := [("S".toList, .objectSet ⟨[], []⟩)] }
    (.mk (.sequence [.mk "a".toList (.mk (.classField "C".toList "&id".toList) (some [.tableSimple "S".toList])) false none,
      .mk "b".toList (.mk .boolean none) false none] [] false) none) = .ok (.sequence false []) := rfl

/-- **C77 is violated**: the set that governs the second component is not looked at. What it is does not matter, if
only it is written in the same form. -/
theorem C77_other_set_violated (R : Resolver) (c : SeqComponent) (cs : List SeqComponent) (adds : List SeqGroup)
    (ext : Bool) (id cls field : Text) (k k' : Constraint) (ks : List Constraint) (opt : Bool) (d : Option Text)
    (hk : k.compReference.isNone = k'.compReference.isNone) :
    resolveClassFields R (c :: .mk id (.mk (.classField cls field) (some (k :: ks))) opt d :: cs) adds ext =
      resolveClassFields R (c :: .mk id (.mk (.classField cls field) (some (k' :: ks))) opt d :: cs) adds ext := by
  have h1 : ∀ setref s first, objectComponent setref s first id (.mk (.classField cls field) (some (k :: ks))) =
      objectComponent setref s first id (.mk (.classField cls field) (some (k' :: ks))) := by
    intro setref s first
    simp only [objectComponent, AsnType.firstConstraint, Out.bind, hk]
  have h2 : ∀ setref s (x : Text × AsnType) xs,
      objectComponents setref s (x :: (id, .mk (.classField cls field) (some (k :: ks))) :: xs) =
        objectComponents setref s (x :: (id, .mk (.classField cls field) (some (k' :: ks))) :: xs) := by
    intro setref s x xs
    simp only [objectComponents, mapOut, h1]
  obtain ⟨i, ty, o, e⟩ := c
  simp only [resolveClassFields, allComponents, List.cons_append, List.map_cons, h2]

example : (Constraint.tableRelation "S".toList "@id".toList).compReference.isNone =
    (Constraint.tableRelation "T".toList "@id".toList).compReference.isNone := rfl

/-- **C78 is violated** by objects whose type is written out, like `{ ID id-A TYPE INTEGER }`: only for references to
types there are alternatives. -/
theorem C78_inline_type_violated (field : Text) (s : RObjectSet)
    (h : ∀ e ∈ s.table, ∀ t, get e.2.fields field ≠ some (.type (some (.reference t)))) : setTypes field s = [] := by
  have key : ∀ (l : List ((Text × Text) × RObject)) m,
      (∀ e ∈ l, ∀ t, get e.2.fields field ≠ some (.type (some (.reference t)))) →
      l.foldl (fun m (e : (Text × Text) × RObject) =>
        match get e.2.fields field with
        | some (.type (some (.reference t))) => putType m (e.1.2, e.1.1, t)
        | _ => m) m = m := by
    intro l
    induction l with
    | nil => intro m _; rfl
    | cons e l ih =>
      intro m hl
      rw [List.foldl_cons]
      split
      · rename_i t ht
        exact absurd ht (hl e (.head _) t)
      · exact ih m fun e he => hl e (.tail _ he)
  exact key _ _ h

example : setTypes "&Value".toList ⟨[], [(("1".toList, "id-A".toList), ⟨[("&Value".toList, .type (some (.base .boolean)))]⟩)]⟩ = [] :=
  rfl

end Hampi.Compiler.Props
