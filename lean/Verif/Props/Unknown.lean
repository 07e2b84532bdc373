import Verif.Props.Order
import Verif.Props.Resolve
/-!
# C76: definitions that mention an unknown type

A definition in which the name of an unknown type stands in a place that is kept (`Uses`) is never
accepted, whatever else it contains, and is never among the results. Some places are not looked at, and an unknown type
there goes unnoticed.
-/
namespace Hampi.Compiler.Spec

/-- The type `r` is named in a type: as an alternative of a CHOICE, a component of a SEQUENCE or an element of a
SEQUENCE OF, at any depth. Left out are the addition groups of a SEQUENCE, and a SEQUENCE whose first component has a
constraint that names an object set (one of `sets`). -/
inductive Uses (sets : Text → Prop) (r : Text) : AsnType → Prop
  | reference {cs} : Uses sets r (.mk (.reference r) cs)
  | alternative {root adds id ty cs} : Component.mk id ty ∈ root → Uses sets r ty →
      Uses sets r (.mk (.choice root adds) cs)
  | addition {root gs v alts id ty cs} : ChoiceGroup.mk v alts ∈ gs → Component.mk id ty ∈ alts → Uses sets r ty →
      Uses sets r (.mk (.choice root (some gs)) cs)
  | component {root adds ext id ty opt d cs} : SeqComponent.mk id ty opt d ∈ root →
      (∀ c rest k set, allComponents root adds = c :: rest → c.2.firstConstraint = .ok k →
        k.setReference = .ok set → ¬ sets set) →
      Uses sets r ty → Uses sets r (.mk (.sequence root adds ext) cs)
  | element {size ty cs} : Uses sets r ty → Uses sets r (.mk (.sequenceOf size ty) cs)

end Hampi.Compiler.Spec

namespace Hampi.Compiler.Props

open Hampi.Compiler Hampi.Compiler.Spec

theorem uses_not_ok {sets : Text → Prop} {r : Text} {R : Resolver} (hr : ¬ IsType R r)
    (hs : ∀ x s, get R.resolved x = some (.objectSet s) → sets x) {ty : AsnType} (h : Uses sets r ty) :
    ∀ n t, resolveType n R ty ≠ .ok t := by
  induction h with
  | reference =>
    intro n t ht
    cases n with
    | zero => cases ht
    | succ n =>
      rw [resolveType] at ht
      split at ht
      · rename_i t' ht'; exact hr ⟨t', ht'⟩
      · cases ht
  | alternative hm _ ih =>
    intro n t ht
    cases n with
    | zero => cases ht
    | succ n =>
      rw [resolveType, Out.bind_ok] at ht
      obtain ⟨comps, hc, _⟩ := ht
      obtain ⟨y, _, hy⟩ := (mapOut_ok hc).mem_left _ hm
      rw [resolveAlternative, Out.bind_ok] at hy
      obtain ⟨t', ht', _⟩ := hy
      exact ih n t' ht'
  | addition hg hm _ ih =>
    intro n t ht
    cases n with
    | zero => cases ht
    | succ n =>
      rw [resolveType, Out.bind_ok] at ht
      obtain ⟨comps, _, ht⟩ := ht
      dsimp only at ht
      rw [Out.bind_ok] at ht
      obtain ⟨comps, hc, _⟩ := ht
      obtain ⟨y, _, hy⟩ := (mapOut_ok hc).mem_left _ (List.mem_flatMap.mpr ⟨_, hg, hm⟩)
      rw [resolveAlternative, Out.bind_ok] at hy
      obtain ⟨t', ht', _⟩ := hy
      exact ih n t' ht'
  | component hm hset _ ih =>
    intro n t ht
    cases n with
    | zero => cases ht
    | succ n =>
      rw [resolveType] at ht
      split at ht
      · rename_i comps hc
        obtain ⟨y, _, hy⟩ := (mapOut_ok hc).mem_left _ hm
        rw [resolveComponent, Out.bind_ok] at hy
        obtain ⟨t', ht', _⟩ := hy
        exact ih n t' ht'
      · unfold resolveClassFields at ht
        split at ht
        · cases ht
        · rename_i c rest hall
          rw [Out.bind_ok] at ht
          obtain ⟨k, hk, ht⟩ := ht
          rw [Out.bind_ok] at ht
          obtain ⟨set, hset', ht⟩ := ht
          split at ht
          · rename_i s hs'
            exact hset c rest k set hall hk hset' (hs _ _ hs')
          · cases ht
      · cases ht
      · cases ht
  | element _ ih =>
    intro n t ht
    cases n with
    | zero => cases ht
    | succ n =>
      rw [resolveType, Out.bind_ok] at ht
      obtain ⟨t', ht', _⟩ := ht
      exact ih n t' ht'

/-- **C76 (partial).** A definition that names an unknown type in one of these places, at any depth, is never accepted:
the outcome is an error (or a panic, see `C76_unknown_type_in_sequence_violated`). Missing, because false: addition
groups of a SEQUENCE (`C75_addition_groups_violated`) and a SEQUENCE governed by an object set
(`C76_beside_class_fields_violated`), in which the unknown type goes unnoticed. -/
theorem C76_never_accepted_partial (n : Nat) (R : Resolver) (r : Text) (ty : AsnType) (hr : ¬ IsType R r)
    (h : Uses (fun x => ∃ s, get R.resolved x = some (.objectSet s)) r ty) (x : RDef) :
    resolveDefinition n R (.type ty) ≠ .ok x := by
  intro hd
  rw [resolveDefinition, Out.bind_ok] at hd
  obtain ⟨t, ht, _⟩ := hd
  exact uses_not_ok hr (fun x s h => ⟨s, h⟩) h n t ht

/-- `SEQUENCE { a INTEGER, b CHOICE { c SEQUENCE OF Unknown } }` names `Unknown`. -/
example (sets : Text → Prop) : Uses sets "Unknown".toList (.mk (.sequence
    [.mk "a".toList (.mk (.integer none) none) false none,
     .mk "b".toList (.mk (.choice [.mk "c".toList (.mk (.sequenceOf none
       (.mk (.reference "Unknown".toList) none)) none)] none) none) true none] [] false) none) := by
  refine .component (.tail _ (.head _)) ?_ (.alternative (.head _) (.element .reference))
  intro c rest k set h hk
  cases h
  cases hk

/-- What is true of the resolver at all times: `r` is not a type, only `sets` are object sets, and `k` is not there. -/
def Without (sets : Text → Prop) (r : Text) (k : Option Text) (R : Resolver) : Prop :=
  ¬ IsType R r ∧ (∀ x s, get R.resolved x = some (.objectSet s) → sets x) ∧ ∀ x, k = some x → get R.resolved x = none

/-- The definitions define no type `r`, only `sets` as object sets, and `k`, if at all, with the help of `r`. -/
def Lacks (sets : Text → Prop) (r : Text) (k : Option Text) (defs : List (Text × Definition)) : Prop :=
  (∀ ty, (r, ⟨.type ty, none⟩) ∉ defs) ∧
  (∀ x cls root add p, (x, ⟨.objectSet cls root add, p⟩) ∈ defs → sets x) ∧
  ∀ x d, k = some x → (x, d) ∈ defs → d.params = none ∧ ∃ ty, d.kind = .type ty ∧ Uses sets r ty

theorem resolveDefinition_type {n : Nat} {R : Resolver} {a : Assignment} {t : RType}
    (h : resolveDefinition n R a = .ok (.type t)) : ∃ ty, a = .type ty := by
  cases a with
  | type ty => exact ⟨ty, rfl⟩
  | value ty v =>
    rw [resolveDefinition, Out.bind_ok] at h
    obtain ⟨_, _, h⟩ := h
    rw [Out.bind_ok] at h
    obtain ⟨_, _, h⟩ := h
    cases h
  | objectSet =>
    rw [resolveDefinition, Out.bind_ok] at h
    obtain ⟨_, _, h⟩ := h
    cases h
  | object =>
    rw [resolveDefinition, Out.bind_ok] at h
    obtain ⟨_, _, h⟩ := h
    cases h
  | «class» => cases h

theorem resolveDefinition_set {n : Nat} {R : Resolver} {a : Assignment} {s : RObjectSet}
    (h : resolveDefinition n R a = .ok (.objectSet s)) : ∃ cls root add, a = .objectSet cls root add := by
  cases a with
  | objectSet cls root add => exact ⟨cls, root, add, rfl⟩
  | value ty v =>
    rw [resolveDefinition, Out.bind_ok] at h
    obtain ⟨_, _, h⟩ := h
    rw [Out.bind_ok] at h
    obtain ⟨_, _, h⟩ := h
    cases h
  | type =>
    rw [resolveDefinition, Out.bind_ok] at h
    obtain ⟨_, _, h⟩ := h
    cases h
  | object =>
    rw [resolveDefinition, Out.bind_ok] at h
    obtain ⟨_, _, h⟩ := h
    cases h
  | «class» => cases h

theorem resolveOne_without {sets : Text → Prop} {r : Text} {k : Option Text} {defs : List (Text × Definition)}
    (hl : Lacks sets r k defs) {n : Nat} {R R' : Resolver} {j : Text} (hw : Without sets r k R)
    (h : resolveOne n defs R j = .ok R') : Without sets r k R' := by
  unfold resolveOne at h
  split at h
  · cases h; exact hw
  · rename_i d hd
    have hmem := get_mem hd
    split at h
    · cases h; exact hw
    · rename_i hp
      split at h
      · cases h; exact hw
      · rw [Out.bind_ok] at h
        obtain ⟨x, hx, h⟩ := h
        cases h
        refine ⟨?_, fun y s hy => ?_, fun y hy => ?_⟩
        · rintro ⟨t, ht⟩
          rw [get_put] at ht
          split at ht
          · rename_i e
            subst e
            cases ht
            obtain ⟨ty, hty⟩ := resolveDefinition_type hx
            apply hl.1 ty
            have : d = ⟨.type ty, none⟩ := by cases d; cases hty; cases hp; rfl
            rw [← this]; exact hmem
          · exact hw.1 ⟨t, ht⟩
        · rw [get_put] at hy
          split at hy
          · rename_i e
            subst e
            cases hy
            obtain ⟨cls, root, add, hk⟩ := resolveDefinition_set hx
            refine hl.2.1 _ cls root add d.params ?_
            rw [← hk]; exact hmem
          · exact hw.2.1 y s hy
        · rw [get_put]
          split
          · rename_i e
            subst e
            obtain ⟨_, ty, hty, hu⟩ := hl.2.2 _ d hy hmem
            rw [hty, resolveDefinition, Out.bind_ok] at hx
            obtain ⟨t, ht, _⟩ := hx
            exact absurd ht (uses_not_ok hw.1 hw.2.1 hu n t)
          · exact hw.2.2 y hy

theorem resolveInOrder_without {sets : Text → Prop} {r : Text} {k : Option Text} {defs : List (Text × Definition)}
    (hl : Lacks sets r k defs) {n : Nat} : {order : List Text} → {R R' : Resolver} → Without sets r k R →
      resolveInOrder n defs R order = .ok R' → Without sets r k R'
  | [], R, R', hw, h => by cases h; exact hw
  | j :: js, R, R', hw, h => by
      rw [resolveInOrder, Out.bind_ok] at h
      obtain ⟨R1, h1, h2⟩ := h
      exact resolveInOrder_without hl (resolveOne_without hl hw h1) h2

/-- **C76 (partial).** When a module has been resolved without error, no definition in it that is neither on nor above
a reference cycle names an unknown type in one of these places. (Those on or above a cycle are lost, see C59.) -/
theorem C76_module_partial (n : Nat) (imports : List (Text × Text)) (defs : List (Text × Definition))
    (hkeys : (defs.map (·.1)).Nodup) (R R' : Resolver) (order : List Text)
    (hs : Sorted (needsOf imports defs) order) (h : resolveInOrder n defs R order = .ok R')
    (k : Text) (ty : AsnType) (hk : (k, ⟨.type ty, none⟩) ∈ defs) (hc : ¬ Cyclic (needsOf imports defs) k)
    (r : Text) (hr : ¬ IsType R r) (hd : ∀ ty, (r, ⟨.type ty, none⟩) ∉ defs) :
    ¬ Uses (fun x => (∃ s, get R.resolved x = some (.objectSet s)) ∨
      ∃ cls root add p, (x, ⟨.objectSet cls root add, p⟩) ∈ defs) r ty := by
  intro hu
  have hm : k ∈ order := (hs.mem_iff (.inl ⟨_, List.mem_map.mpr ⟨_, hk, rfl⟩⟩)).mpr hc
  obtain ⟨a, b, R1, R2, _, h1, h2, _⟩ := resolveInOrder_at h hs.nodup hm
  have hl : Lacks (fun x => (∃ s, get R.resolved x = some (.objectSet s)) ∨
      ∃ cls root add p, (x, ⟨.objectSet cls root add, p⟩) ∈ defs) r none defs :=
    ⟨hd, fun x cls root add p hx => .inr ⟨cls, root, add, p, hx⟩, fun x d hx => by cases hx⟩
  have hw := resolveInOrder_without hl (R := R) ⟨hr, fun x s hx => .inl ⟨s, hx⟩, fun x hx => by cases hx⟩ h1
  unfold resolveOne at h2
  rw [get_of_mem hkeys hk] at h2
  dsimp only at h2
  rw [Out.bind_ok] at h2
  obtain ⟨x, hx, _⟩ := h2
  rw [resolveDefinition, Out.bind_ok] at hx
  obtain ⟨t, ht, _⟩ := hx
  exact uses_not_ok hw.1 hw.2.1 hu n t ht

/-- A module that meets the hypotheses: `A ::= BOOLEAN`, `B ::= A`, nothing called `Unknown`. -/
example : ∃ R', resolveInOrder 2 [("A".toList, ⟨.type (.mk .boolean none), none⟩),
    ("B".toList, ⟨.type (.mk (.reference "A".toList) none), none⟩)] {} ["A".toList, "B".toList] = .ok R' ∧
    ¬ IsType {} "Unknown".toList := ⟨_, rfl, fun ⟨_, h⟩ => by cases h⟩

/-! ### All modules -/

theorem readDefinition_same {R : Resolver} {M : Module} {d e : Text × Definition}
    (h : readDefinition R M d = .ok e) :
    (∀ ty, e.2.kind = .type ty → e = d) ∧
    (∀ cls root add, e.2.kind = .objectSet cls root add → ∃ cls' root' add', d.2.kind = .objectSet cls' root' add') ∧
    (∀ ty, d.2.kind = .type ty → e = d) := by
  unfold readDefinition at h
  split at h
  · rename_i hd
    split at h
    · cases h
    · rw [Out.bind_ok] at h
      obtain ⟨x, _, h⟩ := h
      cases h
      exact ⟨fun ty h => by (cases h), fun _ _ _ h => by (cases h), fun ty h => by (rw [hd] at h; cases h)⟩
  · rename_i hd
    split at h
    · cases h
      exact ⟨fun ty h => rfl, fun _ _ _ h => by (rw [hd] at h; cases h), fun ty h => rfl⟩
    · cases h
  · rename_i hd
    split at h
    · cases h
    · rw [Out.bind_ok] at h
      obtain ⟨x, _, h⟩ := h
      cases h
      exact ⟨fun ty h => by (cases h), fun _ _ _ _ => ⟨_, _, _, hd⟩, fun ty h => by (rw [hd] at h; cases h)⟩
  · rename_i h1 h2 h3
    cases h
    exact ⟨fun ty h => rfl, fun _ _ _ h => absurd h (h3 _ _ _), fun ty h => rfl⟩

theorem read_lacks {sets : Text → Prop} {r : Text} {k : Option Text} {R : Resolver} {M : Module}
    {l l' : List (Text × Definition)} (hl : Lacks sets r k l)
    (h : All2 (fun x y => readDefinition R M x = .ok y) l l') : Lacks sets r k l' := by
  refine ⟨fun ty hm => ?_, fun x cls root add p hm => ?_, fun x d hk hm => ?_⟩
  · obtain ⟨d, hd, he⟩ := h.mem_right _ hm
    have := (readDefinition_same he).1 ty rfl
    rw [← this] at hd
    exact hl.1 ty hd
  · obtain ⟨d, hd, he⟩ := h.mem_right _ hm
    obtain ⟨cls', root', add', hk⟩ := (readDefinition_same he).2.1 _ _ _ rfl
    refine hl.2.1 x cls' root' add' d.2.params ?_
    have h1 := (readDefinition_key he).1
    dsimp only at h1
    rw [h1, ← hk]
    exact hd
  · obtain ⟨e, hd, he⟩ := h.mem_right _ hm
    have h1 := (readDefinition_key he).1
    dsimp only at h1
    obtain ⟨_, ty, hty, _⟩ := hl.2.2 x e.2 hk (by rw [h1]; exact hd)
    have := (readDefinition_same he).2.2 ty hty
    subst this
    exact hl.2.2 x d hk hd

theorem module_without {sets : Text → Prop} {r : Text} {k : Option Text} {n : Nat} {R R' : Resolver} {M : Module}
    (hl : Lacks sets r k M.definitions) (hw : Without sets r k R) (h : ResolvesModule n R M (.ok R')) :
    Without sets r k R' := by
  unfold ResolvesModule at h
  split at h
  · rename_i defs hread
    obtain ⟨order, _, ho⟩ := h
    exact resolveInOrder_without (read_lacks hl (mapOut_ok hread)) (R := addClasses R M.definitions) hw ho.symm
  all_goals cases h

theorem order_without {sets : Text → Prop} {r : Text} {k : Option Text} {n : Nat} {ms : List Module}
    (hl : ∀ M ∈ ms, Lacks sets r k M.definitions) : {order : List Text} → {R R' : Resolver} →
      Without sets r k R → ResolvesOrder n ms order R (.ok R') → Without sets r k R'
  | [], R, R', hw, h => by cases h; exact hw
  | j :: js, R, R', hw, h => by
      unfold ResolvesOrder at h
      split at h
      · cases h
      · rename_i M hM
        obtain ⟨r1, h1, h2⟩ := h
        split at h2
        · exact order_without hl (module_without (hl M (List.mem_of_find?_eq_some hM)) hw h1) h2
        all_goals cases h2

/-- **C76 (partial).** When a set of modules is resolved without error, a definition that names a type which no module
defines, in one of these places at any depth, is not among the results: no code is generated for it. -/
theorem C76_schema_partial (n : Nat) (ms : List Module) (R : Resolver) (h : ResolvesModules n {} ms (.ok R))
    (r : Text) (hr : ∀ M ∈ ms, ∀ ty, (r, ⟨.type ty, none⟩) ∉ M.definitions) (k : Text)
    (hk : ∀ M ∈ ms, ∀ d, (k, d) ∈ M.definitions → d.params = none ∧ ∃ ty, d.kind = .type ty ∧
      Uses (fun x => ∃ N ∈ ms, ∃ cls root add p, (x, ⟨.objectSet cls root add, p⟩) ∈ N.definitions) r ty) :
    get R.resolved k = none := by
  unfold ResolvesModules at h
  split at h
  · obtain ⟨order, _, ho⟩ := h
    refine (order_without (k := some k) (sets := fun x => ∃ N ∈ ms, ∃ cls root add p,
      (x, (⟨.objectSet cls root add, p⟩ : Definition)) ∈ N.definitions) (r := r) (fun M hM => ⟨hr M hM, fun x cls root add p hx =>
      ⟨M, hM, cls, root, add, p, hx⟩, fun x d hx hd => ?_⟩) ?_ ho).2.2 k rfl
    · cases hx; exact hk M hM d hd
    · exact ⟨fun ⟨t, ht⟩ => by (cases ht), fun x s hx => by (cases hx), fun x _ => rfl⟩
  · cases h

/-- A schema that is resolved without error although a definition names an unknown type, because that definition is on
a cycle: `Tree ::= SEQUENCE { left Tree, right Unknown }` and `Depth ::= BOOLEAN`. It is not among the results. -/
def unknownModule : Module := plainModule "M".toList []
  [("Tree".toList, .type (.mk (.sequence
      [.mk "left".toList (.mk (.reference "Tree".toList) none) false none,
       .mk "right".toList (.mk (.reference "Unknown".toList) none) false none] [] false) none)),
   ("Depth".toList, .type (.mk .boolean none))]

example : ∃ R, ResolvesModules 5 {} [unknownModule] (.ok R) ∧ get R.resolved "Tree".toList = none ∧
    (get R.resolved "Depth".toList).isSome := by
  refine ⟨_, ⟨["M".toList], ?_, _, ⟨["Unknown".toList, "Depth".toList], ?_, rfl⟩, rfl⟩, rfl, rfl⟩
  · exact .round (popped := ["M".toList]) (rest := []) (by decide) (by decide) (.done (by decide))
  · exact .round (popped := ["Unknown".toList, "Depth".toList]) (rest := []) (by decide) (by decide) (.done (by decide))

/-- **C76 is violated** beside components taken from a class: there, an unknown type makes no difference, and the
component is left out. -/
theorem C76_beside_class_fields_violated (n : Nat) (R : Resolver) (id cls field : Text) (cs : Option (List Constraint))
    (opt : Bool) (d : Option Text) (pre post : List SeqComponent) (adds : List SeqGroup) (ext : Bool)
    (cs' : Option (List Constraint)) (id' r : Text) (cs2 : Option (List Constraint)) (opt' : Bool) (d' : Option Text) :
    resolveType (n + 2) R (.mk (.sequence (.mk id (.mk (.classField cls field) cs) opt d :: (pre ++
      .mk id' (.mk (.reference r) cs2) opt' d' :: post)) adds ext) cs') =
    resolveType (n + 2) R (.mk (.sequence (.mk id (.mk (.classField cls field) cs) opt d :: (pre ++ post)) adds ext)
      cs') := by
  have hm : ∀ l, mapOut (resolveComponent (resolveType (n + 1) R))
      (.mk id (.mk (.classField cls field) cs) opt d :: l) = .err .resolve := by
    intro l
    rw [mapOut, resolveComponent, resolveType]
    rfl
  rw [resolveType, hm, resolveType, hm]
  dsimp only
  unfold resolveClassFields allComponents
  simp only [List.cons_append, List.map_cons, List.append_assoc, List.map_append]
  congr 1
  funext k
  congr 1
  funext set
  split
  · congr 1
    exact C77_ordinary_component_lost_violated set _ ((id, .mk (.classField cls field) cs) :: _) _ id' (.reference r)
      cs2 (fun _ _ h => by cases h)
  · rfl

end Hampi.Compiler.Props
