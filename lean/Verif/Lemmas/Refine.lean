import Verif.Lemmas.ResolveMono
import Verif.Lemmas.Resolve
import Verif.Compiler.Modules
/-!
# More steps for reading what is left to be read while resolving do not change what is resolved

Instances of parameterized types, objects and the objects of sets are parsed while modules are resolved.
-/
namespace Hampi.Compiler
open Out (Le)

/-- The second function is the first with more steps. -/
def ExpandLe (e e' : Expand) : Prop := ∀ ps, Le (e ps) (e' ps)

/-- The same with more steps for instances of parameterized types. -/
structure Resolver.Le (R R' : Resolver) : Prop where
  resolved : R.resolved = R'.resolved
  classes : R.classes = R'.classes
  params : All2 (fun a b => a.1 = b.1 ∧ ExpandLe a.2 b.2) R.params R'.params

@[inherit_doc Resolver.Le]
structure DefLe (d d' : Text × Definition) : Prop where
  name : d.1 = d'.1
  kind : d.2.kind = d'.2.kind
  params : (d.2.params = none ∧ d'.2.params = none) ∨
    ∃ e e', d.2.params = some e ∧ d'.2.params = some e' ∧ ExpandLe e e'

/-- The same with more steps for parameters and objects. -/
structure Module.Le (M M' : Module) : Prop where
  name : M.name = M'.name
  imports : M.imports = M'.imports
  definitions : All2 DefLe M.definitions M'.definitions
  readObject : ∀ s cf, Out.Le (M.readObject s cf) (M'.readObject s cf)
  readSet : ∀ s cf, Out.Le (M.readSet s cf) (M'.readSet s cf)

theorem Out.Le.ok {ε α : Type} {a b : Out ε α} {x : α} (h : Out.Le a b) (ha : a = .ok x) : b = .ok x := by
  rcases h with h | h
  · rw [h] at ha; cases ha
  · rw [← h]; exact ha

theorem get_all2 {α β : Type} {P : α → β → Prop} {l : List (Text × α)} {l' : List (Text × β)}
    (h : All2 (fun a b => a.1 = b.1 ∧ P a.2 b.2) l l') (x : Text) :
    (get l x = none ∧ get l' x = none) ∨ ∃ a b, get l x = some a ∧ get l' x = some b ∧ P a b := by
  induction h with
  | nil => exact .inl ⟨rfl, rfl⟩
  | @cons a b l l' h _ ih =>
    obtain ⟨k, a⟩ := a
    obtain ⟨k', b⟩ := b
    obtain ⟨rfl, hp⟩ := h
    by_cases hk : k = x
    · exact .inr ⟨a, b, by simp [get, List.find?, hk], by simp [get, List.find?, hk], hp⟩
    · have h1 : get ((k, a) :: l) x = get l x := by
        simp only [get, List.find?]
        rw [show (k == x) = false from by simpa using hk]
      have h2 : get ((k, b) :: l') x = get l' x := by
        simp only [get, List.find?]
        rw [show (k == x) = false from by simpa using hk]
      rw [h1, h2]
      exact ih

theorem put_all2 {α β : Type} {P : α → β → Prop} {l : List (Text × α)} {l' : List (Text × β)}
    (h : All2 (fun a b => a.1 = b.1 ∧ P a.2 b.2) l l') (x : Text) {a : α} {b : β} (hp : P a b) :
    All2 (fun a b => a.1 = b.1 ∧ P a.2 b.2) (put l x a) (put l' x b) := by
  induction h with
  | nil => exact .cons ⟨rfl, hp⟩ .nil
  | @cons c d _ _ h ht ih =>
    obtain ⟨k, c⟩ := c
    obtain ⟨k', d⟩ := d
    obtain ⟨rfl, hq⟩ := h
    simp only [put]
    split
    · exact .cons ⟨rfl, hp⟩ ht
    · split
      · exact .cons ⟨rfl, hp⟩ (.cons ⟨rfl, hq⟩ ht)
      · exact .cons ⟨rfl, hq⟩ ih

section
variable {R R' : Resolver} (h : R.Le R')
include h

theorem Resolver.Le.env : R.env = R'.env := by
  funext t
  simp only [Resolver.env, h.resolved]

theorem resolveClassFields_le (root : List SeqComponent) (adds : List SeqGroup) (ext : Bool) :
    resolveClassFields R root adds ext = resolveClassFields R' root adds ext := by
  unfold resolveClassFields
  rw [h.resolved]

theorem resolveType_le (n : Nat) : ∀ ty, Le (resolveType n R ty) (resolveType n R' ty) := by
  induction n with
  | zero => exact fun _ => .bot _
  | succ n ih =>
    have halt : ∀ c, Le (resolveAlternative (resolveType n R) c) (resolveAlternative (resolveType n R') c) := by
      rintro ⟨id, ty⟩
      exact .bind (ih ty) fun _ => .refl _
    have hcomp : ∀ c, Le (resolveComponent (resolveType n R) c) (resolveComponent (resolveType n R') c) := by
      rintro ⟨id, ty, opt, d⟩
      exact .bind (ih ty) fun _ => .refl _
    rintro ⟨kind, cs⟩
    cases kind with
    | parameterized t ps =>
      simp only [resolveType]
      rcases get_all2 h.params t with ⟨h1, h2⟩ | ⟨e, e', h1, h2, he⟩
      · rw [h1, h2]; exact .refl _
      · rw [h1, h2]
        exact .bind (he ps) ih
    | reference r =>
      simp only [resolveType, h.resolved]
      exact .refl _
    | choice root adds =>
      simp only [resolveType]
      refine .bind (mapOut_mono halt _) fun r => ?_
      cases adds with
      | none => exact .refl _
      | some gs => exact .bind (mapOut_mono halt _) fun _ => .refl _
    | sequence root adds ext =>
      simp only [resolveType]
      rw [resolveClassFields_le h]
      rcases mapOut_mono hcomp root with h | h
      · rw [h]; exact .bot _
      · rw [h]; exact .refl _
    | sequenceOf size ty =>
      simp only [resolveType, h.env]
      exact .bind (ih ty) fun _ => .refl _
    | _ => simp only [resolveType, h.env]; exact .refl _

theorem resolveValue_le (n : Nat) : ∀ v ty, resolveValue n R v ty = resolveValue n R' v ty := by
  induction n with
  | zero => exact fun _ _ => rfl
  | succ n ih =>
    intro v ty
    simp only [resolveValue, h.resolved, ih]

theorem resolveField_le (n : Nat) (f : ObjectField) : Le (resolveField n R f) (resolveField n R' f) := by
  match f with
  | .type none => exact .refl _
  | .type (some ty) => exact .bind (resolveType_le h n ty) fun _ => .refl _
  | .fixedTypeValue ty v =>
    refine .bind (resolveType_le h n ty) fun t => ?_
    have : resolveFieldValue n R t v = resolveFieldValue n R' t v := by
      cases v with
      | none => rfl
      | some v => simp only [resolveFieldValue, resolveValue_le h]
    rw [this]
    exact .refl _

theorem resolveObject_le (n : Nat) (v : ObjectValue) : Le (resolveObject n R v) (resolveObject n R' v) := by
  cases v with
  | input s => exact .refl _
  | fields fs =>
    exact .bind (mapOut_mono (fun p => .bind (resolveField_le h n p.2) fun _ => .refl _) fs) fun _ => .refl _

theorem addObject_le (u : Option Text) (s : RObjectSet) (o : RObject) : addObject R u s o = addObject R' u s o := by
  unfold addObject
  rw [h.resolved]

theorem addElement_le (n : Nat) (u : Option Text) (s : RObjectSet) (e : SetElement) :
    Le (addElement n R u s e) (addElement n R' u s e) := by
  cases e with
  | setRef r => simp only [addElement, h.resolved]; exact .refl _
  | objectRef r => simp only [addElement, h.resolved, addObject_le h]; exact .refl _
  | object v =>
    simp only [addElement, addObject_le h]
    exact .bind (resolveObject_le h n v) fun _ => .refl _

theorem addElements_le (n : Nat) (u : Option Text) (es : List SetElement) :
    ∀ s, Le (addElements n R u s es) (addElements n R' u s es) := by
  induction es with
  | nil => exact fun _ => .refl _
  | cons e es ih => exact fun s => .bind (addElement_le h n u s e) fun s' => ih s'

theorem resolveDefinition_le (n : Nat) (a : Assignment) :
    Le (resolveDefinition n R a) (resolveDefinition n R' a) := by
  cases a with
  | value ty v =>
    simp only [resolveDefinition, resolveValue_le h]
    exact .bind (resolveType_le h n ty) fun _ => .refl _
  | type ty => exact .bind (resolveType_le h n ty) fun _ => .refl _
  | objectSet cls root add =>
    refine .bind ?_ fun _ => .refl _
    unfold resolveObjectSet
    rw [h.classes]
    split
    · exact .refl _
    · exact addElements_le h n _ _ _
  | object cls v => exact .bind (resolveObject_le h n v) fun _ => .refl _
  | «class» fs => exact .refl _

end

theorem All2.swapKeys {l l' : List (Text × Definition)} (h : All2 DefLe l l') :
    All2 (fun a b => a.1 = b.1 ∧ DefLe ([], a.2) ([], b.2)) l l' := by
  induction h with
  | nil => exact .nil
  | cons h _ ih => exact .cons ⟨h.name, rfl, h.kind, h.params⟩ ih

theorem resolveOne_le {n : Nat} {defs defs' : List (Text × Definition)} (hd : All2 DefLe defs defs') {R R' R1 : Resolver}
    (h : R.Le R') {k : Text} (hr : resolveOne n defs R k = .ok R1) :
    ∃ R1', resolveOne n defs' R' k = .ok R1' ∧ R1.Le R1' := by
  unfold resolveOne at hr ⊢
  rcases get_all2 (P := fun a b => DefLe ([], a) ([], b)) hd.swapKeys k with ⟨h1, h2⟩ | ⟨d, d', h1, h2, he⟩
  · rw [h1] at hr
    rw [h2]
    cases hr
    exact ⟨R', rfl, h⟩
  · rw [h1] at hr
    rw [h2]
    dsimp only at hr ⊢
    have hk : d.kind = d'.kind := he.kind
    rcases he.params with ⟨h3, h4⟩ | ⟨e, e', h3, h4, he⟩
    · have h3 : d.params = none := h3
      have h4 : d'.params = none := h4
      rw [h3, hk] at hr
      rw [h4]
      dsimp only at hr ⊢
      split at hr
      · rename_i fs hfs
        cases hr
        exact ⟨_, rfl, h.resolved, by rw [h.classes], h.params⟩
      · rename_i x
        obtain ⟨y, hy, hr⟩ := Out.bind_ok.mp hr
        cases hr
        rw [(resolveDefinition_le h n d'.kind).ok hy]
        exact ⟨_, rfl, by simp only [h.resolved], h.classes, h.params⟩
    · have h3 : d.params = some e := h3
      have h4 : d'.params = some e' := h4
      rw [h3] at hr
      rw [h4]
      cases hr
      exact ⟨_, rfl, h.resolved, h.classes, put_all2 h.params k he⟩

theorem resolveInOrder_le {n : Nat} {defs defs' : List (Text × Definition)} (hd : All2 DefLe defs defs')
    {order : List Text} {R R' R1 : Resolver} (h : R.Le R') (hr : resolveInOrder n defs R order = .ok R1) :
    ∃ R1', resolveInOrder n defs' R' order = .ok R1' ∧ R1.Le R1' := by
  induction order generalizing R R' with
  | nil => cases hr; exact ⟨R', rfl, h⟩
  | cons k ks ih =>
    obtain ⟨R2, h2, hr⟩ := Out.bind_ok.mp hr
    obtain ⟨R2', h2', hle⟩ := resolveOne_le hd h h2
    obtain ⟨R1', h3, hle⟩ := ih hle hr
    exact ⟨R1', by rw [resolveInOrder, h2']; exact h3, hle⟩

theorem addClasses_le {R R' : Resolver} (h : R.Le R') {defs defs' : List (Text × Definition)}
    (hd : All2 DefLe defs defs') : (addClasses R defs).Le (addClasses R' defs') := by
  refine ⟨h.resolved, ?_, h.params⟩
  simp only [addClasses, h.classes]
  generalize R'.classes = m
  induction hd generalizing m with
  | nil => rfl
  | @cons a b _ _ h1 _ ih =>
    rw [List.foldl_cons, List.foldl_cons, h1.kind, h1.name]
    exact ih _

theorem readDefinition_le {R R' : Resolver} (h : R.Le R') {M M' : Module} (hm : M.Le M') {d d' e : Text × Definition}
    (hd : DefLe d d') (hr : readDefinition R M d = .ok e) :
    ∃ e', readDefinition R' M' d' = .ok e' ∧ DefLe e e' := by
  unfold readDefinition at hr ⊢
  rw [← h.classes, ← hd.kind]
  cases hk : d.2.kind with
  | object cls v =>
    rw [hk] at hr
    cases v with
    | input s =>
      dsimp only at hr ⊢
      cases hc : get R.classes cls with
      | none => rw [hc] at hr; cases hr
      | some fs =>
        rw [hc] at hr
        obtain ⟨v, hv, hr⟩ := Out.bind_ok.mp hr
        cases hr
        dsimp only
        rw [(hm.readObject s fs).ok hv]
        exact ⟨_, rfl, hd.name, rfl, hd.params⟩
    | fields fs =>
      dsimp only at hr ⊢
      split at hr
      · rename_i hc
        cases hr
        exact ⟨d', by rw [if_pos hc], hd⟩
      · cases hr
  | objectSet cls root add =>
    rw [hk] at hr
    dsimp only at hr ⊢
    cases hc : get R.classes cls with
    | none => rw [hc] at hr; cases hr
    | some fs =>
      rw [hc] at hr
      obtain ⟨v, hv, hr⟩ := Out.bind_ok.mp hr
      cases hr
      dsimp only
      rw [(hm.readSet (root, add) fs).ok hv]
      exact ⟨_, rfl, hd.name, rfl, hd.params⟩
  | type | value | «class» =>
    rw [hk] at hr
    cases hr
    exact ⟨d', rfl, hd⟩

theorem mapOut_read_le {R R' : Resolver} (h : R.Le R') {M M' : Module} (hm : M.Le M')
    {l l' r : List (Text × Definition)} (hd : All2 DefLe l l') (hr : mapOut (readDefinition R M) l = .ok r) :
    ∃ r', mapOut (readDefinition R' M') l' = .ok r' ∧ All2 DefLe r r' := by
  induction hd generalizing r with
  | nil => cases hr; exact ⟨[], rfl, .nil⟩
  | cons h1 _ ih =>
    obtain ⟨y, hy, hr⟩ := Out.bind_ok.mp hr
    obtain ⟨ys, hys, hr⟩ := Out.bind_ok.mp hr
    cases hr
    obtain ⟨y', h2, h3⟩ := readDefinition_le h hm h1 hy
    obtain ⟨ys', h4, h5⟩ := ih hys
    exact ⟨y' :: ys', by rw [mapOut, h2]; show Out.bind (mapOut _ _) _ = _; rw [h4]; rfl, .cons h3 h5⟩

theorem needsOf_le {imports : List (Text × Text)} {defs defs' : List (Text × Definition)} (h : All2 DefLe defs defs') :
    needsOf imports defs = needsOf imports defs' := by
  induction h with
  | nil => rfl
  | cons h _ ih =>
    simp only [needsOf, List.map_cons] at ih ⊢
    rw [ih, h.name, h.kind]

/-- What is resolved with more steps for reading is resolved with fewer, unless these are not enough. -/
def Refined (r r' : Out Err Resolver) : Prop := ∀ R, r = .ok R → ∃ R', r' = .ok R' ∧ R.Le R'

theorem resolvesModule_refined {n : Nat} {R R' : Resolver} (h : R.Le R') {M M' : Module} (hm : M.Le M')
    {r' : Out Err Resolver} (hr : ResolvesModule n R' M' r') : ∃ r, ResolvesModule n R M r ∧ Refined r r' := by
  have hc := addClasses_le h hm.definitions
  unfold ResolvesModule at hr ⊢
  cases hq : mapOut (readDefinition (addClasses R M.definitions) M) M.definitions with
  | ok defs =>
    obtain ⟨defs', h1, h2⟩ := mapOut_read_le hc hm hm.definitions hq
    rw [h1] at hr
    obtain ⟨order, ho, rfl⟩ := hr
    rw [← hm.imports, ← needsOf_le h2] at ho
    exact ⟨_, ⟨order, ho, rfl⟩, fun R1 hR => resolveInOrder_le h2 hc hR⟩
  | err e => exact ⟨_, rfl, nofun⟩
  | panic => exact ⟨_, rfl, nofun⟩
  | diverge => exact ⟨_, rfl, nofun⟩

theorem getModule_le {ms ms' : List Module} (h : All2 Module.Le ms ms') (k : Text) :
    (getModule ms k = none ∧ getModule ms' k = none) ∨
      ∃ M M', getModule ms k = some M ∧ getModule ms' k = some M' ∧ M.Le M' := by
  induction h with
  | nil => exact .inl ⟨rfl, rfl⟩
  | @cons M M' l l' h _ ih =>
    simp only [getModule, List.find?_cons, h.name] at ih ⊢
    cases hk : M'.name == k with
    | true => exact .inr ⟨M, M', rfl, rfl, h⟩
    | false => exact ih

theorem resolvesOrder_refined {n : Nat} {ms ms' : List Module} (hm : All2 Module.Le ms ms') {order : List Text}
    {R R' : Resolver} (h : R.Le R') {r' : Out Err Resolver} (hr : ResolvesOrder n ms' order R' r') :
    ∃ r, ResolvesOrder n ms order R r ∧ Refined r r' := by
  induction order generalizing R R' with
  | nil =>
    cases hr
    exact ⟨_, rfl, fun R1 h1 => by cases h1; exact ⟨R', rfl, h⟩⟩
  | cons k ks ih =>
    unfold ResolvesOrder at hr ⊢
    rcases getModule_le hm k with ⟨h1, h2⟩ | ⟨M, M', h1, h2, hM⟩
    · rw [h1]
      exact ⟨_, rfl, nofun⟩
    · rw [h2] at hr
      rw [h1]
      obtain ⟨r1', hr1, hr⟩ := hr
      obtain ⟨r1, h3, h4⟩ := resolvesModule_refined h hM hr1
      cases r1 with
      | ok R1 =>
        obtain ⟨R1', rfl, hle⟩ := h4 R1 rfl
        obtain ⟨r, h5, h6⟩ := ih hle hr
        exact ⟨r, ⟨_, h3, h5⟩, h6⟩
      | err e => exact ⟨_, ⟨_, h3, rfl⟩, nofun⟩
      | panic => exact ⟨_, ⟨_, h3, rfl⟩, nofun⟩
      | diverge => exact ⟨_, ⟨_, h3, rfl⟩, nofun⟩

theorem importsFound_le {ms ms' : List Module} (h : All2 Module.Le ms ms') : importsFound ms = importsFound ms' := by
  have hg : ∀ k, (getModule ms k).isSome = (getModule ms' k).isSome := by
    intro k
    rcases getModule_le h k with ⟨h1, h2⟩ | ⟨M, M', h1, h2, -⟩
    · rw [h1, h2]
    · rw [h1, h2]; rfl
  simp only [importsFound, hg]
  clear hg
  generalize hp : (fun i : Text × Text => (getModule ms' i.2).isSome) = p
  clear hp
  induction h with
  | nil => rfl
  | cons h _ ih => rw [List.all_cons, List.all_cons, ih, h.imports]

theorem moduleNeeds_le {ms ms' : List Module} (h : All2 Module.Le ms ms') : moduleNeeds ms = moduleNeeds ms' := by
  induction h with
  | nil => rfl
  | cons h _ ih =>
    simp only [moduleNeeds, List.map_cons] at ih ⊢
    rw [ih, h.name, h.imports]

theorem resolvesModules_refined {n : Nat} {ms ms' : List Module} (hm : All2 Module.Le ms ms') {R R' : Resolver}
    (h : R.Le R') {r' : Out Err Resolver} (hr : ResolvesModules n R' ms' r') :
    ∃ r, ResolvesModules n R ms r ∧ Refined r r' := by
  unfold ResolvesModules at hr ⊢
  rw [importsFound_le hm, moduleNeeds_le hm]
  split at hr
  · rename_i hi
    simp only [if_pos hi]
    obtain ⟨order, ho, hr⟩ := hr
    obtain ⟨r, h1, h2⟩ := resolvesOrder_refined hm h hr
    exact ⟨r, ⟨order, ho, h1⟩, h2⟩
  · rename_i hi
    simp only [if_neg hi]
    exact ⟨_, rfl, nofun⟩

/-! ## The functions of a parsed module -/

theorem parseType_le {n m : Nat} (h : n ≤ m) (ts : List Token) : Le (parseType n ts) (parseType m ts) := by
  induction h with
  | refl => exact .refl _
  | step _ ih =>
    rcases ih with ih | ih
    · exact .inl ih
    · rw [ih]; exact (monoAt _).type ts

theorem applyParams_le {n m : Nat} (h : n ≤ m) (names : List Text) (tokens : List Token) :
    ExpandLe (applyParams n names tokens) (applyParams m names tokens) := by
  intro ps
  unfold applyParams
  split
  · exact .refl _
  · exact .bind (parseType_le h _) fun _ => .refl _

theorem objectLoop_le {n m : Nat} (h : n ≤ m) (cls : List (Text × ClassField)) (tokens : List Token)
    (groups : List (List Token)) : ∀ c fields,
    Le (objectLoop n cls tokens groups c fields) (objectLoop m cls tokens groups c fields) := by
  induction groups with
  | nil => exact fun _ _ => .refl _
  | cons words groups ih =>
    intro c fields
    unfold objectLoop
    split
    · exact ih _ _
    · rename_i spec _
      split
      · exact .refl _
      · refine .bind ?_ fun v => .ite (.refl _) (ih _ _)
        cases spec.2 with
        | type => exact .bind (parseType_le h _) fun _ => .refl _
        | fixedTypeValue => exact .refl _

theorem parseObject_le {n m : Nat} (h : n ≤ m) (u : Unicode) (s : Text) (cls : List (Text × ClassField)) :
    Le (parseObject u n s cls) (parseObject u m s cls) := by
  unfold parseObject
  split
  · exact .refl _
  · exact .refl _
  · exact .refl _
  · exact .ite (.refl _) (.bind (objectLoop_le h _ _ _ _ _) fun _ => .refl _)

theorem parseObjectsOfSet_le {n m : Nat} (h : n ≤ m) (u : Unicode) (s : List SetElement × List SetElement)
    (cls : List (Text × ClassField)) : Le (parseObjectsOfSet u n s cls) (parseObjectsOfSet u m s cls) := by
  have he : ∀ e, Le (parseElementOfClass u n cls e) (parseElementOfClass u m cls e) := by
    intro e
    unfold parseElementOfClass
    split
    · exact .bind (parseObject_le h u _ _) fun _ => .refl _
    · exact .refl _
  exact .bind (mapOut_mono he _) fun _ => .bind (mapOut_mono he _) fun _ => .refl _

theorem toModule_le {n m : Nat} (h : n ≤ m) (u : Unicode) (p : ParsedModule) : (p.toModule u n).Le (p.toModule u m) where
  name := rfl
  imports := rfl
  definitions := by
    simp only [ParsedModule.toModule]
    induction p.definitions with
    | nil => exact .nil
    | cons d ds ih =>
      refine .cons ⟨rfl, rfl, ?_⟩ ih
      obtain ⟨x, id, k, ps⟩ := d
      cases ps with
      | none => exact .inl ⟨rfl, rfl⟩
      | some q => exact .inr ⟨_, _, rfl, rfl, applyParams_le h _ _⟩
  readObject := parseObject_le h u
  readSet := parseObjectsOfSet_le h u

end Hampi.Compiler
