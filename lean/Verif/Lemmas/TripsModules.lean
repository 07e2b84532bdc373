import Verif.Lemmas.TripsTypes
import Verif.Props.Order
/-! # When resolving modules and generating do not panic -/
namespace Hampi.Compiler
open Hampi.Compiler.Spec

/-! ## Values and objects -/

theorem resolveValue_calmly {n : Nat} {ms : List Module} (hq : ¬ Trips n ms) {R : Resolver} (hs : Steady n ms R) {v : Text}
    (hv : ValueIn ms v) : (m : Nat) → (ty : RType) → Calmly (fun x => ∀ i, x = RValue.integer i → ¬ Huge i) (resolveValue m R v ty)
  | 0, _ => by rw [resolveValue]; exact .div
  | m + 1, ty => by
    unfold resolveValue
    cases hg : get R.resolved v with
    | some x =>
      cases x with
      | value _ => exact .ok fun _ => nofun
      | _ => exact .err _
    | none =>
      cases ty with
      | base b =>
        cases b with
        | integer =>
          dsimp only
          split
          · rename_i i hi
            exact .ok fun j e => by cases e; exact fun h => hq (.value hv hi h)
          · rename_i hn
            exact absurd (.unknown hv hs.met hg hn) hq
        | enumerated => exact .ok fun _ => nofun
        | _ => exact .err _
      | reference r =>
        dsimp only
        split
        · exact .bind (resolveValue_calmly hq hs hv m _) fun _ _ _ => .ok fun _ => nofun
        · exact .err _
      | _ => exact .err _

theorem resolveObject_calmly {n : Nat} {ms : List Module} (hq : ¬ Trips n ms) {R : Resolver} (hs : Steady n ms R)
    {o : ObjectValue} (ho : ObjectIn ms o) (hty : ∀ ty, FieldType ty o → Appears ms ty) (m : Nat) :
    Calmly RObject.Solid (resolveObject m R o) := by
  cases o with
  | input s => rw [resolveObject]; exact .err _
  | fields fs =>
    rw [resolveObject]
    refine .bind (P := fun l => ∀ y ∈ l, ∀ t v, y.2 = RField.fixedTypeValue t v → t.Solid) (.mapOut fun p hp => ?_)
      fun l _ hl => .ok fun f t v h => hl _ (get_mem h) t v rfl
    obtain ⟨x, f⟩ := p
    refine .bind (P := fun f => ∀ t v, f = RField.fixedTypeValue t v → t.Solid) ?_ fun y _ hy => .ok fun t v e => hy t v e
    match f, hp with
    | .type none, _ => rw [resolveField]; exact .ok fun _ _ => nofun
    | .type (some ty), hp =>
      rw [resolveField]
      exact .bind (resolveType_calmly hq hs m ty (hty ty (.type hp))) fun _ _ _ => .ok fun _ _ => nofun
    | .fixedTypeValue ty v, hp =>
      rw [resolveField]
      refine .bind (resolveType_calmly hq hs m ty (hty ty (.value hp))) fun t _ ht => .bind (P := fun _ => True) ?_ fun y _ _ =>
        .ok fun _ _ e => by cases e; exact ht
      cases v with
      | none => exact .ok trivial
      | some v => exact .bind (resolveValue_calmly hq hs (.field ho hp) m t) fun _ _ _ => .ok trivial

theorem addObject_calmly {R : Resolver} {unique : Option Text} {s : RObjectSet} {o : RObject}
    (hk : ∀ u, unique = some u → ¬ Keyless R o u) (hs : ∀ x ∈ s.elements, x.Solid) (ho : o.Solid) :
    Calmly (fun s' => ∀ x ∈ s'.elements, x.Solid) (addObject R unique s o) := by
  have hs' : ∀ x ∈ s.elements ++ [o], x.Solid := by
    intro x hx
    rcases List.mem_append.mp hx with h | h
    · exact hs x h
    · cases List.mem_singleton.mp h; exact ho
  unfold addObject
  dsimp only
  cases unique with
  | none => exact .ok hs'
  | some u =>
    have hk := hk u rfl
    dsimp only
    split
    · rename_i h; exact absurd (.inl h) hk
    · exact .ok hs'
    · rename_i t h; exact absurd (.inr (.inl ⟨t, h⟩)) hk
    · rename_i t x h
      split
      · rename_i v hv
        split
        · exact .ok hs'
        · rename_i hn
          refine absurd (.inr (.inr ⟨t, x, h, fun w i hw e => ?_⟩)) hk
          rw [hv] at hw
          cases hw
          rw [hn] at e
          cases e
      · exact .ok hs'
      · rename_i hn
        refine absurd (.inr (.inr ⟨t, x, h, fun w i hw e => ?_⟩)) hk
        rw [hn] at hw
        cases hw
    · exact .ok hs'

theorem addElements_calmly {n : Nat} {ms : List Module} (hq : ¬ Trips n ms) {R : Resolver} (hs : Steady n ms R)
    {unique : Option Text} (hk : ∀ u, unique = some u → ∀ o, HasObject ms R o → ¬ Keyless R o u) (m : Nat) :
    {es : List SetElement} → (∀ o, SetElement.object o ∈ es → ObjectIn ms o ∧ ∀ ty, FieldType ty o → Appears ms ty) →
    {s : RObjectSet} → (∀ x ∈ s.elements, x.Solid) →
    Calmly (fun s' => ∀ x ∈ s'.elements, x.Solid) (addElements m R unique s es)
  | [], _, s, h => by rw [addElements]; exact .ok h
  | e :: es, hes, s, h => by
    rw [addElements]
    refine .bind (P := fun s' => ∀ x ∈ s'.elements, x.Solid) ?_ fun s' _ h' =>
      addElements_calmly hq hs hk m (fun o ho => hes o (List.mem_cons_of_mem _ ho)) h'
    cases e with
    | setRef r =>
      rw [addElement]
      split
      · rename_i o ho
        refine .ok fun x hx => ?_
        rcases List.mem_append.mp hx with hx | hx
        · exact h x hx
        · exact hs.solid _ _ ho x hx
      · exact .err _
    | objectRef r =>
      rw [addElement]
      split
      · rename_i o ho
        exact addObject_calmly (fun u hu => hk u hu o (.inl ⟨r, ho⟩)) h (hs.solid _ _ ho)
      · exact .err _
    | object v =>
      rw [addElement]
      obtain ⟨h1, h2⟩ := hes v List.mem_cons_self
      exact .bind (resolveObject_calmly hq hs h1 h2 m) fun o he ho =>
        addObject_calmly (fun u hu => hk u hu o (.inr ⟨m, v, h1, he⟩)) h ho

theorem firstUnique_mem {fs : List (Text × ClassField)} {u : Text} (h : firstUnique fs = some u) :
    ∃ id ty opt df w, (u, ClassField.fixedTypeValue id ty true opt df w) ∈ fs := by
  unfold firstUnique at h
  obtain ⟨p, hp, e⟩ := Option.map_eq_some_iff.mp h
  have hm := List.mem_of_find?_eq_some hp
  have hb := List.find?_some hp
  obtain ⟨k, f⟩ := p
  cases f with
  | type => cases hb
  | fixedTypeValue id ty uq opt df w =>
    have hb : uq = true := hb
    have e : k = u := e
    subst hb e
    exact ⟨id, ty, opt, df, w, hm⟩

/-! ## Definitions -/

/-- The objects of a definition. -/
inductive ObjectOf (o : ObjectValue) : Assignment → Prop
  | object {cls} : ObjectOf o (.object cls o)
  | set {cls root add} : SetElement.object o ∈ root ++ add → ObjectOf o (.objectSet cls root add)

theorem readings_objectIn {ms : List Module} {M : Module} (hM : M ∈ ms) {k : Text} {d : Definition}
    (hd : (k, d) ∈ M.definitions) (hp : d.params = none) {a : Assignment} (ha : a ∈ readings ms M d) {o : ObjectValue}
    (ho : ObjectOf o a) : ObjectIn ms o := by
  obtain ⟨kind, params⟩ := d
  cases hp
  unfold readings at ha
  dsimp only at ha
  split at ha
  · rename_i cls s
    obtain ⟨fs, hfs, he⟩ := List.mem_filterMap.mp ha
    split at he
    · rename_i o' ho'
      cases he
      cases ho with
      | object => exact .object hM hd (mem_classesOf.mp hfs) ho'
    · cases he
  · rename_i cls root add
    obtain ⟨fs, hfs, he⟩ := List.mem_filterMap.mp ha
    split at he
    · rename_i r hr
      cases he
      cases ho with
      | set hm => exact .set hM hd (mem_classesOf.mp hfs) hr hm
    · cases he
  · rename_i h1 h2
    cases List.mem_singleton.mp ha
    cases ho with
    | object => exact .fields hM hd
    | set hm => exact absurd rfl (h2 _ _ _)

theorem readings_value {ms : List Module} {M : Module} {d : Definition} {ty : AsnType} {v : Text}
    (ha : .value ty v ∈ readings ms M d) : d.kind = .value ty v := by
  unfold readings at ha
  split at ha
  · obtain ⟨_, _, he⟩ := List.mem_filterMap.mp ha
    split at he <;> cases he
  · obtain ⟨_, _, he⟩ := List.mem_filterMap.mp ha
    split at he <;> cases he
  · exact (List.mem_singleton.mp ha).symm

theorem readings_set {ms : List Module} {M : Module} {d : Definition} {cls : Text} {root add : List SetElement}
    (ha : .objectSet cls root add ∈ readings ms M d) : ∃ r a, d.kind = .objectSet cls r a := by
  unfold readings at ha
  split at ha
  · obtain ⟨_, _, he⟩ := List.mem_filterMap.mp ha
    split at he <;> cases he
  · rename_i c r a hk
    obtain ⟨_, _, he⟩ := List.mem_filterMap.mp ha
    split at he
    · cases he; exact ⟨r, a, hk⟩
    · cases he
  · exact ⟨root, add, (List.mem_singleton.mp ha).symm⟩

theorem resolveDefinition_calmly {n : Nat} {ms : List Module} (hq : ¬ Trips n ms) {R : Resolver} (hs : Steady n ms R)
    {M : Module} (hM : M ∈ ms) {k : Text} {d : Definition} (hd : (k, d) ∈ M.definitions) (hp : d.params = none)
    {a : Assignment} (ha : a ∈ readings ms M d) (m : Nat) : Calmly RDef.Solid (resolveDefinition m R a) := by
  have hty : ∀ ty, TypeOf ty a → Appears ms ty := fun ty h => .written (readings_typeIn hM hd hp ha h)
  cases a with
  | value ty v =>
    rw [resolveDefinition]
    have hk := readings_value ha
    have hv : ValueIn ms v := by
      obtain ⟨kind, params⟩ := d
      cases hp
      cases hk
      exact .value hM hd
    exact .bind (resolveType_calmly hq hs m ty (hty ty .value)) fun t _ _ =>
      .bind (resolveValue_calmly hq hs hv m t) fun x _ hx => .ok hx
  | type ty =>
    rw [resolveDefinition]
    exact .bind (resolveType_calmly hq hs m ty (hty ty .type)) fun t _ ht => .ok ht
  | «class» fs => rw [resolveDefinition]; exact .err _
  | objectSet cls root add =>
    rw [resolveDefinition]
    refine .bind (P := fun s' : RObjectSet => ∀ x ∈ s'.elements, x.Solid) ?_ fun s _ h => .ok h
    unfold resolveObjectSet
    split
    · exact .err _
    · rename_i fs hfs
      obtain ⟨r, ad, hk⟩ := readings_set ha
      refine addElements_calmly hq hs (fun u hu o ho hkl => ?_) m (fun o ho => ⟨readings_objectIn hM hd hp ha (.set ho),
        fun ty h => hty ty (.set ho h)⟩) (fun _ => nofun)
      obtain ⟨id, ty, opt, df, w, hmem⟩ := firstUnique_mem hu
      exact hq (.keyless hM hd hk (hs.classes _ _ hfs) hmem hs.met ho hkl)
  | object cls o =>
    rw [resolveDefinition]
    exact .bind (resolveObject_calmly hq hs (readings_objectIn hM hd hp ha .object) (fun ty h => hty ty (.object h)) m)
      fun o _ ho => .ok ho

/-! ## Modules -/

theorem of_mem_put {α : Type} {m : List (Text × α)} {k : Text} {v : α} {p : Text × α} (h : p ∈ put m k v) :
    p = (k, v) ∨ p ∈ m := by
  induction m with
  | nil => exact .inl (List.mem_singleton.mp h)
  | cons q m ih =>
    obtain ⟨k', v'⟩ := q
    unfold put at h
    split at h
    · rcases List.mem_cons.mp h with e | e
      · exact .inl e
      · exact .inr (List.mem_cons_of_mem _ e)
    · split at h
      · rcases List.mem_cons.mp h with e | e
        · exact .inl e
        · exact .inr e
      · rcases List.mem_cons.mp h with e | e
        · exact .inr (List.mem_cons.mpr (.inl e))
        · rcases ih e with e | e
          · exact .inl e
          · exact .inr (List.mem_cons_of_mem _ e)

theorem readDefinition_calmly {n : Nat} {ms : List Module} (hq : ¬ Trips n ms) {M : Module} (hM : M ∈ ms) {R : Resolver}
    (hc : ClassesOf ms R) {d : Text × Definition} (hd : d ∈ M.definitions) :
    Calmly (fun _ => True) (readDefinition R M d) := by
  obtain ⟨k, kind, params⟩ := d
  unfold readDefinition
  dsimp only
  split
  · split
    · exact .err _
    · rename_i fs hfs
      exact .bind (P := fun _ => True) ⟨fun h => hq (.object hM hd (hc _ _ hfs) h), fun _ _ => trivial⟩ fun _ _ _ => .ok trivial
  · split
    · exact .ok trivial
    · exact .err _
  · split
    · exact .err _
    · rename_i fs hfs
      exact .bind (P := fun _ => True) ⟨fun h => hq (.set hM hd (hc _ _ hfs) h), fun _ _ => trivial⟩ fun _ _ _ => .ok trivial
  · exact .ok trivial

theorem resolveInOrder_calmly {n : Nat} {ms : List Module} (hq : ¬ Trips n ms) {M : Module} (hM : M ∈ ms) {R0 : Resolver}
    (hc : ClassesOf ms R0) {defs : List (Text × Definition)} (hdefs : mapOut (readDefinition R0 M) M.definitions = .ok defs) :
    {order : List Text} → {R : Resolver} → Steady n ms R → Calmly (Steady n ms) (resolveInOrder n defs R order)
  | [], R, h => by rw [resolveInOrder]; exact .ok h
  | k :: ks, R, h => by
    have hall := mapOut_ok hdefs
    have hdef : ∀ j d, (j, d) ∈ defs → ∃ d0, (j, d0) ∈ M.definitions ∧ d0.params = d.params ∧
        d.kind ∈ readings ms M d0 := by
      intro j d hjd
      obtain ⟨x, hx, hxy⟩ := hall.mem_right _ hjd
      have h1 := readDefinition_key hxy
      have h3 := readDefinition_readings hc hxy
      obtain ⟨kx, dx⟩ := x
      obtain ⟨e1, e2⟩ := h1
      dsimp only at e1 e2
      subst e1
      exact ⟨dx, hx, e2.symm, h3⟩
    have solid : Calmly (fun R' : Resolver => ∀ p ∈ R'.resolved, p.2.Solid) (resolveOne n defs R k) := by
      unfold resolveOne
      split
      · exact .ok h.all
      · rename_i d hd
        split
        · exact .ok h.all
        · rename_i hp
          split
          · exact .ok h.all
          · obtain ⟨d0, h0, hp0, hread⟩ := hdef k d (get_mem hd)
            refine .bind (resolveDefinition_calmly hq h hM h0 (hp0.trans hp) hread n) fun x _ hx => .ok ?_
            intro p hpm
            rcases of_mem_put hpm with e | e
            · rw [e]; exact hx
            · exact h.all p e
    rw [resolveInOrder]
    refine .bind solid fun R1 hR1 hsol => resolveInOrder_calmly hq hM hc hdefs ?_
    have hnames : Among (R.resolved.map (·.1) ++ defs.map (·.1)) R :=
      fun j x hj => List.mem_append.mpr (.inl (List.mem_map.mpr ⟨_, get_mem hj, rfl⟩))
    obtain ⟨h1, h2, _⟩ := resolveOne_sound hR1 h.params h.classes hnames
      (fun j d hj => List.mem_append.mpr (.inr (List.mem_map.mpr ⟨_, hj, rfl⟩)))
      (fun j d e hj he => by
        obtain ⟨d0, h0, hpar, _⟩ := hdef j d hj
        exact ⟨M, hM, d0, h0, hpar.trans he⟩)
      (fun j d fs hj hk => by
        obtain ⟨d0, h0, _, hread⟩ := hdef j d hj
        refine ⟨M, hM, j, d0, h0, ?_⟩
        rw [hk] at hread
        unfold readings at hread
        split at hread
        · obtain ⟨_, _, he⟩ := List.mem_filterMap.mp hread
          split at he <;> cases he
        · obtain ⟨_, _, he⟩ := List.mem_filterMap.mp hread
          split at he <;> cases he
        · exact (List.mem_singleton.mp hread).symm)
    exact ⟨.definition h.met hM hdefs hR1, h1, h2, hsol⟩

theorem resolvesOrder_calmly {n : Nat} {ms : List Module} (hq : ¬ Trips n ms) : {order : List Text} → {R : Resolver} →
    {r : Out Err Resolver} → ResolvesOrder n ms order R r → (∀ k ∈ order, ∃ M, getModule ms k = some M) → Steady n ms R →
    Calmly (Steady n ms) r
  | [], R, r, h, _, hs => by cases h; exact .ok hs
  | k :: ks, R, r, h, hk, hs => by
    rw [ResolvesOrder] at h
    split at h
    · rename_i hn
      obtain ⟨M, hM⟩ := hk k List.mem_cons_self
      rw [hn] at hM
      cases hM
    · rename_i M hM
      obtain ⟨r1, h1, h2⟩ := h
      have hmem : M ∈ ms := List.mem_of_find?_eq_some hM
      have hcl := addClasses_classesOf hs.classes hmem
      have hs0 : Steady n ms (addClasses R M.definitions) := ⟨.classes hs.met hmem, hs.params, hcl, hs.all⟩
      have hr1 : Calmly (Steady n ms) r1 := by
        unfold ResolvesModule at h1
        split at h1
        · rename_i defs hdefs
          obtain ⟨o, _, rfl⟩ := h1
          exact resolveInOrder_calmly hq hmem hcl hdefs hs0
        · cases h1; exact .err _
        · rename_i hp
          exact absurd hp (Calmly.mapOut fun d hd => readDefinition_calmly hq hmem hcl hd).1
        · cases h1; exact .div
      split at h2
      · rename_i R1
        exact resolvesOrder_calmly hq h2 (fun j hj => hk j (List.mem_cons_of_mem _ hj)) (hr1.2 R1 rfl)
      · cases h2; exact .err _
      · exact absurd rfl hr1.1
      · cases h2; exact .div

theorem resolvesModules_calmly {n : Nat} {ms : List Module} (hq : ¬ Trips n ms) {r : Out Err Resolver}
    (h : ResolvesModules n {} ms r) : Calmly (Steady n ms) r := by
  unfold ResolvesModules at h
  split at h
  · rename_i hi
    obtain ⟨order, ho, h⟩ := h
    exact resolvesOrder_calmly hq h (Props.C63_module_order ms hi order ho).2.1
      ⟨.start, fun _ _ h => (by cases h), fun _ _ h => (by cases h), fun _ h => (by cases h)⟩
  · cases h; exact .err _

/-! ## Generating -/

theorem genBase_quiet (sp : Spelling) (name : Text) {b : RBase} (h : b.Solid) : Calmly (fun _ => True) (genBase sp name b) := by
  refine .bind (P := fun _ => True) ?_ fun _ _ _ => .ok trivial
  unfold RBase.attrs
  split
  · exact .ok trivial
  · split
    · exact absurd rfl h
    · exact .ok trivial
  all_goals exact .ok trivial

theorem withIdent_quiet (sp : Spelling) {ty : RType} (h : ty.Solid) (input : Text) {gen : Text → Gen → Out Err (Item × Gen)}
    (hg : ∀ nm g, Calmly (fun _ => True) (gen nm g)) (g : Gen) : Calmly (fun _ => True) (withIdent sp ty input gen g) := by
  unfold withIdent
  split
  · exact .ok trivial
  · rw [RType.Solid] at h
    exact .bind (genBase_quiet sp _ h) fun _ _ _ => .ok trivial
  · exact .bind (hg _ _) fun _ _ _ => .ok trivial

mutual

theorem genItem_quiet (sp : Spelling) (name : Text) : (ty : RType) → ty.Solid → (g : Gen) →
    Calmly (fun _ => True) (genItem sp name ty g)
  | .base b, h, g => by
    rw [genItem]
    rw [RType.Solid] at h
    exact .bind (genBase_quiet sp _ h) fun _ _ _ => .ok trivial
  | .reference r, _, g => by rw [genItem]; exact .ok trivial
  | .set _ types, _, g => by rw [genItem]; exact .ok trivial
  | .sequenceOf ty size, h, g => by
    rw [genItem]
    rw [RType.Solid] at h
    exact .bind (withIdent_quiet sp h _ (fun nm g => genItem_quiet sp nm ty h g) g) fun _ _ _ => .ok trivial
  | .sequence ext cs, h, g => by
    rw [genItem]
    rw [RType.Solid] at h
    exact .bind (genFields_quiet sp name 0 cs h g) fun _ _ _ => .ok trivial
  | .choice root none, h, g => by
    rw [genItem]
    rw [RType.Solid] at h
    refine .bind (genVariants_quiet sp name false 0 root h.2 g) fun p _ hp => ?_
    have hp : p.1.length = root.length := hp
    rw [if_neg (by rw [hp]; exact fun e => h.1 (List.length_eq_zero_iff.mp e))]
    exact .ok trivial
  | .choice root (some adds), h, g => by
    rw [genItem]
    rw [RType.Solid] at h
    refine .bind (genVariants_quiet sp name false 0 root h.2.1 g) fun p _ hp =>
      .bind (genVariants_quiet sp name true 0 adds h.2.2 p.2) fun q _ _ => ?_
    have hp : p.1.length = root.length := hp
    rw [if_neg (by rw [hp]; exact fun e => h.1 (List.length_eq_zero_iff.mp e))]
    exact .ok trivial

theorem genFields_quiet (sp : Spelling) (name : Text) : (n : Nat) → (cs : List RSeqComponent) → solidComponents cs → (g : Gen) →
    Calmly (fun _ => True) (genFields sp name n cs g)
  | n, [], _, g => by rw [genFields]; exact .ok trivial
  | n, .mk id ty optional keyField :: cs, h, g => by
    rw [genFields]
    rw [solidComponents] at h
    exact .bind (withIdent_quiet sp h.1 _ (fun nm g => genItem_quiet sp nm ty h.1 g) g) fun p _ _ =>
      .bind (genFields_quiet sp name _ cs h.2 p.2) fun _ _ _ => .ok trivial

theorem genVariants_quiet (sp : Spelling) (name : Text) (extended : Bool) : (i : Nat) → (cs : List RComponent) →
    solidAlternatives cs → (g : Gen) → Calmly (fun p => p.1.length = cs.length) (genVariants sp name extended i cs g)
  | i, [], _, g => by rw [genVariants]; exact .ok rfl
  | i, .mk id ty :: cs, h, g => by
    rw [genVariants]
    rw [solidAlternatives] at h
    exact .bind (withIdent_quiet sp h.1 _ (fun nm g => genItem_quiet sp nm ty h.1 g) g) fun p _ _ =>
      .bind (genVariants_quiet sp name extended (i + 1) cs h.2 p.2) fun q _ hq => .ok (by
        have hq : q.1.length = cs.length := hq
        simp [hq])

end

theorem generate_quiet {n : Nat} {ms : List Module} {R : Resolver} (hs : Steady n ms R) (sp : Spelling) : Quiet (generate sp R) := by
  have hall : ∀ (l : List (Text × RType)) (g : Gen), (∀ p ∈ l, p.2.Solid) → Calmly (fun _ => True) (genAll sp l g) := by
    intro l
    induction l with
    | nil => exact fun g _ => by rw [genAll]; exact .ok trivial
    | cons p l ih =>
      intro g h
      obtain ⟨k, t⟩ := p
      rw [genAll]
      exact .bind (genItem_quiet sp k t (h _ List.mem_cons_self) g) fun p _ _ =>
        .bind (ih p.2 fun q hq => h q (List.mem_cons_of_mem _ hq)) fun _ _ _ => .ok trivial
  unfold generate
  refine (Calmly.bind (Q := fun _ => True) (hall _ _ ?_) fun p _ _ => .ok trivial).1
  rintro ⟨k, t⟩ hp
  unfold resolvedTypes at hp
  obtain ⟨⟨k', x⟩, hx, he⟩ := List.mem_filterMap.mp hp
  cases x with
  | type t' =>
    cases he
    exact hs.all _ hx
  | _ => cases he

end Hampi.Compiler
