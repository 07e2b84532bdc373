import Verif.Lemmas.IdentsModules
/-! # The names in what is resolved -/
namespace Hampi.Compiler
open Hampi.Compiler.Spec

theorem namedAlternatives_of {l : List RComponent} (h : ∀ c ∈ l, ∀ id ty, c = .mk id ty → Name id ∧ ty.Named) :
    namedAlternatives l := by
  induction l with
  | nil => rw [namedAlternatives]; trivial
  | cons c l ih =>
    obtain ⟨id, ty⟩ := c
    rw [namedAlternatives]
    exact ⟨h _ List.mem_cons_self id ty rfl, ih fun c hc => h c (List.mem_cons_of_mem _ hc)⟩

theorem namedComponents_of {l : List RSeqComponent} (h : ∀ c ∈ l, ∀ id ty o k, c = .mk id ty o k → Name id ∧ ty.Named) :
    namedComponents l := by
  induction l with
  | nil => rw [namedComponents]; trivial
  | cons c l ih =>
    obtain ⟨id, ty, o, k⟩ := c
    rw [namedComponents]
    exact ⟨h _ List.mem_cons_self id ty o k rfl, ih fun c hc => h c (List.mem_cons_of_mem _ hc)⟩

theorem resolveBase_named {env : Text → Option Int} {kind : Kind} {cs : Option (List Constraint)} (hs : ShallowKind kind)
    {b : RBase} (h : resolveBase env (.mk kind cs) = .ok b) : b.Named := by
  unfold resolveBase at h
  split at h
  · unfold resolveInteger at h
    split at h
    · cases h; trivial
    · cases h; trivial
    · obtain ⟨w, _, h⟩ := Out.bind_ok.mp h
      unfold integerOfValueset at h
      obtain ⟨w, _, h⟩ := Out.bind_ok.mp h
      cases h
      trivial
  · rename_i root m ext cs e
    cases e
    unfold resolveEnumerated at h
    obtain ⟨r, _, h⟩ := Out.bind_ok.mp h
    obtain ⟨x, _, h⟩ := Out.bind_ok.mp h
    cases h
    intro p hp
    split at hp
    · cases hp
    · unfold numbered at hp
      obtain ⟨q, hq, rfl⟩ := List.mem_map.mp hp
      exact hs q.1 (List.fst_mem_of_mem_zipIdx hq)
  all_goals
    first
      | (cases h; trivial; done)
      | (cases h; done)
      | (obtain ⟨_, _, h⟩ := Out.bind_ok.mp h
         first
           | (cases h; trivial; done)
           | (obtain ⟨_, _, h⟩ := Out.bind_ok.mp h
              cases h; trivial))

/-! ## The resolver -/

/-- The types of the fields of the object. -/
def RObject.Named (o : RObject) : Prop :=
  (∀ f t v, get o.fields f = some (.fixedTypeValue t v) → t.Named) ∧ ∀ f t, get o.fields f = some (.type (some t)) → t.Named

/-- The objects of the set, and the names of their keys. -/
structure RObjectSet.Named (s : RObjectSet) : Prop where
  elements : ∀ o ∈ s.elements, o.Named
  table : ∀ e ∈ s.table, Name e.1.2 ∧ e.2.Named

/-- The names in what is resolved. -/
def RDef.Named : RDef → Prop
  | .type ty => ty.Named
  | .value _ => True
  | .objectSet s => s.Named
  | .object o => o.Named

/-- What holds of the resolver at all times. -/
structure WellNamed (ms : List Module) (R : Resolver) : Prop where
  params : ParamsOf ms R
  classes : ClassesOf ms R
  all : ∀ p ∈ R.resolved, Name p.1 ∧ p.2.Named

theorem of_mem_putType {m : List (Text × Text × Text)} {e p : Text × Text × Text} (h : p ∈ putType m e) : p = e ∨ p ∈ m := by
  induction m with
  | nil => exact .inl (List.mem_singleton.mp h)
  | cons q m ih =>
    unfold putType at h
    split at h
    · rcases List.mem_cons.mp h with e | e
      · exact .inl e
      · exact .inr (List.mem_cons_of_mem _ e)
    · split at h
      · rcases List.mem_cons.mp h with e | e
        · exact .inl e
        · exact .inr e
      · rcases List.mem_cons.mp h with e | e
        · exact .inr (List.mem_cons.mpr (.inl e))
        · rcases ih e with e | e
          · exact .inl e
          · exact .inr (List.mem_cons_of_mem _ e)

theorem setTypes_named {field : Text} {s : RObjectSet} (hs : s.Named) : ∀ e ∈ setTypes field s, Name e.1 ∧ Name e.2.2 := by
  unfold setTypes
  have ht := hs.table
  generalize s.table = l at ht
  have : ∀ (m : List (Text × Text × Text)), (∀ e ∈ m, Name e.1 ∧ Name e.2.2) →
      ∀ e ∈ l.foldl (fun m (e : (Text × Text) × RObject) =>
        match get e.2.fields field with
        | some (.type (some (.reference t))) => putType m (e.1.2, e.1.1, t)
        | _ => m) m, Name e.1 ∧ Name e.2.2 := by
    induction l with
    | nil => exact fun m h => h
    | cons x l ih =>
      intro m h
      refine ih (fun e he => ht e (List.mem_cons_of_mem _ he)) _ ?_
      dsimp only
      split
      · rename_i t hg
        intro e he
        rcases of_mem_putType he with rfl | he
        · have := (ht x List.mem_cons_self)
          have h2 := this.2.2 _ _ hg
          rw [RType.Named] at h2
          exact ⟨this.1, h2⟩
        · exact h e he
      · exact h
  exact this [] nofun

theorem resolveClassFields_named {ms : List Module} {R : Resolver} (hs : WellNamed ms R) {root : List SeqComponent}
    {adds : List SeqGroup} {ext : Bool} (hn : ∀ x ∈ allComponents root adds, Name x.1) {t : RType}
    (h : resolveClassFields R root adds ext = .ok t) : t.Named := by
  unfold resolveClassFields at h
  split at h
  · cases h
  · rename_i c cs hc
    obtain ⟨k, _, h⟩ := Out.bind_ok.mp h
    obtain ⟨sr, _, h⟩ := Out.bind_ok.mp h
    split at h
    · rename_i s hset
      have hsn : s.Named := (hs.all _ (get_mem hset)).2
      obtain ⟨l, hl, h⟩ := Out.bind_ok.mp h
      cases h
      rw [RType.Named]
      unfold objectComponents at hl
      split at hl
      · cases hl; rw [namedComponents]; trivial
      · rename_i first rest hel
        have hfirst : first.Named := hsn.elements first (by rw [hel]; exact List.mem_cons_self)
        obtain ⟨l', hl', hl⟩ := Out.bind_ok.mp hl
        cases hl
        refine namedComponents_of fun y hy id ty o k e => ?_
        obtain ⟨y', hy', e'⟩ := List.mem_filterMap.mp hy
        obtain ⟨⟨xid, xty⟩, hx, hxy⟩ := (mapOut_ok hl').mem_right _ hy'
        have hname : Name xid := hn _ (by rw [hc]; exact hx)
        subst e
        dsimp only at hxy
        have e' : y' = _ := e'
        subst e'
        unfold objectComponent at hxy
        split at hxy
        · split at hxy
          · rename_i t v ht
            obtain ⟨c, _, hxy⟩ := Out.bind_ok.mp hxy
            cases hxy
            exact ⟨hname, hfirst.1 _ _ _ ht⟩
          · cases hxy
            exact ⟨hname, by rw [RType.Named]; exact setTypes_named hsn⟩
        · cases hxy
    · cases h

theorem resolveType_named {ms : List Module} {R : Resolver} (hs : WellNamed ms R) (hdeep : ∀ ty, Appears ms ty → Deep ty) :
    (m : Nat) → (ty : AsnType) → Appears ms ty → {t : RType} → resolveType m R ty = .ok t → t.Named
  | 0, _, _, _, h => by rw [resolveType] at h; cases h
  | m + 1, .mk kind cs, ha, t, h => by
    have ih := resolveType_named hs hdeep m
    have hsh : ShallowKind kind := (hdeep _ ha).shallow
    cases kind with
    | reference r =>
      rw [resolveType] at h
      split at h
      · rename_i hg
        cases h
        rw [RType.Named]
        exact (hs.all _ (get_mem hg)).1
      · cases h
    | parameterized x ps =>
      rw [resolveType] at h
      split at h
      · rename_i e he
        obtain ⟨M, hM, d, hd, hp⟩ := hs.params _ _ he
        obtain ⟨ty, hty, h⟩ := Out.bind_ok.mp h
        exact ih ty (.expansion ha hM hd hp hty) h
      · cases h
    | classField => rw [resolveType] at h; cases h
    | set => rw [resolveType] at h; cases h
    | setOf => rw [resolveType] at h; cases h
    | choice root adds =>
      have halt : ∀ (l : List Component) r, (∀ id p, Component.mk id p ∈ l → Name id ∧ Appears ms p) →
          mapOut (resolveAlternative (resolveType m R)) l = .ok r → namedAlternatives r := by
        intro l r hl hr
        refine namedAlternatives_of fun c hc id ty e => ?_
        obtain ⟨⟨xid, xty⟩, hx, hxy⟩ := (mapOut_ok hr).mem_right _ hc
        rw [resolveAlternative] at hxy
        obtain ⟨t, ht, hxy⟩ := Out.bind_ok.mp hxy
        cases hxy
        cases e
        exact ⟨(hl _ _ hx).1, ih _ (hl _ _ hx).2 ht⟩
      rw [resolveType] at h
      obtain ⟨r, hr, h⟩ := Out.bind_ok.mp h
      have h1 := halt root r (fun id p hm => ⟨hsh id p (List.mem_append_left _ hm), .part ha (.alternative hm)⟩) hr
      cases adds with
      | none => cases h; rw [RType.Named]; exact h1
      | some gs =>
        obtain ⟨a, hadd, h⟩ := Out.bind_ok.mp h
        cases h
        rw [RType.Named]
        refine ⟨h1, halt _ a (fun id p hm => ⟨hsh id p (List.mem_append_right _ hm), ?_⟩) hadd⟩
        obtain ⟨⟨v, alts⟩, hg, hc⟩ := List.mem_flatMap.mp hm
        exact .part ha (.addition hg hc)
    | sequence root adds ext =>
      rw [resolveType] at h
      split at h
      · rename_i l hl
        cases h
        rw [RType.Named]
        refine namedComponents_of fun c hc id ty o k e => ?_
        obtain ⟨⟨xid, xty, xo, xd⟩, hx, hxy⟩ := (mapOut_ok hl).mem_right _ hc
        rw [resolveComponent] at hxy
        obtain ⟨t, ht, hxy⟩ := Out.bind_ok.mp hxy
        have h0 : Name xid := hsh (xid, xty) (List.mem_map.mpr ⟨_, List.mem_append_left _ hx, rfl⟩)
        cases hxy
        cases e
        exact ⟨h0, ih _ (.part ha (.component hx)) ht⟩
      · exact resolveClassFields_named hs hsh h
      · cases h
      · cases h
    | sequenceOf size ty =>
      rw [resolveType] at h
      obtain ⟨t', ht, h⟩ := Out.bind_ok.mp h
      have := ih ty (.part ha .element) ht
      cases size with
      | none => cases h; rw [RType.Named]; exact this
      | some c =>
        obtain ⟨v, _, h⟩ := Out.bind_ok.mp h
        cases h
        rw [RType.Named]
        exact this
    | _ =>
      rw [resolveType] at h
      · obtain ⟨b, hb, h⟩ := Out.bind_ok.mp h
        cases h
        rw [RType.Named]
        exact resolveBase_named hsh hb
      all_goals nofun

theorem resolveObject_named {ms : List Module} {R : Resolver} (hs : WellNamed ms R) (hdeep : ∀ ty, Appears ms ty → Deep ty)
    {n : Nat} {v : ObjectValue} (hty : ∀ ty, FieldType ty v → Appears ms ty) {o : RObject}
    (h : resolveObject n R v = .ok o) : o.Named := by
  cases v with
  | input => cases h
  | fields fs =>
    rw [resolveObject] at h
    obtain ⟨l, hl, h⟩ := Out.bind_ok.mp h
    cases h
    have key : ∀ p ∈ l, (∀ t v, p.2 = RField.fixedTypeValue t v → t.Named) ∧ ∀ t, p.2 = RField.type (some t) → t.Named := by
      intro p hp
      obtain ⟨⟨x, f⟩, hx, hxy⟩ := (mapOut_ok hl).mem_right _ hp
      obtain ⟨f', hf', hxy⟩ := Out.bind_ok.mp hxy
      cases hxy
      match f, hx, hf' with
      | .type none, _, hf' => rw [resolveField] at hf'; cases hf'; exact ⟨nofun, nofun⟩
      | .type (some ty), hx, hf' =>
        rw [resolveField] at hf'
        obtain ⟨t, ht, hf'⟩ := Out.bind_ok.mp hf'
        cases hf'
        refine ⟨nofun, fun t' e => ?_⟩
        cases e
        exact resolveType_named hs hdeep n ty (hty ty (.type hx)) ht
      | .fixedTypeValue ty v, hx, hf' =>
        rw [resolveField] at hf'
        obtain ⟨t, ht, hf'⟩ := Out.bind_ok.mp hf'
        obtain ⟨_, _, hf'⟩ := Out.bind_ok.mp hf'
        cases hf'
        refine ⟨fun t' v' e => ?_, nofun⟩
        cases e
        exact resolveType_named hs hdeep n ty (hty ty (.value hx)) ht
    exact ⟨fun f t v h => (key _ (get_mem h)).1 t v rfl, fun f t h => (key _ (get_mem h)).2 t rfl⟩

theorem tablePut_named {t : List ((Text × Text) × RObject)} (h : ∀ e ∈ t, Name e.1.2 ∧ e.2.Named) {k : Text × Text}
    {o : RObject} (hk : Name k.2) (ho : o.Named) : ∀ e ∈ tablePut t k o, Name e.1.2 ∧ e.2.Named := by
  intro e he
  rcases List.mem_cons.mp he with rfl | he
  · exact ⟨hk, ho⟩
  · exact h e (List.mem_filter.mp he).1

theorem addObject_named {ms : List Module} {R : Resolver} (hs : WellNamed ms R) {unique : Option Text} {s s' : RObjectSet}
    {o : RObject} (h : s.Named) (ho : o.Named) (he : addObject R unique s o = .ok s') : s'.Named := by
  have hel : ∀ x ∈ s.elements ++ [o], x.Named := by
    intro x hx
    rcases List.mem_append.mp hx with hx | hx
    · exact h.elements x hx
    · cases List.mem_singleton.mp hx; exact ho
  have base : RObjectSet.Named { s with elements := s.elements ++ [o] } := ⟨hel, h.table⟩
  unfold addObject at he
  dsimp only at he
  split at he
  · cases he; exact base
  · split at he
    · cases he
    · cases he; exact base
    · cases he
    · split at he
      · rename_i hg
        split at he
        · cases he
          exact ⟨hel, tablePut_named h.table (hs.all _ (get_mem hg)).1 ho⟩
        · cases he
      · cases he; exact base
      · cases he
    · cases he; exact base

theorem addElements_named {ms : List Module} {R : Resolver} (hs : WellNamed ms R) (hdeep : ∀ ty, Appears ms ty → Deep ty)
    {n : Nat} {unique : Option Text} : {es : List SetElement} →
    (∀ o, SetElement.object o ∈ es → ∀ ty, FieldType ty o → Appears ms ty) → {s s' : RObjectSet} → s.Named →
    addElements n R unique s es = .ok s' → s'.Named
  | [], _, s, s', h, e => by rw [addElements] at e; cases e; exact h
  | x :: es, hes, s, s', h, e => by
    rw [addElements] at e
    obtain ⟨s1, h1, e⟩ := Out.bind_ok.mp e
    refine addElements_named hs hdeep (fun o ho => hes o (List.mem_cons_of_mem _ ho)) ?_ e
    cases x with
    | setRef r =>
      rw [addElement] at h1
      split at h1
      · rename_i o ho
        cases h1
        have hn : o.Named := (hs.all _ (get_mem ho)).2
        refine ⟨fun x hx => ?_, ?_⟩
        · rcases List.mem_append.mp hx with hx | hx
          · exact h.elements x hx
          · exact hn.elements x hx
        · have ht := hn.table
          show ∀ e ∈ o.table.foldr (fun e t => tablePut t e.1 e.2) s.table, _
          generalize o.table = l at ht
          induction l with
          | nil => exact h.table
          | cons y l ih =>
            exact tablePut_named (ih fun e he => ht e (List.mem_cons_of_mem _ he)) (ht y List.mem_cons_self).1
              (ht y List.mem_cons_self).2
      · cases h1
    | objectRef r =>
      rw [addElement] at h1
      split at h1
      · rename_i o ho
        exact addObject_named hs h (hs.all _ (get_mem ho)).2 h1
      · cases h1
    | object v =>
      rw [addElement] at h1
      obtain ⟨o, ho, h1⟩ := Out.bind_ok.mp h1
      exact addObject_named hs h (resolveObject_named hs hdeep (hes v List.mem_cons_self) ho) h1

theorem resolveDefinition_named {ms : List Module} {R : Resolver} (hs : WellNamed ms R)
    (hdeep : ∀ ty, Appears ms ty → Deep ty) {n : Nat} {a : Assignment} (hty : ∀ ty, TypeOf ty a → Appears ms ty) {d : RDef}
    (h : resolveDefinition n R a = .ok d) : d.Named := by
  cases a with
  | value ty v =>
    rw [resolveDefinition] at h
    obtain ⟨_, _, h⟩ := Out.bind_ok.mp h
    obtain ⟨_, _, h⟩ := Out.bind_ok.mp h
    cases h
    trivial
  | type ty =>
    rw [resolveDefinition] at h
    obtain ⟨t, ht, h⟩ := Out.bind_ok.mp h
    cases h
    exact resolveType_named hs hdeep n ty (hty ty .type) ht
  | «class» fs => rw [resolveDefinition] at h; cases h
  | objectSet cls root add =>
    rw [resolveDefinition] at h
    obtain ⟨s, hset, h⟩ := Out.bind_ok.mp h
    cases h
    unfold resolveObjectSet at hset
    split at hset
    · cases hset
    · exact addElements_named hs hdeep (fun o ho ty hf => hty ty (.set ho hf)) (s := ⟨[], []⟩) ⟨nofun, nofun⟩ hset
  | object cls o =>
    rw [resolveDefinition] at h
    obtain ⟨s, hset, h⟩ := Out.bind_ok.mp h
    cases h
    exact resolveObject_named hs hdeep (fun ty hf => hty ty (.object hf)) hset

theorem resolveInOrder_named {n : Nat} {ms : List Module} (hdeep : ∀ ty, Appears ms ty → Deep ty) {M : Module} (hM : M ∈ ms)
    (hn : ∀ k d, (k, d) ∈ M.definitions → Name k) {R0 : Resolver}
    (hc : ClassesOf ms R0) {defs : List (Text × Definition)} (hdefs : mapOut (readDefinition R0 M) M.definitions = .ok defs) :
    {order : List Text} → {R R' : Resolver} → WellNamed ms R → resolveInOrder n defs R order = .ok R' → WellNamed ms R'
  | [], R, R', h, e => by rw [resolveInOrder] at e; cases e; exact h
  | k :: ks, R, R', h, e => by
    have hall := mapOut_ok hdefs
    have hdef : ∀ j d, (j, d) ∈ defs → ∃ d0, (j, d0) ∈ M.definitions ∧ d0.params = d.params ∧
        d.kind ∈ readings ms M d0 := by
      intro j d hjd
      obtain ⟨x, hx, hxy⟩ := hall.mem_right _ hjd
      have h1 := readDefinition_key hxy
      have h3 := readDefinition_readings hc hxy
      obtain ⟨kx, dx⟩ := x
      obtain ⟨e1, e2⟩ := h1
      dsimp only at e1 e2
      subst e1
      exact ⟨dx, hx, e2.symm, h3⟩
    rw [resolveInOrder] at e
    obtain ⟨R1, hR1, e⟩ := Out.bind_ok.mp e
    have hsol : ∀ p ∈ R1.resolved, Name p.1 ∧ p.2.Named := by
      have hR1 := hR1
      unfold resolveOne at hR1
      split at hR1
      · cases hR1; exact h.all
      · rename_i d hd
        obtain ⟨d0, h0, hp0, hread⟩ := hdef k d (get_mem hd)
        split at hR1
        · cases hR1; exact h.all
        · rename_i hp
          split at hR1
          · cases hR1; exact h.all
          · obtain ⟨x, hx, hR1⟩ := Out.bind_ok.mp hR1
            cases hR1
            intro p hpm
            rcases of_mem_put hpm with e | e
            · rw [e]
              exact ⟨hn k d0 h0, resolveDefinition_named h hdeep
                (fun ty ht => .written (readings_typeIn hM h0 (hp0.trans hp) hread ht)) hx⟩
            · exact h.all p e
    refine resolveInOrder_named hdeep hM hn hc hdefs ?_ e
    have hnames : Among (R.resolved.map (·.1) ++ defs.map (·.1)) R :=
      fun j x hj => List.mem_append.mpr (.inl (List.mem_map.mpr ⟨_, get_mem hj, rfl⟩))
    obtain ⟨h1, h2, _⟩ := resolveOne_sound hR1 h.params h.classes hnames
      (fun j d hj => List.mem_append.mpr (.inr (List.mem_map.mpr ⟨_, hj, rfl⟩)))
      (fun j d e hj he => by
        obtain ⟨d0, h0, hpar, _⟩ := hdef j d hj
        exact ⟨M, hM, d0, h0, hpar.trans he⟩)
      (fun j d fs hj hk => by
        obtain ⟨d0, h0, _, hread⟩ := hdef j d hj
        refine ⟨M, hM, j, d0, h0, ?_⟩
        rw [hk] at hread
        unfold readings at hread
        split at hread
        · obtain ⟨_, _, he⟩ := List.mem_filterMap.mp hread
          split at he <;> cases he
        · obtain ⟨_, _, he⟩ := List.mem_filterMap.mp hread
          split at he <;> cases he
        · exact (List.mem_singleton.mp hread).symm)
    exact ⟨h1, h2, hsol⟩

theorem resolvesOrder_named {n : Nat} {ms : List Module} (hdeep : ∀ ty, Appears ms ty → Deep ty)
    (hn : ∀ M ∈ ms, ∀ k d, (k, d) ∈ M.definitions → Name k) : {order : List Text} → {R : Resolver} →
    {R' : Resolver} → ResolvesOrder n ms order R (.ok R') → WellNamed ms R → WellNamed ms R'
  | [], R, _, h, hs => by cases h; exact hs
  | k :: ks, R, R', h, hs => by
    rw [ResolvesOrder] at h
    split at h
    · cases h
    · rename_i M hM
      obtain ⟨r1, h1, h2⟩ := h
      have hmem : M ∈ ms := List.mem_of_find?_eq_some hM
      have hcl := addClasses_classesOf hs.classes hmem
      have hs0 : WellNamed ms (addClasses R M.definitions) := ⟨hs.params, hcl, hs.all⟩
      split at h2
      · rename_i R1
        refine resolvesOrder_named hdeep hn h2 ?_
        unfold ResolvesModule at h1
        split at h1
        · rename_i defs hdefs
          obtain ⟨o, _, h1⟩ := h1
          exact resolveInOrder_named hdeep hmem (hn M hmem) hcl hdefs hs0 h1.symm
        · cases h1
        · cases h1
        · cases h1
      · cases h2
      · cases h2
      · cases h2

theorem resolvesModules_named {n : Nat} {ms : List Module} (hdeep : ∀ ty, Appears ms ty → Deep ty)
    (hn : ∀ M ∈ ms, ∀ k d, (k, d) ∈ M.definitions → Name k) {R : Resolver} (h : ResolvesModules n {} ms (.ok R)) :
    ∀ p ∈ R.resolved, Name p.1 ∧ p.2.Named := by
  unfold ResolvesModules at h
  split at h
  · obtain ⟨order, _, h⟩ := h
    exact (resolvesOrder_named hdeep hn h ⟨fun _ _ h => (by cases h), fun _ _ h => (by cases h), fun _ h => (by cases h)⟩).all
  · cases h

end Hampi.Compiler
