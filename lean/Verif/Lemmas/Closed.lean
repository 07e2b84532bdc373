import Verif.Spec.Resolved
import Verif.Lemmas.Resolve
/-! # What the resolver produces refers to resolved types only -/
namespace Hampi.Compiler
open Spec

theorem mem_rcomponentsNames {r : Text} : {cs : List RComponent} →
    r ∈ rcomponentsNames cs → ∃ id ty, RComponent.mk id ty ∈ cs ∧ r ∈ ty.names
  | [], h => by simp [rcomponentsNames] at h
  | .mk id ty :: cs, h => by
      rw [rcomponentsNames, List.mem_append] at h
      rcases h with h | h
      · exact ⟨id, ty, .head _, h⟩
      · obtain ⟨id', ty', hm, hr⟩ := mem_rcomponentsNames h
        exact ⟨id', ty', .tail _ hm, hr⟩

theorem mem_rseqNames {r : Text} : {cs : List RSeqComponent} →
    r ∈ rseqNames cs → ∃ id ty o k, RSeqComponent.mk id ty o k ∈ cs ∧ r ∈ ty.names
  | [], h => by simp [rseqNames] at h
  | .mk id ty o k :: cs, h => by
      rw [rseqNames, List.mem_append] at h
      rcases h with h | h
      · exact ⟨id, ty, o, k, .head _, h⟩
      · obtain ⟨id', ty', o', k', hm, hr⟩ := mem_rseqNames h
        exact ⟨id', ty', o', k', .tail _ hm, hr⟩

theorem mem_putType {m : List (Text × Text × Text)} {e x : Text × Text × Text} (h : x ∈ putType m e) :
    x ∈ m ∨ x = e := by
  induction m with
  | nil => simp [putType] at h; exact .inr h
  | cons f m ih =>
    rw [putType] at h
    split at h
    · rcases List.mem_cons.mp h with h | h
      · exact .inr h
      · exact .inl (.tail _ h)
    · split at h
      · rcases List.mem_cons.mp h with h | h
        · exact .inr h
        · exact .inl h
      · rcases List.mem_cons.mp h with h | h
        · exact .inl (h ▸ .head _)
        · rcases ih h with h | h
          · exact .inl (.tail _ h)
          · exact .inr h

theorem mem_setTypes {field : Text} {s : RObjectSet} {x : Text × Text × Text} (h : x ∈ setTypes field s) :
    ∃ o, ((x.2.1, x.1), o) ∈ s.table ∧ get o.fields field = some (.type (some (.reference x.2.2))) := by
  unfold setTypes at h
  have key : ∀ (l : List ((Text × Text) × RObject)) (m : List (Text × Text × Text)),
      x ∈ l.foldl (fun m (e : (Text × Text) × RObject) =>
        match get e.2.fields field with
        | some (.type (some (.reference t))) => putType m (e.1.2, e.1.1, t)
        | _ => m) m → x ∈ m ∨ ∃ o, ((x.2.1, x.1), o) ∈ l ∧
          get o.fields field = some (.type (some (.reference x.2.2))) := by
    intro l
    induction l with
    | nil => intro m h; exact .inl h
    | cons e l ih =>
      intro m h
      rw [List.foldl_cons] at h
      rcases ih _ h with h | ⟨o, ho, hg⟩
      · split at h
        · rename_i t ht
          rcases mem_putType h with h | h
          · exact .inl h
          · subst h
            exact .inr ⟨e.2, by simp, ht⟩
        · exact .inl h
      · exact .inr ⟨o, .tail _ ho, hg⟩
  rcases key _ _ h with h | h
  · cases h
  · exact h

theorem mem_objectNames {o : RObject} {k : Text} {f : RField} (h : get o.fields k = some f) {r : Text}
    (hr : r ∈ f.names) : r ∈ o.names :=
  List.mem_flatMap.mpr ⟨_, get_mem h, hr⟩

theorem mem_setNames_table {s : RObjectSet} {k : Text × Text} {o : RObject} (h : (k, o) ∈ s.table) {r : Text}
    (hr : r ∈ o.names) : r ∈ s.names :=
  List.mem_append.mpr (.inr (List.mem_flatMap.mpr ⟨_, h, hr⟩))

theorem mem_setNames_elements {s : RObjectSet} {o : RObject} (h : o ∈ s.elements) {r : Text}
    (hr : r ∈ o.names) : r ∈ s.names :=
  List.mem_append.mpr (.inl (List.mem_flatMap.mpr ⟨_, h, hr⟩))

/-- The components made from an object set name only types the set names. -/
theorem objectComponents_names {setref : Text} {s : RObjectSet} {cs : List (Text × AsnType)}
    {l : List RSeqComponent} (h : objectComponents setref s cs = .ok l) :
    ∀ r ∈ rseqNames l, r ∈ s.names := by
  unfold objectComponents at h
  split at h
  · cases h; intro r hr; simp [rseqNames] at hr
  · rename_i first rest hel
    rw [Out.bind_ok] at h
    obtain ⟨l', hl', h⟩ := h
    cases h
    intro r hr
    obtain ⟨id, ty, o, k, hm, hr⟩ := mem_rseqNames hr
    rw [List.mem_filterMap] at hm
    obtain ⟨y, hy, hm⟩ := hm
    simp only [_root_.id] at hm
    subst hm
    obtain ⟨c, _, hc⟩ := (mapOut_ok hl').mem_right _ hy
    unfold objectComponent at hc
    split at hc
    · split at hc
      · rename_i t v hg
        rw [Out.bind_ok] at hc
        obtain ⟨_, _, hc⟩ := hc
        cases hc
        exact mem_setNames_elements (hel ▸ .head _) (mem_objectNames hg hr)
      · cases hc
        rw [RType.names, List.mem_map] at hr
        obtain ⟨e, he, rfl⟩ := hr
        obtain ⟨ob, hob, hg⟩ := mem_setTypes he
        exact mem_setNames_table hob (mem_objectNames hg (by simp [RField.names, RType.names]))
    · cases hc

theorem resolveType_names {R : Resolver} (hC : Closed R) : (n : Nat) → (ty : AsnType) → {t : RType} →
    resolveType n R ty = .ok t → ∀ r ∈ t.names, IsType R r
  | 0, _, _, h => by cases h
  | n + 1, .mk kind cs, t, h => by
    have ih := resolveType_names hC n
    have hbase : ((resolveBase R.env (.mk kind cs)).bind fun b => Out.ok (RType.base b)) = .ok t →
        ∀ r ∈ t.names, IsType R r := by
      intro h
      rw [Out.bind_ok] at h
      obtain ⟨b, _, h⟩ := h
      cases h
      intro r hr; simp [RType.names] at hr
    have hcomp : ∀ {cs : List Component} {rs : List RComponent},
        mapOut (resolveAlternative (resolveType n R)) cs = .ok rs →
        ∀ r ∈ rcomponentsNames rs, IsType R r := by
      intro cs rs h r hr
      obtain ⟨id, ty, hm, hr⟩ := mem_rcomponentsNames hr
      obtain ⟨c, _, hc⟩ := (mapOut_ok h).mem_right _ hm
      obtain ⟨cid, cty⟩ := c
      rw [resolveAlternative, Out.bind_ok] at hc
      obtain ⟨t, ht, hc⟩ := hc
      cases hc
      exact ih _ ht r hr
    unfold resolveType at h
    split at h <;> try exact hbase h
    · split at h
      · rename_i r t' hg
        cases h
        intro r' hr'
        rw [RType.names, List.mem_singleton] at hr'
        subst hr'
        exact ⟨_, hg⟩
      · cases h
    · split at h
      · rw [Out.bind_ok] at h
        obtain ⟨ty', _, h⟩ := h
        exact ih _ h
      · cases h
    · rw [Out.bind_ok] at h
      obtain ⟨rs, hrs, h⟩ := h
      split at h
      · cases h
        intro r hr
        exact hcomp hrs r hr
      · rw [Out.bind_ok] at h
        obtain ⟨as, has, h⟩ := h
        cases h
        intro r hr
        rw [RType.names, List.mem_append] at hr
        rcases hr with hr | hr
        · exact hcomp hrs r hr
        · exact hcomp has r hr
    · split at h
      · rename_i rs hrs
        cases h
        intro r hr
        obtain ⟨id, ty, o, k, hm, hr⟩ := mem_rseqNames hr
        obtain ⟨c, _, hc⟩ := (mapOut_ok hrs).mem_right _ hm
        obtain ⟨cid, cty, co, cd⟩ := c
        rw [resolveComponent, Out.bind_ok] at hc
        obtain ⟨t, ht, hc⟩ := hc
        cases hc
        exact ih _ ht r hr
      · unfold resolveClassFields at h
        split at h
        · cases h
        · rw [Out.bind_ok] at h
          obtain ⟨c0, _, h⟩ := h
          rw [Out.bind_ok] at h
          obtain ⟨sr, _, h⟩ := h
          split at h
          · rename_i s hs
            rw [Out.bind_ok] at h
            obtain ⟨l, hl, h⟩ := h
            cases h
            intro r hr
            exact hC _ _ hs r (objectComponents_names hl r hr)
          · cases h
      · cases h
      · cases h
    · rw [Out.bind_ok] at h
      obtain ⟨t', ht', h⟩ := h
      split at h
      · cases h; intro r hr; rw [RType.names] at hr; exact ih _ ht' r hr
      · rw [Out.bind_ok] at h
        obtain ⟨v, _, h⟩ := h
        cases h; intro r hr; rw [RType.names] at hr; exact ih _ ht' r hr

theorem resolveObject_names {n : Nat} {R : Resolver} (hC : Closed R) {v : ObjectValue} {o : RObject}
    (h : resolveObject n R v = .ok o) : ∀ r ∈ o.names, IsType R r := by
  cases v with
  | input => cases h
  | fields fs =>
    rw [resolveObject, Out.bind_ok] at h
    obtain ⟨l, hl, h⟩ := h
    cases h
    intro r hr
    obtain ⟨f, hf, hr⟩ := List.mem_flatMap.mp hr
    obtain ⟨p, _, hp⟩ := (mapOut_ok hl).mem_right _ hf
    rw [Out.bind_ok] at hp
    obtain ⟨f', hf', hp⟩ := hp
    cases hp
    unfold resolveField at hf'
    split at hf'
    · cases hf'; simp [RField.names] at hr
    · rw [Out.bind_ok] at hf'
      obtain ⟨t, ht, h⟩ := hf'
      cases h
      exact resolveType_names hC n _ ht r hr
    · rw [Out.bind_ok] at hf'
      obtain ⟨t, ht, h⟩ := hf'
      rw [Out.bind_ok] at h
      obtain ⟨x, _, h⟩ := h
      cases h
      exact resolveType_names hC n _ ht r hr

theorem setNames_iff {s : RObjectSet} {r : Text} :
    r ∈ s.names ↔ (∃ o ∈ s.elements, r ∈ o.names) ∨ ∃ e ∈ s.table, r ∈ e.2.names := by
  simp [RObjectSet.names]

theorem mem_tablePut {t : List ((Text × Text) × RObject)} {k : Text × Text} {o : RObject}
    {e : (Text × Text) × RObject} (h : e ∈ tablePut t k o) : e ∈ t ∨ e = (k, o) := by
  unfold tablePut at h
  rcases List.mem_cons.mp h with h | h
  · exact .inr h
  · exact .inl (List.mem_filter.mp h).1

theorem addObject_names {R : Resolver} {unique : Option Text} {s s' : RObjectSet} {o : RObject}
    (h : addObject R unique s o = .ok s') {r : Text} (hr : r ∈ s'.names) : r ∈ s.names ∨ r ∈ o.names := by
  have h1 : ∀ {t : List ((Text × Text) × RObject)}, (∀ e ∈ t, e ∈ s.table ∨ e.2 = o) →
      r ∈ (⟨s.elements ++ [o], t⟩ : RObjectSet).names → r ∈ s.names ∨ r ∈ o.names := by
    intro t ht hr
    rw [setNames_iff] at hr
    rcases hr with ⟨x, hx, hr⟩ | ⟨e, he, hr⟩
    · rcases List.mem_append.mp hx with hx | hx
      · exact .inl (mem_setNames_elements hx hr)
      · rw [List.mem_singleton] at hx
        exact .inr (hx ▸ hr)
    · rcases ht e he with he | he
      · exact .inl (mem_setNames_table (k := e.1) he hr)
      · exact .inr (he ▸ hr)
  have h2 := h1 (t := s.table) fun e he => .inl he
  unfold addObject at h
  dsimp only at h
  split at h
  · cases h; exact h2 hr
  · split at h
    · cases h
    · cases h; exact h2 hr
    · cases h
    · split at h
      · split at h
        · cases h
          refine h1 (fun e he => ?_) hr
          rcases mem_tablePut he with he | he
          · exact .inl he
          · exact .inr (by rw [he])
        · cases h
      · cases h; exact h2 hr
      · cases h
    · cases h; exact h2 hr

theorem addElement_names {n : Nat} {R : Resolver} (hC : Closed R) {unique : Option Text} {s s' : RObjectSet}
    {e : SetElement} (h : addElement n R unique s e = .ok s') (hs : ∀ r ∈ s.names, IsType R r) :
    ∀ r ∈ s'.names, IsType R r := by
  unfold addElement at h
  split at h
  · split at h
    · rename_i o ho
      cases h
      intro r hr
      have htab : ∀ (l : List ((Text × Text) × RObject)) (e : (Text × Text) × RObject),
          e ∈ l.foldr (fun e t => tablePut t e.1 e.2) s.table → e ∈ s.table ∨ e ∈ l := by
        intro l
        induction l with
        | nil => intro e he; exact .inl he
        | cons x l ih =>
          intro e he
          rcases mem_tablePut he with he | he
          · rcases ih e he with he | he
            · exact .inl he
            · exact .inr (.tail _ he)
          · exact .inr (he ▸ .head _)
      rw [setNames_iff] at hr
      rcases hr with ⟨x, hx, hr⟩ | ⟨e, he, hr⟩
      · rcases List.mem_append.mp hx with hx | hx
        · exact hs _ (mem_setNames_elements hx hr)
        · exact hC _ _ ho _ (mem_setNames_elements hx hr)
      · rcases htab _ _ he with he | he
        · exact hs _ (mem_setNames_table (k := e.1) he hr)
        · exact hC _ _ ho _ (mem_setNames_table (k := e.1) he hr)
    · cases h
  · split at h
    · rename_i o ho
      intro r hr
      rcases addObject_names h hr with hr | hr
      · exact hs r hr
      · exact hC _ _ ho r hr
    · cases h
  · rw [Out.bind_ok] at h
    obtain ⟨o, ho, h⟩ := h
    intro r hr
    rcases addObject_names h hr with hr | hr
    · exact hs r hr
    · exact resolveObject_names hC ho r hr

theorem addElements_names {n : Nat} {R : Resolver} (hC : Closed R) {unique : Option Text} :
    {es : List SetElement} → {s s' : RObjectSet} → addElements n R unique s es = .ok s' →
    (∀ r ∈ s.names, IsType R r) → ∀ r ∈ s'.names, IsType R r
  | [], s, s', h, hs => by cases h; exact hs
  | e :: es, s, s', h, hs => by
      rw [addElements, Out.bind_ok] at h
      obtain ⟨s1, h1, h2⟩ := h
      exact addElements_names hC h2 (addElement_names hC h1 hs)

theorem resolveDefinition_names {n : Nat} {R : Resolver} (hC : Closed R) {kind : Assignment} {d : RDef}
    (h : resolveDefinition n R kind = .ok d) : ∀ r ∈ d.names, IsType R r := by
  unfold resolveDefinition at h
  split at h
  · rw [Out.bind_ok] at h
    obtain ⟨t, _, h⟩ := h
    rw [Out.bind_ok] at h
    obtain ⟨x, _, h⟩ := h
    cases h
    intro r hr; simp [RDef.names] at hr
  · rw [Out.bind_ok] at h
    obtain ⟨t, ht, h⟩ := h
    cases h
    exact resolveType_names hC n _ ht
  · rw [Out.bind_ok] at h
    obtain ⟨s, hs, h⟩ := h
    cases h
    unfold resolveObjectSet at hs
    split at hs
    · cases hs
    · exact addElements_names hC hs (by intro r hr; simp [RObjectSet.names] at hr)
  · rw [Out.bind_ok] at h
    obtain ⟨o, ho, h⟩ := h
    cases h
    exact resolveObject_names hC ho
  · cases h

/-- A new definition, or one that stays a type, keeps everything in place. -/
theorem Closed.put {R : Resolver} (hC : Closed R) {k : Text} {d : RDef} (hd : ∀ r ∈ d.names, IsType R r)
    (hk : IsType R k → ∃ t, d = .type t) {R' : Resolver} (hR : R'.resolved = put R.resolved k d) : Closed R' := by
  have keep : ∀ r, IsType R r → IsType R' r := by
    rintro r ⟨t, ht⟩
    unfold IsType
    rw [hR]
    by_cases h : k = r
    · subst h
      obtain ⟨t', rfl⟩ := hk ⟨t, ht⟩
      exact ⟨t', by rw [get_put, if_pos rfl]⟩
    · exact ⟨t, by rw [get_put, if_neg h]; exact ht⟩
  intro j e hj r hr
  rw [hR, get_put] at hj
  split at hj
  · cases hj; exact keep r (hd r hr)
  · exact keep r (hC j e hj r hr)

theorem resolveOne_closed {n : Nat} {defs : List (Text × Definition)} {R R' : Resolver} {k : Text}
    (h : resolveOne n defs R k = .ok R') (hC : Closed R)
    (hk : ∀ d, get defs k = some d → IsType R k → ∃ ty, d.kind = .type ty) : Closed R' := by
  unfold resolveOne at h
  split at h
  · cases h; exact hC
  · rename_i d hd
    split at h
    · cases h; exact hC
    · split at h
      · cases h; exact hC
      · rw [Out.bind_ok] at h
        obtain ⟨x, hx, h⟩ := h
        cases h
        refine Closed.put hC (resolveDefinition_names hC hx) (fun ht => ?_) rfl
        obtain ⟨ty, hty⟩ := hk d hd ht
        rw [hty, resolveDefinition, Out.bind_ok] at hx
        obtain ⟨t, _, hx⟩ := hx
        cases hx
        exact ⟨t, rfl⟩

theorem resolveInOrder_closed {n : Nat} {defs : List (Text × Definition)} : {order : List Text} →
    {R R' : Resolver} → resolveInOrder n defs R order = .ok R' → order.Nodup → Closed R →
    (∀ k ∈ order, ∀ d, get defs k = some d → IsType R k → ∃ ty, d.kind = .type ty) → Closed R'
  | [], R, R', h, _, hC, _ => by cases h; exact hC
  | k :: ks, R, R', h, hn, hC, hk => by
      rw [resolveInOrder, Out.bind_ok] at h
      obtain ⟨R1, h1, h2⟩ := h
      rw [List.nodup_cons] at hn
      refine resolveInOrder_closed h2 hn.2 (resolveOne_closed h1 hC (hk k (.head _))) ?_
      rintro j hj d hd ⟨t, ht⟩
      refine hk j (.tail _ hj) d hd ⟨t, ?_⟩
      rw [← (resolveOne_keeps h1 (fun e => hn.1 (e ▸ hj) : j ≠ k)).1]
      exact ht

end Hampi.Compiler
