import Verif.Lemmas.Generate
import Verif.Lemmas.Closed
import Std.Data.String.ToNat
/-! # Lemmas about the meaning of resolved types -/
namespace Hampi.Compiler
open Spec

theorem toString_inj {a b : Nat} (h : (toString a).toList = (toString b).toList) : a = b :=
  Nat.repr_injective (String.toList_injective h)

/-! ## There is at most one -/

section
variable {R : Resolver}

mutual

theorem means_unique {ty : RType} {t u : Ty} (h : Means R ty t) (h' : Means R ty u) : t = u := by
  match h with
  | .base hb =>
      cases h' with
      | base hb' => rw [hb] at hb'; cases hb'; rfl
  | .reference hr hm =>
      cases h' with
      | reference hr' hm' => rw [hr] at hr'; cases hr'; exact means_unique hm hm'
  | .sequence hf =>
      cases h' with
      | sequence hf' => obtain ⟨rfl, rfl⟩ := meansFields_unique hf hf'; rfl
  | .sequenceOf he =>
      cases h' with
      | sequenceOf he' => rw [means_unique he he']
  | .choice ha =>
      cases h' with
      | choice ha' => rw [meansAlts_unique ha ha']
  | .choiceExt hb ha =>
      cases h' with
      | choiceExt hb' ha' =>
        have := meansAlts_unique hb hb'
        subst this
        rw [meansAlts_unique ha ha']
  | .set ho =>
      cases h' with
      | set ho' => rw [meansOpen_unique ho ho']
termination_by structural h

theorem meansFields_unique {i : Nat} {cs : List RSeqComponent} {n m : Nat} {fs gs : Fields}
    (h : MeansFields R i cs n fs) (h' : MeansFields R i cs m gs) : n = m ∧ fs = gs := by
  match h with
  | .nil => cases h'; exact ⟨rfl, rfl⟩
  | .required hm hr =>
      cases h' with
      | required hm' hr' =>
        obtain ⟨rfl, rfl⟩ := meansFields_unique hr hr'
        rw [means_unique hm hm']
        exact ⟨rfl, rfl⟩
  | .optional hm hr =>
      cases h' with
      | optional hm' hr' =>
        obtain ⟨rfl, rfl⟩ := meansFields_unique hr hr'
        rw [means_unique hm hm']
        exact ⟨rfl, rfl⟩
termination_by structural h

theorem meansAlts_unique {x : Bool} {i : Nat} {cs : List RComponent} {rest as bs : Alts}
    (h : MeansAlts R x i cs rest as) (h' : MeansAlts R x i cs rest bs) : as = bs := by
  match h with
  | .nil => cases h'; rfl
  | .cons hm hr =>
      cases h' with
      | cons hm' hr' => rw [means_unique hm hm', meansAlts_unique hr hr']
termination_by structural h

theorem meansOpen_unique {types : List (Text × Text × Text)} {as bs : Alts} (h : MeansOpen R types as)
    (h' : MeansOpen R types bs) : as = bs := by
  generalize he : types = types' at h'
  match h with
  | .nil => cases h' with
      | nil => rfl
      | cons => cases he
  | .cons hm hr =>
      cases h' with
      | nil => cases he
      | cons hm' hr' =>
        injection he with h1 h2
        injection h1 with h3 h4
        injection h4 with h5 h6
        subst h2 h6
        have hk := toString_inj h5
        rw [means_unique hm hm', meansOpen_unique hr hr', hk]
termination_by structural h

end
end

/-! ## There is one -/

section
variable {R : Resolver} {rank : Text → Nat}

mutual

/-- When all names below a rank have a meaning, so have the types that use only such names. -/
theorem means_exists {P : Text → Prop} (hP : ∀ r, P r → ∃ t, Means R (.reference r) t) (ty : RType)
    (hs : Supported ty) (hn : ∀ r ∈ ty.names, P r) : ∃ t, Means R ty t := by
  match ty with
  | .base b => obtain ⟨t, ht⟩ := hs; exact ⟨t, .base ht⟩
  | .reference r => exact hP r (hn r (by rw [RType.names]; exact List.mem_singleton.mpr rfl))
  | .sequence ext cs =>
      rw [RType.names] at hn
      obtain ⟨n, fs, hf⟩ := means_fields_exists hP cs hs hn 0
      exact ⟨_, .sequence hf⟩
  | .sequenceOf ty size =>
      rw [RType.names] at hn
      obtain ⟨t, ht⟩ := means_exists hP ty hs hn
      exact ⟨_, .sequenceOf ht⟩
  | .choice [] none => exact absurd rfl hs.1
  | .choice (c :: cs) none =>
      rw [RType.names] at hn
      obtain ⟨as, ha⟩ := means_alts_exists hP (c :: cs) hs.2 hn false 0 .nil
      exact ⟨_, .choice ha⟩
  | .choice [] (some adds) => exact absurd rfl hs.1
  | .choice (c :: cs) (some adds) =>
      rw [RType.names] at hn
      obtain ⟨bs, hb⟩ := means_alts_exists hP adds hs.2.2 (fun r h => hn r (List.mem_append_right _ h)) true 0 .nil
      obtain ⟨as, ha⟩ := means_alts_exists hP (c :: cs) hs.2.1 (fun r h => hn r (List.mem_append_left _ h))
        false 0 bs
      exact ⟨_, .choiceExt hb ha⟩
  | .set s types =>
      rw [RType.names] at hn
      rw [Supported] at hs
      have : ∀ types : List (Text × Text × Text), (∀ e ∈ types, ∃ k : Nat, e.2.1 = (toString k).toList) →
          (∀ r ∈ types.map fun e => e.2.2, P r) → ∃ as, MeansOpen R types as := by
        intro types
        induction types with
        | nil => intro _ _; exact ⟨_, .nil⟩
        | cons e ts ih =>
          intro hs hn
          obtain ⟨name, num, r⟩ := e
          obtain ⟨k, hk⟩ := hs _ List.mem_cons_self
          cases hk
          obtain ⟨t, ht⟩ := hP r (hn r List.mem_cons_self)
          obtain ⟨as, ha⟩ := ih (fun e h => hs e (List.mem_cons_of_mem _ h))
            (fun r h => hn r (List.mem_cons_of_mem _ h))
          exact ⟨_, .cons ht ha⟩
      obtain ⟨as, ha⟩ := this types hs hn
      exact ⟨_, .set ha⟩

theorem means_fields_exists {P : Text → Prop} (hP : ∀ r, P r → ∃ t, Means R (.reference r) t)
    (cs : List RSeqComponent) (hs : SupportedFields cs) (hn : ∀ r ∈ rseqNames cs, P r) :
    ∀ i, ∃ n fs, MeansFields R i cs n fs := by
  match cs with
  | [] => exact fun i => ⟨i, _, .nil⟩
  | .mk id ty opt key :: cs =>
      intro i
      rw [rseqNames] at hn
      obtain ⟨t, ht⟩ := means_exists hP ty hs.1 fun r h => hn r (List.mem_append_left _ h)
      cases opt with
      | true =>
        obtain ⟨n, fs, hf⟩ := means_fields_exists hP cs hs.2.2 (fun r h => hn r (List.mem_append_right _ h)) (i + 1)
        cases key with
        | true => exact absurd ⟨rfl, rfl⟩ hs.2.1
        | false => exact ⟨n, _, .optional ht hf⟩
      | false =>
        obtain ⟨n, fs, hf⟩ := means_fields_exists hP cs hs.2.2 (fun r h => hn r (List.mem_append_right _ h)) i
        exact ⟨n, _, .required ht hf⟩

theorem means_alts_exists {P : Text → Prop} (hP : ∀ r, P r → ∃ t, Means R (.reference r) t)
    (cs : List RComponent) (hs : SupportedAlts cs) (hn : ∀ r ∈ rcomponentsNames cs, P r) :
    ∀ x i rest, ∃ as, MeansAlts R x i cs rest as := by
  match cs with
  | [] => exact fun x i rest => ⟨_, .nil⟩
  | .mk id ty :: cs =>
      intro x i rest
      rw [rcomponentsNames] at hn
      obtain ⟨t, ht⟩ := means_exists hP ty hs.1 fun r h => hn r (List.mem_append_left _ h)
      obtain ⟨as, ha⟩ := means_alts_exists hP cs hs.2 (fun r h => hn r (List.mem_append_right _ h)) x (i + 1) rest
      exact ⟨_, .cons ht ha⟩

end

/-- In a closed, well-founded set of supported types every name has a meaning. -/
theorem founded_means (hc : Closed R) (hf : Founded R)
    (hs : ∀ k ty, get R.resolved k = some (.type ty) → Supported ty) :
    ∀ k, IsType R k → ∃ t, Means R (.reference k) t := by
  obtain ⟨rank, hr⟩ := hf
  have key : ∀ n k, rank k < n → IsType R k → ∃ t, Means R (.reference k) t := by
    intro n
    induction n with
    | zero => intro k hk; exact absurd hk (Nat.not_lt_zero _)
    | succ n ih =>
      rintro k hk ⟨ty, hty⟩
      obtain ⟨t, ht⟩ := means_exists (P := fun r => rank r < n ∧ IsType R r) (fun r h => ih r h.1 h.2) ty
        (hs k ty hty) (fun r h => ⟨by have := hr k ty hty r h; omega, hc k _ hty r h⟩)
      exact ⟨t, .reference hty ht⟩
  exact fun k hk => key (rank k + 1) k (Nat.lt_succ_self _) hk

end

/-! ## Attributes of generated types make sense -/

theorem meansFields_indexes {R : Resolver} {i : Nat} {cs : List RSeqComponent} : ∀ {n : Nat} {fs : Fields},
    MeansFields R i cs n fs → i ≤ n ∧ fs.indexes = List.range' i (n - i) := by
  induction cs generalizing i with
  | nil => intro n fs h; cases h; exact ⟨Nat.le_refl _, by rw [Nat.sub_self]; rfl⟩
  | cons c cs ih =>
    intro n fs h
    cases h with
    | required _ hr => rw [Fields.indexes]; exact ih hr
    | optional _ hr =>
      obtain ⟨h1, h2⟩ := ih hr
      refine ⟨by omega, ?_⟩
      rw [Fields.indexes, h2, show n - i = (n - (i + 1)) + 1 by omega, List.range'_succ]

theorem meansFields_indexesOk {R : Resolver} {cs : List RSeqComponent} {n : Nat} {fs : Fields}
    (h : MeansFields R 0 cs n fs) : fs.IndexesOk n := by
  obtain ⟨_, h2⟩ := meansFields_indexes h
  unfold Fields.IndexesOk
  rw [h2]
  refine ⟨List.nodup_range', fun i hi => ?_⟩
  have := List.mem_range'_1.mp hi
  omega

theorem meansAlts_extended {R : Resolver} {cs : List RComponent} : ∀ {i : Nat} {as : Alts},
    MeansAlts R true i cs .nil as → ∀ v : as.Val, as.extendedOf v = true := by
  induction cs with
  | nil => intro i as h v; cases h; cases v
  | cons c cs ih =>
    intro i as h v
    cases h with
    | cons _ hr =>
      match v with
      | .inl _ => rfl
      | .inr v => exact ih hr v

theorem meansAlts_selects {R : Resolver} {cs : List RComponent} {rest : Alts}
    (hrest : ∀ v : rest.Val, rest.extendedOf v = true) : ∀ {i : Nat} {as : Alts},
    MeansAlts R false i cs rest as → ∀ v : as.Val, as.extendedOf v = false →
      as.Selects (as.keyOf v) v ∧ (i : Int) ≤ as.keyOf v := by
  induction cs with
  | nil => intro i as h v hv; cases h; rw [hrest] at hv; cases hv
  | cons c cs ih =>
    intro i as h v hv
    cases h with
    | cons _ hr =>
      match v with
      | .inl _ => exact ⟨rfl, Int.le_refl _⟩
      | .inr v =>
          obtain ⟨h1, h2⟩ := ih hr v hv
          refine ⟨⟨?_, h1⟩, ?_⟩
          · show Alts.keyOf _ v ≠ _
            intro e
            rw [e] at h2
            omega
          · show _ ≤ Alts.keyOf _ v
            omega

/-! ## Values the encoder accepts are decoded -/

theorem attrs_wf {b : RBase} {t : Ty} (h : b.attrs = .ok (some t)) (v : t.Val) (hp : t.Permitted v)
    (hc : Carried t v) : t.Wf v := by
  cases b with
  | integer => cases h; exact hc
  | enumerated bits signed ext root adds =>
    cases root with
    | nil => cases h
    | cons => cases h; exact hc
  | bitString => cases h; exact hp.1
  | boolean => cases h; trivial
  | octetString => cases h; exact hp.1
  | characterString st size =>
    rw [RBase.attrs] at h
    injection h with h
    cases hk : charKindOf st with
    | none => rw [hk] at h; cases h
    | some k => rw [hk] at h; cases h; exact ⟨hp.1, hc⟩
  | objectIdentifier => cases h; trivial
  | null => cases h; trivial

section
variable {R : Resolver}

mutual

theorem means_wf {ty : RType} {t : Ty} (h : Means R ty t) :
    ∀ v : t.Val, t.Permitted v → Carried t v → t.Wf v := by
  match h with
  | .base hb => exact attrs_wf hb
  | .reference _ hm => exact means_wf hm
  | .sequence hf => exact fun v hp hc => ⟨meansFields_indexesOk hf, means_fields_wf hf v hp.2 hc⟩
  | .sequenceOf (size := size) he =>
      intro v hp hc
      refine ⟨hc.1, ?_, fun x hx => means_wf he x (hp.2 x hx) (hc.2 x hx)⟩
      have h1 := hp.1
      split
      · next hx => rw [if_pos hx] at h1; exact h1.2
      · next hx => rw [if_neg hx] at h1; exact h1
  | .choice ha =>
      intro v hp hc
      obtain ⟨h1, h2, h3, h4, h5⟩ := hp
      exact ⟨(meansAlts_selects (rest := .nil) (fun v => nomatch v) ha v h4).1, ⟨by omega, by omega⟩,
        means_alts_wf ha (fun v => (show Empty from v).elim) v h5 hc⟩
  | .choiceExt hb ha =>
      intro v hp hc
      obtain ⟨h1, h2, h3, h4, h5⟩ := hp
      exact ⟨(meansAlts_selects (meansAlts_extended hb) ha v h4).1, ⟨by omega, by omega⟩,
        means_alts_wf ha (means_alts_wf hb fun v => (show Empty from v).elim) v h5 hc⟩
  | .set ho => exact fun v hp hc => means_open_wf ho v hp.1 hc
termination_by structural h

theorem means_fields_wf {i : Nat} {cs : List RSeqComponent} {n : Nat} {fs : Fields}
    (h : MeansFields R i cs n fs) : ∀ v : fs.Val, fs.Permitted v → CarriedFields fs v → fs.Wf v := by
  match h with
  | .nil => exact fun _ _ _ => trivial
  | .required hm hr => exact fun v hp hc => ⟨means_wf hm v.1 hp.1 hc.1, means_fields_wf hr v.2 hp.2 hc.2⟩
  | .optional hm hr =>
      rintro ⟨a, b⟩ hp hc
      match a with
      | none => exact ⟨trivial, means_fields_wf hr b hp.2 hc.2⟩
      | some x => exact ⟨means_wf hm x hp.1 hc.1, means_fields_wf hr b hp.2 hc.2⟩
termination_by structural h

theorem means_alts_wf {x : Bool} {i : Nat} {cs : List RComponent} {rest as : Alts}
    (h : MeansAlts R x i cs rest as) :
    (∀ v : rest.Val, rest.Permitted v → CarriedAlts rest v → rest.Wf v) →
    ∀ v : as.Val, as.Permitted v → CarriedAlts as v → as.Wf v := by
  match h with
  | .nil => exact fun hrest => hrest
  | .cons hm hr =>
      intro hrest v hp hc
      match v with
      | .inl v => exact means_wf hm v hp hc
      | .inr v => exact means_alts_wf hr hrest v hp hc
termination_by structural h

theorem means_open_wf {types : List (Text × Text × Text)} {as : Alts} (h : MeansOpen R types as) :
    ∀ v : as.Val, as.Permitted v → CarriedAlts as v → as.Wf v := by
  match h with
  | .nil => exact fun v => nomatch v
  | .cons hm hr =>
      intro v hp hc
      match v with
      | .inl v => exact means_wf hm v hp hc
      | .inr v => exact means_open_wf hr v hp hc
termination_by structural h

end
end

/-! ## Resolved types do not refer to themselves -/

theorem Founded.put {R : Resolver} (hC : Closed R) (hF : Founded R) {k : Text} {d : RDef}
    (hd : ∀ r ∈ d.names, IsType R r) (hk : get R.resolved k = none) {R' : Resolver}
    (hR : R'.resolved = put R.resolved k d) : Founded R' := by
  obtain ⟨rank, hr⟩ := hF
  have bound : ∀ l : List Text, ∃ n, ∀ r ∈ l, rank r < n := by
    intro l
    induction l with
    | nil => exact ⟨0, nofun⟩
    | cons a l ih =>
      obtain ⟨n, hn⟩ := ih
      refine ⟨n + rank a + 1, fun r h => ?_⟩
      rcases List.mem_cons.mp h with rfl | h
      · omega
      · have := hn r h; omega
  obtain ⟨n, hn⟩ := bound d.names
  have fresh : ∀ r, IsType R r → r ≠ k := by
    rintro r ⟨t, ht⟩ rfl
    rw [hk] at ht; cases ht
  refine ⟨fun j => if j = k then n else rank j, fun j ty hj r hr' => ?_⟩
  dsimp only
  rw [hR, get_put] at hj
  split at hj
  · next e =>
    cases hj
    rw [if_pos e.symm, if_neg (fresh r (hd r hr'))]
    exact hn r hr'
  · next e =>
    rw [if_neg (fresh r (hC j _ hj r hr')), if_neg (fun h => e h.symm)]
    exact hr j ty hj r hr'

theorem resolveOne_founded {n : Nat} {defs : List (Text × Definition)} {R R' : Resolver} {k : Text}
    (h : resolveOne n defs R k = .ok R') (hC : Closed R) (hF : Founded R)
    (hk : ∀ d, get defs k = some d → get R.resolved k = none) : Founded R' := by
  unfold resolveOne at h
  split at h
  · cases h; exact hF
  · rename_i d hd
    split at h
    · cases h; exact hF
    · split at h
      · cases h; exact hF
      · obtain ⟨x, hx, h⟩ := Out.bind_ok.mp h
        cases h
        exact Founded.put hC hF (resolveDefinition_names hC hx) (hk d hd) rfl

theorem resolveInOrder_founded {n : Nat} {defs : List (Text × Definition)} : {order : List Text} →
    {R R' : Resolver} → resolveInOrder n defs R order = .ok R' → order.Nodup → Closed R → Founded R →
    (∀ k ∈ order, ∀ d, get defs k = some d → get R.resolved k = none) → Founded R'
  | [], R, R', h, _, _, hF, _ => by cases h; exact hF
  | k :: ks, R, R', h, hn, hC, hF, hk => by
      rw [resolveInOrder, Out.bind_ok] at h
      obtain ⟨R1, h1, h2⟩ := h
      rw [List.nodup_cons] at hn
      have hC1 : Closed R1 := resolveOne_closed h1 hC fun d hd ⟨t, ht⟩ => by
        rw [hk k List.mem_cons_self d hd] at ht; cases ht
      refine resolveInOrder_founded h2 hn.2 hC1 (resolveOne_founded h1 hC hF (hk k List.mem_cons_self)) ?_
      intro j hj d hd
      rw [(resolveOne_keeps h1 (fun e => hn.1 (e ▸ hj) : j ≠ k)).1]
      exact hk j (List.mem_cons_of_mem _ hj) d hd

theorem resolveOne_new {n : Nat} {defs : List (Text × Definition)} {R R' : Resolver} {k j : Text} {x : RDef}
    (h : resolveOne n defs R k = .ok R') (hj : get R'.resolved j = some x) :
    (∃ y, get R.resolved j = some y) ∨ ∃ d, (j, d) ∈ defs := by
  by_cases hjk : j = k
  · subst hjk
    unfold resolveOne at h
    split at h
    · cases h; exact .inl ⟨_, hj⟩
    · next d hd => exact .inr ⟨d, get_mem hd⟩
  · exact .inl ⟨x, by rw [← (resolveOne_keeps h hjk).1]; exact hj⟩

theorem resolveInOrder_new {n : Nat} {defs : List (Text × Definition)} {j : Text} : {order : List Text} →
    {R R' : Resolver} → {x : RDef} → resolveInOrder n defs R order = .ok R' → get R'.resolved j = some x →
    (∃ y, get R.resolved j = some y) ∨ ∃ d, (j, d) ∈ defs
  | [], R, R', x, h, hj => by cases h; exact .inl ⟨_, hj⟩
  | k :: ks, R, R', x, h, hj => by
      rw [resolveInOrder, Out.bind_ok] at h
      obtain ⟨R1, h1, h2⟩ := h
      rcases resolveInOrder_new h2 hj with ⟨y, hj⟩ | hj
      · exact resolveOne_new h1 hj
      · exact .inr hj

/-- Everything resolved so far is defined by one of the modules done. -/
def DoneBy (ms : List Module) (done : List Text) (R : Resolver) : Prop :=
  ∀ k x, get R.resolved k = some x → ∃ M ∈ ms, M.name ∈ done ∧ ∃ d, (k, d) ∈ M.definitions

theorem order_founded {n : Nat} {ms : List Module} (hd : DistinctDefinitions ms) : {order done : List Text} →
    {R R' : Resolver} → ResolvesOrder n ms order R (.ok R') → order.Nodup → (∀ k ∈ order, k ∉ done) →
    Closed R → Founded R → DoneBy ms done R → Closed R' ∧ Founded R'
  | [], done, R, R', h, _, _, hC, hF, _ => by cases h; exact ⟨hC, hF⟩
  | k :: ks, done, R, R', h, hn, hx, hC, hF, hD => by
      rw [ResolvesOrder] at h
      split at h
      · cases h
      · rename_i M hM
        obtain ⟨r1, h1, h2⟩ := h
        have hmem : M ∈ ms := List.mem_of_find?_eq_some hM
        have hname : M.name = k := by
          have := List.find?_some hM
          simpa using this
        rw [List.nodup_cons] at hn
        split at h2
        · rename_i R1
          unfold ResolvesModule at h1
          split at h1
          · rename_i defs hdefs
            obtain ⟨o, ho, hr⟩ := h1
            have hr := hr.symm
            have hall := mapOut_ok hdefs
            have hdef : ∀ j d, (j, d) ∈ defs → ∃ d0, (j, d0) ∈ M.definitions := by
              intro j d hjd
              obtain ⟨x, hx, hxy⟩ := hall.mem_right _ hjd
              have h1 := readDefinition_key hxy
              obtain ⟨kx, dx⟩ := x
              cases h1.1
              exact ⟨dx, hx⟩
            have fresh : ∀ j ∈ o, ∀ d, get defs j = some d → get R.resolved j = none := by
              intro j _ d hj
              cases hg : get R.resolved j with
              | none => rfl
              | some x =>
                obtain ⟨N, hN, hNd, e, he⟩ := hD j x hg
                obtain ⟨d0, hd0⟩ := hdef j d (get_mem hj)
                have := hd N hN M hmem j e d0 he hd0
                rw [this, hname] at hNd
                exact absurd hNd (hx k List.mem_cons_self)
            have hC0 : Closed (addClasses R M.definitions) := hC
            have hF0 : Founded (addClasses R M.definitions) := hF
            have c1 : Closed R1 := resolveInOrder_closed hr ho.nodup hC0 fun j hj d hg ⟨t, ht⟩ => by
              have ht : get R.resolved j = _ := ht
              rw [fresh j hj d hg] at ht; cases ht
            have c2 : Founded R1 := resolveInOrder_founded hr ho.nodup hC0 hF0 fresh
            refine order_founded hd h2 hn.2 (done := k :: done) ?_ c1 c2 ?_
            · intro j hj hm
              rcases List.mem_cons.mp hm with rfl | hm
              · exact hn.1 hj
              · exact hx j (List.mem_cons_of_mem _ hj) hm
            · intro j x hj
              rcases resolveInOrder_new hr hj with ⟨y, hy⟩ | ⟨d, hjd⟩
              · obtain ⟨N, hN, hNd, e⟩ := hD j y hy
                exact ⟨N, hN, List.mem_cons_of_mem _ hNd, e⟩
              · obtain ⟨d0, hd0⟩ := hdef j d hjd
                exact ⟨M, hmem, hname ▸ List.mem_cons_self, d0, hd0⟩
          all_goals cases h1
        all_goals cases h2

end Hampi.Compiler
