import Verif.Lemmas.Trips
/-! # When resolving types does not panic -/
namespace Hampi.Compiler
open Hampi.Compiler.Spec

/-! ## Resolved types the generator can do with -/

/-- An ENUMERATED has values. -/
def RBase.Solid : RBase → Prop
  | .enumerated _ _ _ root _ => root ≠ []
  | _ => True

mutual

/-- A CHOICE has alternatives and an ENUMERATED has values, at all depths. -/
def RType.Solid : RType → Prop
  | .base b => b.Solid
  | .choice root none => root ≠ [] ∧ solidAlternatives root
  | .choice root (some adds) => root ≠ [] ∧ solidAlternatives root ∧ solidAlternatives adds
  | .sequence _ cs => solidComponents cs
  | .sequenceOf ty _ => ty.Solid
  | .reference _ => True
  | .set _ _ => True

/-- The same for alternatives. -/
def solidAlternatives : List RComponent → Prop
  | [] => True
  | .mk _ ty :: cs => ty.Solid ∧ solidAlternatives cs

/-- The same for components. -/
def solidComponents : List RSeqComponent → Prop
  | [] => True
  | .mk _ ty _ _ :: cs => ty.Solid ∧ solidComponents cs

end

theorem solidAlternatives_of {l : List RComponent} (h : ∀ c ∈ l, ∀ id ty, c = .mk id ty → ty.Solid) : solidAlternatives l := by
  induction l with
  | nil => rw [solidAlternatives]; trivial
  | cons c l ih =>
    obtain ⟨id, ty⟩ := c
    rw [solidAlternatives]
    exact ⟨h _ List.mem_cons_self id ty rfl, ih fun c hc => h c (List.mem_cons_of_mem _ hc)⟩

theorem solidComponents_of {l : List RSeqComponent} (h : ∀ c ∈ l, ∀ id ty o k, c = .mk id ty o k → ty.Solid) :
    solidComponents l := by
  induction l with
  | nil => rw [solidComponents]; trivial
  | cons c l ih =>
    obtain ⟨id, ty, o, k⟩ := c
    rw [solidComponents]
    exact ⟨h _ List.mem_cons_self id ty o k rfl, ih fun c hc => h c (List.mem_cons_of_mem _ hc)⟩

/-! ## Base types -/

theorem explicitNumbers_calmly {l : List EnumValue} (h : ∀ x s, ⟨x, some (.number s)⟩ ∈ l → (parseI128 s).isSome) :
    Calmly (fun _ => True) (explicitNumbers l) := by
  induction l with
  | nil => exact .ok trivial
  | cons e vs ih =>
    have ih := ih fun x s hx => h x s (List.mem_cons_of_mem _ hx)
    unfold explicitNumbers
    split
    · exact .ok trivial
    · rename_i x s l heq
      cases heq
      split
      · exact .bind ih fun _ _ _ => .ok trivial
      · rename_i hn
        have := h x s List.mem_cons_self
        rw [hn] at this
        cases this
    · rename_i heq
      cases heq
      exact ih

theorem explicitNumbers_none {l : List EnumValue} (h : ∀ x s, ⟨x, some (.number s)⟩ ∉ l) : explicitNumbers l = .ok false := by
  induction l with
  | nil => rfl
  | cons e vs ih =>
    have ih := ih fun x s hx => h x s (List.mem_cons_of_mem _ hx)
    unfold explicitNumbers
    split
    · rfl
    · rename_i x s l heq
      cases heq
      exact absurd List.mem_cons_self (h x s)
    · rename_i heq
      cases heq
      exact ih

theorem resolveNamedBits_calmly {l : List (Text × NamedValue)} (h : ∀ x s, (x, .number s) ∈ l → (parseUnsigned 256 s).isSome) :
    Calmly (fun _ => True) (resolveNamedBits l) := by
  induction l with
  | nil => exact .ok trivial
  | cons e vs ih =>
    have ih := ih fun x s hx => h x s (List.mem_cons_of_mem _ hx)
    unfold resolveNamedBits
    split
    · exact .ok trivial
    · rename_i x s l heq
      cases heq
      split
      · exact .bind ih fun _ _ _ => .ok trivial
      · rename_i hn
        have := h x s List.mem_cons_self
        rw [hn] at this
        cases this
    · rename_i heq
      cases heq
      exact ih

theorem mem_of_head? {α : Type} {l : List α} {a : α} (h : l.head? = some a) : ∃ r, l = a :: r := by
  cases l with
  | nil => cases h
  | cons b r => cases h; exact ⟨r, rfl⟩

/-- Numbers in the constraints of a type that appears in the schema. -/
theorem bounds_small {n : Nat} {ms : List Module} (hq : ¬ Trips n ms) {kind : Kind} {cs : Option (List Constraint)} {c : Constraint}
    (ha : Appears ms (.mk kind cs)) (hc : (cs.getD []).head? = some c ∨ ∃ ty, kind = .sequenceOf (some c) ty) :
    SmallBounds (boundsOfConstraint c) ∧ NoBare (includedInConstraint c) :=
  ⟨fun _ ht _ hv hh => hq (.bound ha hc ht hv hh), fun _ _ hm hu => hq (.included ha hc hm hu)⟩

theorem sizeValueset_calmly {env : Text → Option Int} (he : SmallEnv env) {c : Constraint}
    (h : SmallBounds (boundsOfConstraint c) ∧ NoBare (includedInConstraint c)) : Calmly (fun _ => True) (c.sizeValueset env) := by
  unfold Constraint.sizeValueset
  split
  · rename_i e is add
    have hb : SmallBounds (boundsOfSet e) := by
      intro t ht
      refine h.1 t ?_
      cases add <;>
        simp only [boundsOfConstraint, boundsOfSet, boundsOfUnion, boundsOfIntersection, boundsOfElements, List.mem_append] <;>
        simp [ht]
    have hi : NoBare (includedInSet e) := by
      intro nm cs ht
      refine h.2 nm cs ?_
      cases add <;>
        simp only [includedInConstraint, includedInSet, includedInUnion, includedInIntersection, includedInElements,
          List.mem_append] <;>
        simp [ht]
    exact (e.valueset_calmly he hb hi).mono fun _ _ => trivial
  · exact .err _

theorem lenientSize_calmly {env : Text → Option Int} (he : SmallEnv env) {cs : Option (List Constraint)}
    (h : ∀ c, (cs.getD []).head? = some c → SmallBounds (boundsOfConstraint c) ∧ NoBare (includedInConstraint c)) :
    Calmly (fun _ => True) (lenientSize env cs) := by
  unfold lenientSize
  split
  · split
    · exact .bind (sizeValueset_calmly he (h _ rfl)) fun _ _ _ => .ok trivial
    · exact .ok trivial
  · exact .ok trivial

theorem strictSize_calmly {env : Text → Option Int} (he : SmallEnv env) {cs : Option (List Constraint)}
    (h : ∀ c, (cs.getD []).head? = some c → SmallBounds (boundsOfConstraint c) ∧ NoBare (includedInConstraint c)) :
    Calmly (fun _ => True) (strictSize env cs) := by
  unfold strictSize
  split
  · split
    · exact .bind (sizeValueset_calmly he (h _ rfl)) fun _ _ _ => .ok trivial
    · exact .err _
  · exact .ok trivial

theorem resolveBase_calmly {n : Nat} {ms : List Module} (hq : ¬ Trips n ms) {env : Text → Option Int} (he : SmallEnv env)
    {ty : AsnType} (ha : Appears ms ty) : Calmly RBase.Solid (resolveBase env ty) := by
  unfold resolveBase
  split
  · rename_i named cs
    unfold resolveInteger
    split
    · exact .ok trivial
    · exact .ok trivial
    · rename_i k c rest heq
      cases heq
      obtain ⟨hb, hi⟩ := bounds_small hq ha (.inl rfl)
      have h1 := AsnType.valueset_calmly he (.mk (.integer named) (some (c :: rest))) (fun _ _ _ h => h)
        (by rw [boundsOfType]; exact hb) (by rw [includedInType]; exact hi)
      refine .bind h1 fun vs hvs hm => ?_
      have hf : vs.root.isEmpty = false := by
        refine AsnType.valueset_filled _ ?_ vs hvs
        cases hc : crossedType (.mk (.integer named) (some (c :: rest))) with
        | false => rfl
        | true => exact absurd (.crossed ha hc) hq
      refine ⟨integerOfValueset_quiet hm.1 hf, fun b hb => ?_⟩
      unfold integerOfValueset at hb
      obtain ⟨w, _, hb⟩ := Out.bind_ok.mp hb
      cases hb
      trivial
  · rename_i root m ext cs
    unfold resolveEnumerated
    have hr : explicitNumbers root = .ok false := explicitNumbers_none fun x s h => hq (.numbered ha h)
    rw [hr]
    refine .bind (P := fun r => r = false) (.ok rfl) fun r _ hr' => ?_
    subst hr'
    refine .bind (explicitNumbers_calmly fun x s h => ?_) fun e _ _ => .ok ?_
    · cases hp : parseI128 s with
      | some _ => rfl
      | none => exact absurd (.addition ha h hp) hq
    · show (if false = true then [] else numbered root) ≠ []
      rw [if_neg (by decide)]
      cases root with
      | nil => exact absurd (.noValues ha) hq
      | cons v vs => simp [numbered, List.zipIdx]
  · rename_i named cs
    refine .bind (lenientSize_calmly he fun c hc => bounds_small hq ha (.inl hc)) fun _ _ _ =>
      .bind (resolveNamedBits_calmly fun x s h => ?_) fun _ _ _ => .ok trivial
    cases named with
    | none => cases h
    | some l =>
      cases hp : parseUnsigned 256 s with
      | some _ => rfl
      | none => exact absurd (.bit ha h hp) hq
  · exact .ok trivial
  · exact .bind (lenientSize_calmly he fun c hc => bounds_small hq ha (.inl hc)) fun _ _ _ => .ok trivial
  · exact .bind (strictSize_calmly he fun c hc => bounds_small hq ha (.inl hc)) fun _ _ _ => .ok trivial
  · exact .ok trivial
  · exact .ok trivial
  · exact .err _

/-! ## States of the resolver -/

/-- The types of the fields of the object are solid. -/
def RObject.Solid (o : RObject) : Prop := ∀ f t v, get o.fields f = some (.fixedTypeValue t v) → t.Solid

/-- What holds of what is resolved. -/
def RDef.Solid : RDef → Prop
  | .type ty => ty.Solid
  | .value v => ∀ i, v = .integer i → ¬ Huge i
  | .objectSet s => ∀ o ∈ s.elements, o.Solid
  | .object o => o.Solid

/-- What holds of the resolver at all times. -/
structure Steady (n : Nat) (ms : List Module) (R : Resolver) : Prop where
  met : Met n ms R
  params : ParamsOf ms R
  classes : ClassesOf ms R
  all : ∀ p ∈ R.resolved, p.2.Solid

theorem Steady.solid {n : Nat} {ms : List Module} {R : Resolver} (h : Steady n ms R) (k : Text) (x : RDef)
    (hx : get R.resolved k = some x) : x.Solid := h.all _ (get_mem hx)

theorem Steady.env {n : Nat} {ms : List Module} {R : Resolver} (h : Steady n ms R) : SmallEnv R.env := by
  intro t v ht
  unfold Resolver.env at ht
  split at ht
  · rename_i w hw
    cases ht
    exact h.solid t _ hw v rfl
  · cases ht

/-! ## Types -/

theorem firstConstraint_quiet {ty : AsnType} (h : ¬ Unconstrained ty) : Calmly (fun _ => True) ty.firstConstraint := by
  unfold AsnType.firstConstraint
  split
  · exact .ok trivial
  · rename_i hne
    obtain ⟨k, cs⟩ := ty
    refine absurd ?_ h
    match cs with
    | none => trivial
    | some [] => trivial
    | some (c :: r) => exact absurd rfl (hne k c r)

theorem setReference_quiet (c : Constraint) : Calmly (fun _ => True) c.setReference := by
  unfold Constraint.setReference
  split <;> first | exact .ok trivial | exact .err _

theorem allComponents_types (root : List SeqComponent) (adds : List SeqGroup) :
    (allComponents root adds).map (·.2) = componentTypes root adds := by
  unfold allComponents componentTypes
  rw [List.map_map]
  refine List.map_congr_left fun c _ => ?_
  obtain ⟨id, ty, o, d⟩ := c
  rfl

theorem resolveClassFields_calmly {n : Nat} {ms : List Module} {R : Resolver} (hs : Steady n ms R)
    {root : List SeqComponent} {adds : List SeqGroup} (ext : Bool)
    (h1 : ∀ ty, (componentTypes root adds).head? = some ty → ¬ Unconstrained ty)
    (h2 : ∀ c f cs, .mk (.classField c f) cs ∈ componentTypes root adds → ¬ Unconstrained (.mk (.classField c f) cs)) :
    Calmly RType.Solid (resolveClassFields R root adds ext) := by
  have e := allComponents_types root adds
  unfold resolveClassFields
  split
  · exact .err _
  · rename_i c cs hc
    rw [hc] at e
    refine .bind (firstConstraint_quiet (h1 c.2 (by rw [← e]; rfl))) fun k _ _ => .bind (setReference_quiet k) fun r _ _ => ?_
    split
    · rename_i s hset
      have hsolid := hs.solid _ _ hset
      refine .bind (P := fun l => solidComponents l) ?_ fun l _ hl => .ok (by rw [RType.Solid]; exact hl)
      unfold objectComponents
      split
      · exact .ok (by rw [solidComponents]; trivial)
      · rename_i first rest hel
        have hfirst : first.Solid := hsolid first (by rw [hel]; exact List.mem_cons_self)
        refine .bind (P := fun l => ∀ y ∈ l, ∀ id ty o k, y = some (RSeqComponent.mk id ty o k) → ty.Solid)
          (.mapOut fun x hx => ?_) fun l _ hl => .ok ?_
        · obtain ⟨id, ty⟩ := x
          unfold objectComponent
          split
          · rename_i cl f cs' hty
            have hty : ty = _ := hty
            subst hty
            have hm : AsnType.mk (.classField cl f) cs' ∈ componentTypes root adds := by
              rw [← e]; exact List.mem_map.mpr ⟨_, hx, rfl⟩
            split
            · rename_i t v ht
              refine .bind (firstConstraint_quiet (h2 _ _ _ hm)) fun c _ _ => .ok ?_
              intro id ty o k e
              cases e
              exact hfirst f t v ht
            · refine .ok ?_
              intro id ty o k e
              cases e
              rw [RType.Solid]
              trivial
          · exact .ok fun _ _ _ _ e => by cases e
        · refine solidComponents_of fun c hc id ty o k e => ?_
          obtain ⟨y, hy, e'⟩ := List.mem_filterMap.mp hc
          subst e
          exact hl y hy id ty o k e'
    · exact .err _

theorem resolveType_calmly {n : Nat} {ms : List Module} (hq : ¬ Trips n ms) {R : Resolver} (hs : Steady n ms R) :
    (m : Nat) → (ty : AsnType) → Appears ms ty → Calmly RType.Solid (resolveType m R ty)
  | 0, _, _ => by rw [resolveType]; exact .div
  | m + 1, .mk kind cs, ha => by
    have ih := resolveType_calmly hq hs m
    cases kind with
    | reference r =>
      rw [resolveType]
      split
      · exact .ok (by rw [RType.Solid]; trivial)
      · exact .err _
    | parameterized t ps =>
      rw [resolveType]
      split
      · rename_i e he
        obtain ⟨M, hM, d, hd, hp⟩ := hs.params _ _ he
        refine .bind (P := fun ty => e ps = .ok ty) ⟨fun h => hq (.expansion ha hM hd hp h), fun _ h => h⟩ fun ty _ hty =>
          ih ty (.expansion ha hM hd hp hty)
      · exact .err _
    | classField => rw [resolveType]; exact .err _
    | set => rw [resolveType]; exact .err _
    | setOf => rw [resolveType]; exact .err _
    | choice root adds =>
      have halt : ∀ (l : List Component), (∀ id p, Component.mk id p ∈ l → Appears ms p) →
          Calmly (fun r => solidAlternatives r) (mapOut (resolveAlternative (resolveType m R)) l) := by
        intro l hl
        refine (Calmly.mapOut (Q := fun (c : RComponent) => ∀ id ty, c = .mk id ty → ty.Solid) ?_).mono
          fun r hr => solidAlternatives_of hr
        rintro ⟨id, p⟩ hx
        exact .bind (ih p (hl id p hx)) fun t _ ht => .ok fun _ _ e => by cases e; exact ht
      have hne : ∀ r, mapOut (resolveAlternative (resolveType m R)) root = .ok r → r ≠ [] := by
        intro r hr e
        subst e
        cases root with
        | nil => exact hq (.noAlternatives ha)
        | cons x xs =>
          obtain ⟨y, hy, _⟩ := (mapOut_ok hr).mem_left x List.mem_cons_self
          cases hy
      rw [resolveType]
      refine .bind (halt root fun id p h => .part ha (.alternative h)) fun r hr1 hr => ?_
      cases adds with
      | none => exact .ok (by rw [RType.Solid]; exact ⟨hne r hr1, hr⟩)
      | some gs =>
        refine .bind (halt (groupComponents gs) fun id p h => ?_) fun a _ hadd =>
          .ok (by rw [RType.Solid]; exact ⟨hne r hr1, hr, hadd⟩)
        obtain ⟨⟨v, alts⟩, hg, hc⟩ := List.mem_flatMap.mp h
        exact .part ha (.addition hg hc)
    | sequence root adds ext =>
      rw [resolveType]
      have h1 : Calmly (fun r => solidComponents r) (mapOut (resolveComponent (resolveType m R)) root) := by
        refine (Calmly.mapOut (Q := fun (c : RSeqComponent) => ∀ id ty o k, c = .mk id ty o k → ty.Solid) ?_).mono
          fun r hr => solidComponents_of hr
        rintro ⟨id, p, o, d⟩ hx
        exact .bind (ih p (.part ha (.component hx))) fun t _ ht => .ok fun _ _ _ _ e => by cases e; exact ht
      split
      · rename_i l hl
        exact .ok (by rw [RType.Solid]; exact h1.2 l hl)
      · rename_i e he
        obtain ⟨c, hc, e', he'⟩ : ∃ c ∈ root, ∃ e', resolveComponent (resolveType m R) c = .err e' := by
          clear h1 ha
          induction root with
          | nil => cases he
          | cons c l ih' =>
            rw [mapOut] at he
            cases hx : resolveComponent (resolveType m R) c with
            | err e' => exact ⟨c, List.mem_cons_self, e', hx⟩
            | ok y =>
              rw [hx] at he
              cases hy : mapOut (resolveComponent (resolveType m R)) l with
              | err e' =>
                obtain ⟨c', hc', z⟩ := ih' (by rw [hy] at he; cases he; exact hy)
                exact ⟨c', List.mem_cons_of_mem _ hc', z⟩
              | _ => rw [hy] at he; cases he
            | _ => rw [hx] at he; cases he
        obtain ⟨id, p, o, d⟩ := c
        have hp : ∃ e'', resolveType m R p = .err e'' := by
          have he' : (resolveType m R p).bind _ = .err e' := he'
          cases hx : resolveType m R p with
          | err e'' => exact ⟨e'', rfl⟩
          | _ => rw [hx] at he'; cases he'
        obtain ⟨e'', hp⟩ := hp
        exact resolveClassFields_calmly hs ext
          (fun ty h hu => hq (.refused ha hc hs.met hp (.inl ⟨ty, h, hu⟩)))
          (fun c f cs h hu => hq (.refused ha hc hs.met hp (.inr ⟨c, f, cs, h, hu⟩)))
      · rename_i hp; exact absurd hp h1.1
      · exact .div
    | sequenceOf size ty =>
      rw [resolveType]
      refine .bind (ih ty (.part ha .element)) fun t _ ht => ?_
      cases size with
      | none => exact .ok (by rw [RType.Solid]; exact ht)
      | some c =>
        exact .bind (sizeValueset_calmly hs.env (bounds_small hq ha (.inr ⟨ty, rfl⟩))) fun v _ _ =>
          .ok (by rw [RType.Solid]; exact ht)
    | _ =>
      rw [resolveType]
      · exact .bind (resolveBase_calmly hq hs.env ha) fun b _ hb => .ok (by rw [RType.Solid]; exact hb)
      all_goals nofun

end Hampi.Compiler
