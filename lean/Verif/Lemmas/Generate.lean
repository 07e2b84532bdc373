import Verif.Spec.Schema
import Verif.Spec.Resolved
import Verif.Lemmas.Resolve
/-! # Lemmas about the generated items -/
namespace Hampi.Compiler
open Spec

/-! ## Items are only added -/

theorem withIdent_aux {sp : Spelling} {ty : RType} {input : Text} {gen : Text → Gen → Out Err (Item × Gen)}
    {g : Gen} {y : Text} {g' : Gen} (h : withIdent sp ty input gen g = .ok (y, g'))
    (ih : ∀ nm g i g', gen nm g = .ok (i, g') → ∀ a ∈ g.aux, a ∈ g'.aux) : ∀ a ∈ g.aux, a ∈ g'.aux := by
  intro a ha
  unfold withIdent at h
  split at h
  · cases h; exact ha
  · obtain ⟨i, _, h⟩ := Out.bind_ok.mp h
    cases h
    exact List.mem_append_left _ ha
  · obtain ⟨p, hp, h⟩ := Out.bind_ok.mp h
    cases h
    exact List.mem_append_left _ (ih _ _ _ _ hp a ha)

mutual

theorem genItem_aux (sp : Spelling) (ty : RType) : ∀ (name : Text) (g : Gen) (i : Item) (g' : Gen),
    genItem sp name ty g = .ok (i, g') → ∀ a ∈ g.aux, a ∈ g'.aux := by
  intro name g i g' h a ha
  match ty with
  | .base b =>
      rw [genItem] at h
      obtain ⟨_, _, h⟩ := Out.bind_ok.mp h
      cases h; exact ha
  | .reference r => rw [genItem] at h; cases h; exact ha
  | .set s types => rw [genItem] at h; cases h; exact ha
  | .sequenceOf ty size =>
      rw [genItem] at h
      obtain ⟨p, hp, h⟩ := Out.bind_ok.mp h
      cases h
      exact withIdent_aux hp (genItem_aux sp ty) a ha
  | .sequence ext cs =>
      rw [genItem] at h
      obtain ⟨p, hp, h⟩ := Out.bind_ok.mp h
      cases h
      exact genFields_aux sp cs name 0 g p.1 p.2 hp a ha
  | .choice root none =>
      rw [genItem] at h
      obtain ⟨p, hp, h⟩ := Out.bind_ok.mp h
      split at h
      · cases h
      · cases h
        exact genVariants_aux sp root name false 0 g p.1 p.2 hp a ha
  | .choice root (some adds) =>
      rw [genItem] at h
      obtain ⟨p, hp, h⟩ := Out.bind_ok.mp h
      obtain ⟨q, hq, h⟩ := Out.bind_ok.mp h
      split at h
      · cases h
      · cases h
        exact genVariants_aux sp adds name true 0 p.2 q.1 q.2 hq a
          (genVariants_aux sp root name false 0 g p.1 p.2 hp a ha)

theorem genFields_aux (sp : Spelling) (cs : List RSeqComponent) : ∀ (name : Text) (n : Nat) (g : Gen)
    (r : List FieldItem × Nat) (g' : Gen), genFields sp name n cs g = .ok (r, g') →
    ∀ a ∈ g.aux, a ∈ g'.aux := by
  intro name n g r g' h a ha
  match cs with
  | [] => rw [genFields] at h; cases h; exact ha
  | .mk id ty opt key :: cs =>
      rw [genFields] at h
      obtain ⟨p, hp, h⟩ := Out.bind_ok.mp h
      obtain ⟨q, hq, h⟩ := Out.bind_ok.mp h
      cases h
      exact genFields_aux sp cs name _ p.2 q.1 q.2 hq a (withIdent_aux hp (genItem_aux sp ty) a ha)

theorem genVariants_aux (sp : Spelling) (cs : List RComponent) : ∀ (name : Text) (x : Bool) (i : Nat)
    (g : Gen) (r : List VariantItem) (g' : Gen), genVariants sp name x i cs g = .ok (r, g') →
    ∀ a ∈ g.aux, a ∈ g'.aux := by
  intro name x i g r g' h a ha
  match cs with
  | [] => rw [genVariants] at h; cases h; exact ha
  | .mk id ty :: cs =>
      rw [genVariants] at h
      obtain ⟨p, hp, h⟩ := Out.bind_ok.mp h
      obtain ⟨q, hq, h⟩ := Out.bind_ok.mp h
      cases h
      exact genVariants_aux sp cs name x _ p.2 q.1 q.2 hq a (withIdent_aux hp (genItem_aux sp ty) a ha)

end

/-! ## What is among the items -/

/-- An item called `x` was generated for the type, and all it needs is among the items. -/
def Gives (sp : Spelling) (items : List Item) (x : Text) (ty : RType) : Prop :=
  ∃ name g item g', typeIdent name = x ∧ genItem sp name ty g = .ok (item, g') ∧ item ∈ items ∧
    ∀ a ∈ g'.aux, a ∈ items

/-- `y` is the name used for the type of a component. -/
def Names (sp : Spelling) (items : List Item) (y : Text) (ty : RType) : Prop :=
  (∃ r, ty = .reference r ∧ y = typeIdent r) ∨ ((∀ r, ty ≠ .reference r) ∧ Gives sp items y ty)

theorem withIdent_names {sp : Spelling} {items : List Item} {ty : RType} {input : Text} {g : Gen} {y : Text}
    {g' : Gen} (h : withIdent sp ty input (fun nm => genItem sp nm ty) g = .ok (y, g'))
    (ha : ∀ a ∈ g'.aux, a ∈ items) : Names sp items y ty := by
  unfold withIdent at h
  split at h
  · cases h; exact .inl ⟨_, rfl, rfl⟩
  · obtain ⟨i, hi, h⟩ := Out.bind_ok.mp h
    cases h
    refine .inr ⟨nofun, _, g, i, g, rfl, ?_, ha i ?_, fun a h => ha a ?_⟩
    · rw [genItem, hi]; rfl
    · exact List.mem_append_right _ (List.mem_singleton.mpr rfl)
    · exact List.mem_append_left _ h
  · next hr _ =>
    obtain ⟨p, hp, h⟩ := Out.bind_ok.mp h
    cases h
    refine .inr ⟨fun r e => hr r e, _, g, p.1, p.2, rfl, hp, ha _ ?_, fun a h => ha a ?_⟩
    · exact List.mem_append_right _ (List.mem_singleton.mpr rfl)
    · exact List.mem_append_left _ h

/-- The fields generated for components. -/
def FieldsFor (sp : Spelling) (items : List Item) : Nat → List RSeqComponent → Nat → List FieldItem → Prop
  | i, [], n, fs => fs = [] ∧ n = i
  | i, .mk id ty opt key :: cs, n, fs => ∃ y rest,
      fs = ⟨valueIdent sp id, y, if opt then some i else none, key⟩ :: rest ∧ Names sp items y ty ∧
        FieldsFor sp items (if opt then i + 1 else i) cs n rest

theorem genFields_for {sp : Spelling} {items : List Item} {name : Text} {cs : List RSeqComponent} :
    ∀ {n : Nat} {g : Gen} {r : List FieldItem × Nat} {g' : Gen},
    genFields sp name n cs g = .ok (r, g') → (∀ a ∈ g'.aux, a ∈ items) →
    FieldsFor sp items n cs r.2 r.1 := by
  induction cs with
  | nil => intro n g r g' h _; rw [genFields] at h; cases h; exact ⟨rfl, rfl⟩
  | cons c cs ih =>
    intro n g r g' h ha
    obtain ⟨id, ty, opt, key⟩ := c
    rw [genFields] at h
    obtain ⟨p, hp, h⟩ := Out.bind_ok.mp h
    obtain ⟨q, hq, h⟩ := Out.bind_ok.mp h
    cases h
    exact ⟨_, _, rfl, withIdent_names hp fun a h => ha a (genFields_aux sp cs name _ _ _ _ hq a h), ih hq ha⟩

/-- The variants generated for alternatives. -/
def VariantsFor (sp : Spelling) (items : List Item) (x : Bool) :
    Nat → List RComponent → List VariantItem → Prop
  | _, [], vs => vs = []
  | i, .mk id ty :: cs, vs => ∃ y rest, vs = ⟨typeIdent id, y, i, x⟩ :: rest ∧ Names sp items y ty ∧
      VariantsFor sp items x (i + 1) cs rest

theorem genVariants_for {sp : Spelling} {items : List Item} {name : Text} {x : Bool}
    {cs : List RComponent} : ∀ {i : Nat} {g : Gen} {r : List VariantItem} {g' : Gen},
    genVariants sp name x i cs g = .ok (r, g') → (∀ a ∈ g'.aux, a ∈ items) →
    VariantsFor sp items x i cs r := by
  induction cs with
  | nil => intro i g r g' h _; rw [genVariants] at h; cases h; rfl
  | cons c cs ih =>
    intro i g r g' h ha
    obtain ⟨id, ty⟩ := c
    rw [genVariants] at h
    obtain ⟨p, hp, h⟩ := Out.bind_ok.mp h
    obtain ⟨q, hq, h⟩ := Out.bind_ok.mp h
    cases h
    exact ⟨_, _, rfl, withIdent_names hp fun a h => ha a (genVariants_aux sp cs name x _ _ _ _ hq a h),
      ih hq ha⟩

theorem VariantsFor.length {sp : Spelling} {items : List Item} {x : Bool} {cs : List RComponent} :
    ∀ {i : Nat} {vs : List VariantItem}, VariantsFor sp items x i cs vs → vs.length = cs.length := by
  induction cs with
  | nil => intro i vs h; cases h; rfl
  | cons c cs ih =>
    intro i vs h
    obtain ⟨id, ty⟩ := c
    obtain ⟨y, rest, rfl, _, h⟩ := h
    rw [List.length_cons, List.length_cons, ih h]

section
variable {sp : Spelling} {items : List Item} {x : Text}

theorem Gives.base {b : RBase} (h : Gives sp items x (.base b)) :
    ∃ t, b.attrs = .ok t ∧ Item.newtype x t (b.consts sp) ∈ items := by
  obtain ⟨name, g, item, g', rfl, h, hm, _⟩ := h
  rw [genItem] at h
  obtain ⟨i, hi, h⟩ := Out.bind_ok.mp h
  obtain ⟨t, ht, hi⟩ := Out.bind_ok.mp hi
  cases h; cases hi
  exact ⟨t, ht, hm⟩

theorem Gives.reference {r : Text} (h : Gives sp items x (.reference r)) :
    Item.alias x (typeIdent r) ∈ items := by
  obtain ⟨name, g, item, g', rfl, h, hm, _⟩ := h
  rw [genItem] at h
  cases h; exact hm

theorem Gives.set {s : Text} {types : List (Text × Text × Text)} (h : Gives sp items x (.set s types)) :
    Item.openEnum x true (openItems types) ∈ items := by
  obtain ⟨name, g, item, g', rfl, h, hm, _⟩ := h
  rw [genItem] at h
  cases h; exact hm

theorem Gives.sequenceOf {ty : RType} {size : Option ValueSet} (h : Gives sp items x (.sequenceOf ty size)) :
    ∃ y, Item.vec x (boundsOf size).1 (boundsOf size).2 (extensibleOf size) y ∈ items ∧
      Names sp items y ty := by
  obtain ⟨name, g, item, g', rfl, h, hm, ha⟩ := h
  rw [genItem] at h
  obtain ⟨p, hp, h⟩ := Out.bind_ok.mp h
  cases h
  exact ⟨_, hm, withIdent_names hp ha⟩

theorem Gives.sequence {ext : Bool} {cs : List RSeqComponent} (h : Gives sp items x (.sequence ext cs)) :
    ∃ n fs, Item.struct x ext (optionalAttr n) fs ∈ items ∧ FieldsFor sp items 0 cs n fs := by
  obtain ⟨name, g, item, g', rfl, h, hm, ha⟩ := h
  rw [genItem] at h
  obtain ⟨p, hp, h⟩ := Out.bind_ok.mp h
  cases h
  exact ⟨_, _, hm, genFields_for hp ha⟩

theorem Gives.choice {root : List RComponent} (h : Gives sp items x (.choice root none)) :
    ∃ c cs vs, root = c :: cs ∧ Item.choice x 0 cs.length false vs ∈ items ∧
      VariantsFor sp items false 0 root vs := by
  obtain ⟨name, g, item, g', rfl, h, hm, ha⟩ := h
  rw [genItem] at h
  obtain ⟨p, hp, h⟩ := Out.bind_ok.mp h
  split at h
  · cases h
  · next hl =>
    cases h
    have hv := genVariants_for hp ha
    have hlen := hv.length
    cases root with
    | nil => exact absurd hlen hl
    | cons c cs =>
      rw [hlen] at hm
      exact ⟨c, cs, _, rfl, hm, hv⟩

theorem Gives.choiceExt {root adds : List RComponent} (h : Gives sp items x (.choice root (some adds))) :
    ∃ c cs vs ws, root = c :: cs ∧ Item.choice x 0 cs.length true (vs ++ ws) ∈ items ∧
      VariantsFor sp items false 0 root vs ∧ VariantsFor sp items true 0 adds ws := by
  obtain ⟨name, g, item, g', rfl, h, hm, ha⟩ := h
  rw [genItem] at h
  obtain ⟨p, hp, h⟩ := Out.bind_ok.mp h
  obtain ⟨q, hq, h⟩ := Out.bind_ok.mp h
  split at h
  · cases h
  · next hl =>
    cases h
    have hv := genVariants_for (items := items) hp fun a h => ha a (genVariants_aux sp adds name true 0 _ _ _ hq a h)
    have hw := genVariants_for hq ha
    have hlen := hv.length
    cases root with
    | nil => exact absurd hlen hl
    | cons c cs =>
      rw [hlen] at hm
      exact ⟨c, cs, _, _, rfl, hm, hv, hw⟩

end

/-! ## All resolved types -/

theorem genAll_gives {sp : Spelling} {items : List Item} : ∀ {ts : List (Text × RType)} {g : Gen}
    {is : List Item} {g' : Gen}, genAll sp ts g = .ok (is, g') → (∀ a ∈ is, a ∈ items) →
    (∀ a ∈ g'.aux, a ∈ items) →
    (∀ a ∈ g.aux, a ∈ items) ∧ ∀ k t, (k, t) ∈ ts → Gives sp items (typeIdent k) t
  | [], g, is, g', h, _, ha => by cases h; exact ⟨ha, nofun⟩
  | (j, u) :: ts, g, is, g', h, hi, ha => by
      rw [genAll] at h
      obtain ⟨p, hp, h⟩ := Out.bind_ok.mp h
      obtain ⟨q, hq, h⟩ := Out.bind_ok.mp h
      cases h
      have ih := genAll_gives hq (fun a h => hi a (List.mem_cons_of_mem _ h)) ha
      refine ⟨fun a h => ih.1 a (genItem_aux sp u j g _ _ hp a h), fun k t hk => ?_⟩
      rcases List.mem_cons.mp hk with e | hk
      · cases e
        exact ⟨j, g, p.1, p.2, rfl, hp, hi _ List.mem_cons_self, ih.1⟩
      · exact ih.2 k t hk

theorem resolvedTypes_mem {defs : List (Text × RDef)} {k : Text} {t : RType} :
    (k, t) ∈ resolvedTypes defs ↔ (k, RDef.type t) ∈ defs := by
  unfold resolvedTypes
  rw [List.mem_filterMap]
  constructor
  · rintro ⟨⟨k', d⟩, hm, h⟩
    dsimp only at h
    split at h
    · cases h; exact hm
    · cases h
  · intro h
    exact ⟨_, h, rfl⟩

theorem generate_gives {sp : Spelling} {R : Resolver} {items : List Item} (h : generate sp R = .ok items)
    {k : Text} {ty : RType} (hk : get R.resolved k = some (.type ty)) : Gives sp items (typeIdent k) ty := by
  obtain ⟨p, hp, h⟩ := Out.bind_ok.mp h
  cases h
  exact (genAll_gives hp (fun a h => List.mem_append_left _ h) (fun a h => List.mem_append_right _ h)).2 k ty
    (resolvedTypes_mem.mpr (get_mem hk))

/-! ## The generated items stand for the schema -/

theorem optionalAttr_getD (n : Nat) : (optionalAttr n).getD 0 = n := by
  unfold optionalAttr
  split
  · rfl
  · show 0 = n; omega


section
variable {sp : Spelling} {items : List Item} {R : Resolver}

theorem both {ty : RType} {t : Ty} (hne : ∀ r, ty ≠ .reference r)
    (h : ∀ x, Gives sp items x ty → Stands items x t) :
    (∀ x, Gives sp items x ty → Stands items x t) ∧ (∀ x, Names sp items x ty → Stands items x t) := by
  refine ⟨h, fun x hn => ?_⟩
  rcases hn with ⟨r, e, _⟩ | ⟨_, hg⟩
  · exact absurd e (hne r)
  · exact h x hg

mutual

theorem means_stands (htop : ∀ r ty, get R.resolved r = some (.type ty) → Gives sp items (typeIdent r) ty)
    {ty : RType} {t : Ty} (h : Means R ty t) :
    (∀ x, Gives sp items x ty → Stands items x t) ∧ (∀ x, Names sp items x ty → Stands items x t) := by
  match h with
  | .base hb =>
      refine both nofun fun x hg => ?_
      obtain ⟨u, hu, hm⟩ := hg.base
      rw [hb] at hu
      cases hu
      exact .newtype hm
  | .reference hr hm =>
      have ih := (means_stands htop hm).1 _ (htop _ _ hr)
      refine ⟨fun x hg => .alias hg.reference ih, fun x hn => ?_⟩
      rcases hn with ⟨r, e, rfl⟩ | ⟨hne, _⟩
      · cases e; exact ih
      · exact absurd rfl (hne _)
  | .sequence hf =>
      refine both nofun fun x hg => ?_
      obtain ⟨n, fs, hm, hfor⟩ := hg.sequence
      have := means_fields htop hf hfor
      have hs := Stands.struct hm this.1
      rw [optionalAttr_getD, ← this.2] at hs
      exact hs
  | .sequenceOf he =>
      refine both nofun fun x hg => ?_
      obtain ⟨y, hm, hn⟩ := hg.sequenceOf
      exact .vec hm ((means_stands htop he).2 y hn)
  | .choice ha =>
      refine both nofun fun x hg => ?_
      obtain ⟨c, cs, vs, e, hm, hv⟩ := hg.choice
      cases e
      have := means_alts htop ha hv (ws := []) .nil
      rw [List.append_nil] at this
      exact .choice hm this
  | .choiceExt hb ha =>
      refine both nofun fun x hg => ?_
      obtain ⟨c, cs, vs, ws, e, hm, hv, hw⟩ := hg.choiceExt
      cases e
      have h1 := means_alts htop hb hw (ws := []) .nil
      rw [List.append_nil] at h1
      exact .choice hm (means_alts htop ha hv h1)
  | .set ho =>
      exact both nofun fun x hg => .openEnum hg.set (means_open htop ho)

theorem means_fields (htop : ∀ r ty, get R.resolved r = some (.type ty) → Gives sp items (typeIdent r) ty)
    {i : Nat} {cs : List RSeqComponent} {n : Nat} {ts : Fields} (h : MeansFields R i cs n ts) {m : Nat}
    {fs : List FieldItem} (hf : FieldsFor sp items i cs m fs) : StandsFields items fs ts ∧ n = m := by
  match h with
  | .nil => obtain ⟨rfl, rfl⟩ := hf; exact ⟨.nil, rfl⟩
  | .required hm hr =>
      obtain ⟨y, rest, rfl, hn, hf⟩ := hf
      have := means_fields htop hr hf
      exact ⟨.required ((means_stands htop hm).2 y hn) this.1, this.2⟩
  | .optional hm hr =>
      obtain ⟨y, rest, rfl, hn, hf⟩ := hf
      have := means_fields htop hr hf
      exact ⟨.optional ((means_stands htop hm).2 y hn) this.1, this.2⟩

theorem means_alts (htop : ∀ r ty, get R.resolved r = some (.type ty) → Gives sp items (typeIdent r) ty)
    {x : Bool} {i : Nat} {cs : List RComponent} {bs as : Alts} (h : MeansAlts R x i cs bs as)
    {vs ws : List VariantItem} (hv : VariantsFor sp items x i cs vs) (hw : StandsAlts items ws bs) :
    StandsAlts items (vs ++ ws) as := by
  match h with
  | .nil => cases hv; exact hw
  | .cons hm hr =>
      obtain ⟨y, rest, rfl, hn, hv⟩ := hv
      exact .cons ((means_stands htop hm).2 y hn) (means_alts htop hr hv hw)

theorem means_open (htop : ∀ r ty, get R.resolved r = some (.type ty) → Gives sp items (typeIdent r) ty)
    {types : List (Text × Text × Text)} {as : Alts} (h : MeansOpen R types as) :
    StandsOpen items (openItems types) as := by
  match h with
  | .nil => exact .nil
  | .cons hm hr => exact .cons ((means_stands htop hm).2 _ (.inl ⟨_, rfl, rfl⟩)) (means_open htop hr)

end
end

/-! ## And nothing else -/

theorem unique_item {items : List Item} (hd : DistinctNames items) {a b : Item} (ha : a ∈ items)
    (hb : b ∈ items) (h : a.ident = b.ident) : a = b := by
  unfold DistinctNames at hd
  induction items with
  | nil => cases ha
  | cons c l ih =>
    rw [List.map_cons, List.nodup_cons] at hd
    rcases List.mem_cons.mp ha with rfl | ha' <;> rcases List.mem_cons.mp hb with rfl | hb'
    · rfl
    · exact absurd (h ▸ List.mem_map_of_mem hb') hd.1
    · exact absurd (h ▸ List.mem_map_of_mem ha') hd.1
    · exact ih hd.2 ha' hb'

section
variable {sp : Spelling} {items : List Item} {R : Resolver}

/-- The steps of the converse. -/
theorem names_means (htop : ∀ r ty, get R.resolved r = some (.type ty) → Gives sp items (typeIdent r) ty)
    (hc : Closed R) {x : Text} {t : Ty}
    (ih : ∀ ty, (∀ r ∈ ty.names, IsType R r) → Gives sp items x ty → Means R ty t)
    {ty : RType} (hn : ∀ r ∈ ty.names, IsType R r) (hx : Names sp items x ty) : Means R ty t := by
  rcases hx with ⟨r, rfl, rfl⟩ | ⟨_, hg⟩
  · obtain ⟨ty, hr⟩ := hn r (by rw [RType.names]; exact List.mem_singleton.mpr rfl)
    exact .reference hr (ih ty (fun q hq => hc _ _ hr q hq) (htop _ _ hr))
  · exact ih ty hn hg

/-- What is known about the variants of a CHOICE in the induction. -/
inductive EachMeans (sp : Spelling) (items : List Item) (R : Resolver) : List VariantItem → Alts → Prop
  | nil : EachMeans sp items R [] .nil
  | cons {id y k x vs t as} (ih : ∀ ty, (∀ r ∈ ty.names, IsType R r) → Gives sp items y ty → Means R ty t) :
      EachMeans sp items R vs as → EachMeans sp items R (⟨id, y, k, x⟩ :: vs) (.cons k x t as)

theorem EachMeans.split
    (htop : ∀ r ty, get R.resolved r = some (.type ty) → Gives sp items (typeIdent r) ty)
    (hc : Closed R) {x : Bool} {ws : List VariantItem} {cs : List RComponent} :
    ∀ {vs : List VariantItem} {as : Alts} {i : Nat}, EachMeans sp items R (vs ++ ws) as →
    (∀ r ∈ rcomponentsNames cs, IsType R r) → VariantsFor sp items x i cs vs →
    ∃ bs, EachMeans sp items R ws bs ∧ MeansAlts R x i cs bs as := by
  induction cs with
  | nil => intro vs as i h _ hv; cases hv; exact ⟨as, h, .nil⟩
  | cons c cs ih =>
    intro vs as i h hn hv
    obtain ⟨id, ty⟩ := c
    obtain ⟨y, rest, rfl, hy, hv⟩ := hv
    rw [rcomponentsNames] at hn
    cases h with
    | cons hi hr =>
      obtain ⟨bs, h1, h2⟩ := ih hr (fun r h => hn r (List.mem_append_right _ h)) hv
      exact ⟨bs, h1, .cons (names_means htop hc hi (fun r h => hn r (List.mem_append_left _ h)) hy) h2⟩

mutual

theorem stands_means (htop : ∀ r ty, get R.resolved r = some (.type ty) → Gives sp items (typeIdent r) ty)
    (hc : Closed R) (hd : DistinctNames items) {x : Text} {t : Ty} (h : Stands items x t) (ty : RType)
    (hn : ∀ r ∈ ty.names, IsType R r) (hg : Gives sp items x ty) : Means R ty t := by
  match h with
  | .newtype hm =>
      match ty with
      | .base b =>
          obtain ⟨u, hu, hi⟩ := hg.base
          cases unique_item hd hm hi rfl
          exact .base hu
      | .reference r => cases unique_item hd hm hg.reference rfl
      | .set s ts => cases unique_item hd hm hg.set rfl
      | .sequenceOf e s => obtain ⟨y, hi, _⟩ := hg.sequenceOf; cases unique_item hd hm hi rfl
      | .sequence e cs => obtain ⟨n, fs, hi, _⟩ := hg.sequence; cases unique_item hd hm hi rfl
      | .choice r none => obtain ⟨_, _, _, _, hi, _⟩ := hg.choice; cases unique_item hd hm hi rfl
      | .choice r (some a) => obtain ⟨_, _, _, _, _, hi, _⟩ := hg.choiceExt; cases unique_item hd hm hi rfl
  | .alias hm hs =>
      have ih := stands_means htop hc hd hs
      match ty with
      | .base b => obtain ⟨u, hu, hi⟩ := hg.base; cases unique_item hd hm hi rfl
      | .reference r =>
          cases unique_item hd hm hg.reference rfl
          exact names_means htop hc ih hn (.inl ⟨r, rfl, rfl⟩)
      | .set s ts => cases unique_item hd hm hg.set rfl
      | .sequenceOf e s => obtain ⟨y, hi, _⟩ := hg.sequenceOf; cases unique_item hd hm hi rfl
      | .sequence e cs => obtain ⟨n, fs, hi, _⟩ := hg.sequence; cases unique_item hd hm hi rfl
      | .choice r none => obtain ⟨_, _, _, _, hi, _⟩ := hg.choice; cases unique_item hd hm hi rfl
      | .choice r (some a) => obtain ⟨_, _, _, _, _, hi, _⟩ := hg.choiceExt; cases unique_item hd hm hi rfl
  | .struct hm hs =>
      have ih := fun cs n (hn : ∀ r ∈ rseqNames cs, IsType R r) (hf : FieldsFor sp items 0 cs n _) =>
        stands_fields htop hc hd hs hn hf
      match ty with
      | .base b => obtain ⟨u, hu, hi⟩ := hg.base; cases unique_item hd hm hi rfl
      | .reference r => cases unique_item hd hm hg.reference rfl
      | .set s ts => cases unique_item hd hm hg.set rfl
      | .sequenceOf e s => obtain ⟨y, hi, _⟩ := hg.sequenceOf; cases unique_item hd hm hi rfl
      | .sequence e cs =>
          obtain ⟨n, fs, hi, hf⟩ := hg.sequence
          cases unique_item hd hm hi rfl
          rw [optionalAttr_getD]
          rw [RType.names] at hn
          exact .sequence (ih _ _ hn hf)
      | .choice r none => obtain ⟨_, _, _, _, hi, _⟩ := hg.choice; cases unique_item hd hm hi rfl
      | .choice r (some a) => obtain ⟨_, _, _, _, _, hi, _⟩ := hg.choiceExt; cases unique_item hd hm hi rfl
  | .vec hm hs =>
      have ih := stands_means htop hc hd hs
      match ty with
      | .base b => obtain ⟨u, hu, hi⟩ := hg.base; cases unique_item hd hm hi rfl
      | .reference r => cases unique_item hd hm hg.reference rfl
      | .set s ts => cases unique_item hd hm hg.set rfl
      | .sequenceOf e s =>
          obtain ⟨y, hi, hy⟩ := hg.sequenceOf
          cases unique_item hd hm hi rfl
          rw [RType.names] at hn
          exact .sequenceOf (names_means htop hc ih hn hy)
      | .sequence e cs => obtain ⟨n, fs, hi, _⟩ := hg.sequence; cases unique_item hd hm hi rfl
      | .choice r none => obtain ⟨_, _, _, _, hi, _⟩ := hg.choice; cases unique_item hd hm hi rfl
      | .choice r (some a) => obtain ⟨_, _, _, _, _, hi, _⟩ := hg.choiceExt; cases unique_item hd hm hi rfl
  | .choice hm hs =>
      have he := stands_alts htop hc hd hs
      match ty with
      | .base b => obtain ⟨u, hu, hi⟩ := hg.base; cases unique_item hd hm hi rfl
      | .reference r => cases unique_item hd hm hg.reference rfl
      | .set s ts => cases unique_item hd hm hg.set rfl
      | .sequenceOf e s => obtain ⟨y, hi, _⟩ := hg.sequenceOf; cases unique_item hd hm hi rfl
      | .sequence e cs => obtain ⟨n, fs, hi, _⟩ := hg.sequence; cases unique_item hd hm hi rfl
      | .choice r none =>
          obtain ⟨c, cs, vs, rfl, hi, hv⟩ := hg.choice
          cases unique_item hd hm hi rfl
          rw [RType.names] at hn
          obtain ⟨bs, hb, ha⟩ := EachMeans.split (ws := []) htop hc (by rw [List.append_nil]; exact he) hn hv
          cases hb
          exact .choice ha
      | .choice r (some a) =>
          obtain ⟨c, cs, vs, ws, rfl, hi, hv, hw⟩ := hg.choiceExt
          cases unique_item hd hm hi rfl
          rw [RType.names] at hn
          obtain ⟨bs, hb, ha⟩ := he.split htop hc
            (fun r h => hn r (List.mem_append_left _ h)) hv
          rw [← List.append_nil ws] at hb
          obtain ⟨ds, hd, hb⟩ := hb.split htop hc (fun r h => hn r (List.mem_append_right _ h)) hw
          cases hd
          exact .choiceExt hb ha
  | .openEnum hm hs =>
      have ih := fun (ts : List (Text × Text × Text)) (hn : ∀ r ∈ ts.map fun e => e.2.2, IsType R r) hv =>
        stands_open htop hc hd hs hn hv
      match ty with
      | .base b => obtain ⟨u, hu, hi⟩ := hg.base; cases unique_item hd hm hi rfl
      | .reference r => cases unique_item hd hm hg.reference rfl
      | .set s ts =>
          cases unique_item hd hm hg.set rfl
          rw [RType.names] at hn
          exact .set (ih _ hn rfl)
      | .sequenceOf e s => obtain ⟨y, hi, _⟩ := hg.sequenceOf; cases unique_item hd hm hi rfl
      | .sequence e cs => obtain ⟨n, fs, hi, _⟩ := hg.sequence; cases unique_item hd hm hi rfl
      | .choice r none => obtain ⟨_, _, _, _, hi, _⟩ := hg.choice; cases unique_item hd hm hi rfl
      | .choice r (some a) => obtain ⟨_, _, _, _, _, hi, _⟩ := hg.choiceExt; cases unique_item hd hm hi rfl

theorem stands_fields (htop : ∀ r ty, get R.resolved r = some (.type ty) → Gives sp items (typeIdent r) ty)
    (hc : Closed R) (hd : DistinctNames items) {fs : List FieldItem} {ts : Fields}
    (h : StandsFields items fs ts) {i n : Nat} {cs : List RSeqComponent}
    (hn : ∀ r ∈ rseqNames cs, IsType R r) (hf : FieldsFor sp items i cs n fs) : MeansFields R i cs n ts := by
  match h with
  | .nil =>
      match cs with
      | [] => obtain ⟨_, rfl⟩ := hf; exact .nil
      | .mk .. :: _ => obtain ⟨_, _, e, _⟩ := hf; cases e
  | .required hs hr =>
      have ih := stands_means htop hc hd hs
      have ihr := fun i n cs (hn : ∀ r ∈ rseqNames cs, IsType R r) (hf : FieldsFor sp items i cs n _) =>
        stands_fields htop hc hd hr hn hf
      match cs with
      | [] => obtain ⟨e, _⟩ := hf; cases e
      | .mk id ty opt key :: cs =>
          obtain ⟨y, rest, e, hy, hf⟩ := hf
          rw [rseqNames] at hn
          cases opt with
          | true => cases e
          | false =>
            cases e
            exact .required
              (names_means htop hc ih (fun r h => hn r (List.mem_append_left _ h)) hy)
              (ihr _ _ _ (fun r h => hn r (List.mem_append_right _ h)) hf)
  | .optional hs hr =>
      have ih := stands_means htop hc hd hs
      have ihr := fun i n cs (hn : ∀ r ∈ rseqNames cs, IsType R r) (hf : FieldsFor sp items i cs n _) =>
        stands_fields htop hc hd hr hn hf
      match cs with
      | [] => obtain ⟨e, _⟩ := hf; cases e
      | .mk id ty opt key :: cs =>
          obtain ⟨y, rest, e, hy, hf⟩ := hf
          rw [rseqNames] at hn
          cases opt with
          | false => cases e
          | true =>
            cases e
            exact .optional
              (names_means htop hc ih (fun r h => hn r (List.mem_append_left _ h)) hy)
              (ihr _ _ _ (fun r h => hn r (List.mem_append_right _ h)) hf)

theorem stands_alts (htop : ∀ r ty, get R.resolved r = some (.type ty) → Gives sp items (typeIdent r) ty)
    (hc : Closed R) (hd : DistinctNames items) {vs : List VariantItem} {as : Alts}
    (h : StandsAlts items vs as) : EachMeans sp items R vs as := by
  match h with
  | .nil => exact .nil
  | .cons hs hr => exact .cons (stands_means htop hc hd hs) (stands_alts htop hc hd hr)

theorem stands_open (htop : ∀ r ty, get R.resolved r = some (.type ty) → Gives sp items (typeIdent r) ty)
    (hc : Closed R) (hd : DistinctNames items) {vs : List OpenItem} {as : Alts}
    (h : StandsOpen items vs as) {types : List (Text × Text × Text)}
    (hn : ∀ r ∈ types.map fun e => e.2.2, IsType R r) (hv : vs = openItems types) :
    MeansOpen R types as := by
  match h with
  | .nil =>
      match types with
      | [] => exact .nil
      | e :: ts => cases hv
  | .cons hs hr =>
      have ih := stands_means htop hc hd hs
      have ihr := fun (ts : List (Text × Text × Text)) (hn : ∀ r ∈ ts.map fun e => e.2.2, IsType R r) hv =>
        stands_open htop hc hd hr hn hv
      match types with
      | [] => cases hv
      | (name, num, r) :: ts =>
          cases hv
          exact .cons (names_means htop hc ih
              (fun q hq => hn q (by
                rw [RType.names, List.mem_singleton] at hq
                subst hq
                exact List.mem_cons_self))
              (.inl ⟨r, rfl, rfl⟩))
            (ihr _ (fun q hq => hn q (List.mem_cons_of_mem _ hq)) rfl)

end
end

end Hampi.Compiler
