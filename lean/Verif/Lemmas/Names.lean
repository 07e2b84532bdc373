import Verif.Spec.Names
import Verif.Lemmas.Render
import Verif.Props.Names
/-!
# Which names the items have
-/
namespace Hampi.Compiler
open Hampi.Derive _root_.Hampi.Compiler.Spec
open Props (genItem_ident)

/-- Numbered names, with the numbers in a range. -/
inductive Numbered : Nat → List Text → Nat → Prop
  | nil {m} : Numbered m [] m
  | cons {m k} {b : RBase} {l} : Numbered m l k →
      Numbered m (typeIdent (b.label ++ ' ' :: (toString (k + 1)).toList) :: l) (k + 1)

theorem Numbered.append {l : Nat} {xs ys : List Text} {m n : Nat} (h1 : Numbered l xs m) (h2 : Numbered m ys n) :
    Numbered l (ys ++ xs) n := by
  induction h2 with
  | nil => exact h1
  | cons _ ih => exact .cons ih

/-- From `g` to `g'` the items of these names, and numbered ones, were added. -/
def AddsItems (g : Gen) (names : List Text) (g' : Gen) : Prop :=
  ∃ us, Numbered g.counter us g'.counter ∧
    (g'.aux.map Item.ident).Perm (g.aux.map Item.ident ++ (names.map typeIdent ++ us))

theorem AddsItems.refl (g : Gen) : AddsItems g [] g := ⟨[], .nil, by simp⟩

theorem AddsItems.trans {g g' g'' : Gen} {l m : List Text} (h1 : AddsItems g l g') (h2 : AddsItems g' m g'') : AddsItems g (l ++ m) g'' := by
  obtain ⟨us, hu, p1⟩ := h1
  obtain ⟨vs, hv, p2⟩ := h2
  refine ⟨vs ++ us, hu.append hv, p2.trans ((p1.append_right _).trans ?_)⟩
  rw [List.map_append, List.append_assoc]
  refine List.Perm.append_left _ ?_
  rw [List.append_assoc, List.append_assoc]
  refine List.Perm.append_left _ ?_
  exact (List.perm_append_comm).trans (by rw [List.append_assoc])

variable {sp : Spelling}

theorem withIdent_adds {ty : RType} {input : Text} {inner : List Text} {g : Gen} {y : Text} {g' : Gen}
    (hi : ∀ i g'', genItem sp input ty g = .ok (i, g'') → AddsItems g inner g'')
    (h : withIdent sp ty input (fun nm => genItem sp nm ty) g = .ok (y, g')) :
    AddsItems g (ownNames input ty inner) g' := by
  unfold withIdent at h
  split at h
  · cases h; exact .refl _
  · next b =>
    obtain ⟨i, hb, h⟩ := Out.bind_ok.mp h
    obtain ⟨t, _, hb⟩ := Out.bind_ok.mp hb
    cases hb; cases h
    exact ⟨[_], .cons (b := b) .nil, by simp [Gen.push, Gen.next, Item.ident, ownNames, Gen.uniqueName]⟩
  · next h1 h2 =>
    obtain ⟨p, hp, h⟩ := Out.bind_ok.mp h
    cases h
    have e : ownNames input ty inner = input :: inner := by
      cases ty <;> first | rfl | exact absurd rfl (h1 _) | exact absurd rfl (h2 _)
    rw [e]
    obtain ⟨us, hu, pp⟩ := hi _ _ hp
    refine ⟨us, hu, ?_⟩
    show (List.map Item.ident (p.2.aux ++ [p.1])).Perm _
    rw [List.map_append, List.map_cons, List.map_nil, genItem_ident hp, List.map_cons]
    refine (List.perm_append_comm).trans ?_
    refine ((pp.cons _).trans ?_)
    exact List.perm_middle.symm

mutual

theorem genItem_adds {ty : RType} : ∀ {name : Text} {g : Gen} {i : Item} {g' : Gen},
    genItem sp name ty g = .ok (i, g') → AddsItems g (innerNames name ty) g' := by
  intro name g i g' h
  match ty with
  | .base b =>
    rw [genItem] at h
    obtain ⟨_, _, h⟩ := Out.bind_ok.mp h
    cases h; exact .refl _
  | .reference r => rw [genItem] at h; cases h; exact .refl _
  | .set s types => rw [genItem] at h; cases h; exact .refl _
  | .sequenceOf ty size =>
    rw [genItem] at h
    obtain ⟨p, hp, h⟩ := Out.bind_ok.mp h
    cases h
    exact withIdent_adds (fun i g'' h => genItem_adds h) hp
  | .sequence ext cs =>
    rw [genItem] at h
    obtain ⟨p, hp, h⟩ := Out.bind_ok.mp h
    cases h
    exact genFields_adds hp
  | .choice root none =>
    rw [genItem] at h
    obtain ⟨p, hp, h⟩ := Out.bind_ok.mp h
    split at h
    · cases h
    · cases h; exact genVariants_adds hp
  | .choice root (some adds) =>
    rw [genItem] at h
    obtain ⟨p, hp, h⟩ := Out.bind_ok.mp h
    obtain ⟨q, hq, h⟩ := Out.bind_ok.mp h
    split at h
    · cases h
    · cases h; exact (genVariants_adds hp).trans (genVariants_adds hq)
termination_by structural ty

theorem genFields_adds {cs : List RSeqComponent} : ∀ {name : Text} {n : Nat} {g : Gen} {r : List FieldItem × Nat}
    {g' : Gen}, genFields sp name n cs g = .ok (r, g') → AddsItems g (fieldNames name cs) g' := by
  intro name n g r g' h
  match cs with
  | [] => rw [genFields] at h; cases h; exact .refl _
  | .mk id ty opt key :: cs =>
    rw [genFields] at h
    obtain ⟨p, hp, h⟩ := Out.bind_ok.mp h
    obtain ⟨q, hq, h⟩ := Out.bind_ok.mp h
    cases h
    exact (withIdent_adds (fun i g'' h => genItem_adds h) hp).trans (genFields_adds hq)
termination_by structural cs

theorem genVariants_adds {cs : List RComponent} : ∀ {name : Text} {x : Bool} {n : Nat} {g : Gen} {r : List VariantItem}
    {g' : Gen}, genVariants sp name x n cs g = .ok (r, g') → AddsItems g (alternativeNames name cs) g' := by
  intro name x n g r g' h
  match cs with
  | [] => rw [genVariants] at h; cases h; exact .refl _
  | .mk id ty :: cs =>
    rw [genVariants] at h
    obtain ⟨p, hp, h⟩ := Out.bind_ok.mp h
    obtain ⟨q, hq, h⟩ := Out.bind_ok.mp h
    cases h
    exact (withIdent_adds (fun i g'' h => genItem_adds h) hp).trans (genVariants_adds hq)
termination_by structural cs

end

theorem genAll_adds : ∀ {ts : List (Text × RType)} {g : Gen} {p : List Item × Gen}, genAll sp ts g = .ok p →
    AddsItems g (ts.flatMap fun e => innerNames e.1 e.2) p.2
  | [], g, p, h => by cases h; exact .refl _
  | (k, t) :: ts, g, p, h => by
      rw [genAll] at h
      obtain ⟨q, hq, h⟩ := Out.bind_ok.mp h
      obtain ⟨r, hr, h⟩ := Out.bind_ok.mp h
      cases h
      rw [List.flatMap_cons]
      exact (genItem_adds hq).trans (genAll_adds (p := r) hr)

/-- The names of all items. -/
theorem generate_names {R : Resolver} {items : List Item} (h : generate sp R = .ok items) :
    ∃ us n, Numbered 1 us n ∧
      (items.map Item.ident).Perm ((allNames (resolvedTypes R.resolved)).map typeIdent ++ us) := by
  obtain ⟨p, hp, h⟩ := Out.bind_ok.mp h
  cases h
  obtain ⟨us, hu, pp⟩ := genAll_adds hp
  refine ⟨us, _, hu, ?_⟩
  rw [List.map_append, (Props.genAll_spec hp).1]
  refine (pp.append_left _).trans ?_
  rw [show Gen.new.aux = [] from rfl, List.map_nil, List.nil_append, ← List.append_assoc]
  refine List.Perm.append_right _ ?_
  rw [show (List.map (fun p => typeIdent p.1) (resolvedTypes R.resolved)) =
    List.map typeIdent ((resolvedTypes R.resolved).map (·.1)) by rw [List.map_map]; rfl, ← List.map_append]
  refine List.Perm.map _ ?_
  unfold allNames
  generalize resolvedTypes R.resolved = ts
  clear hp pp
  induction ts with
  | nil => exact .refl _
  | cons t ts ih =>
    rw [List.flatMap_cons, List.flatMap_cons, List.map_cons, List.cons_append, List.cons_append]
    refine List.Perm.cons _ ?_
    refine List.Perm.trans ?_ (ih.append_left _)
    rw [← List.append_assoc, ← List.append_assoc]
    exact List.perm_append_comm.append_right _

theorem Numbered.mem {l : Nat} {xs : List Text} {m : Nat} (h : Numbered l xs m) :
    ∀ x ∈ xs, ∃ (b : RBase) (n : Nat), n ≤ m ∧ x = typeIdent (b.label ++ ' ' :: (toString n).toList) := by
  induction h with
  | nil => exact nofun
  | @cons k b l _ ih =>
    intro x hx
    rcases List.mem_cons.mp hx with rfl | hx
    · exact ⟨b, k + 1, Nat.le_refl _, rfl⟩
    · obtain ⟨b, n, hn, e⟩ := ih x hx
      exact ⟨b, n, by omega, e⟩

theorem Numbered.nodup {l : Nat} {xs : List Text} {m : Nat} (h : Numbered l xs m) : xs.Nodup := by
  induction h with
  | nil => exact .nil
  | @cons k b l h ih =>
    refine List.nodup_cons.mpr ⟨fun hx => ?_, ih⟩
    obtain ⟨c, n, hn, e⟩ := h.mem _ hx
    have := Props.unnamed_inj e
    omega

/-- A numbered name is none of those that are used for something else. -/
theorem numbered_unused {x : Text} (h : NumberedName x) : ∀ s ∈ usedNames, x ≠ s.toList := by
  obtain ⟨b, n, rfl⟩ := h
  intro s hs e
  obtain ⟨a, h⟩ := Props.unnamed_eq b n
  have h1 : '_' ∈ s.toList := by
    rw [← e]
    show '_' ∈ Props.unnamed b n
    rw [h]
    simp
  clear h e
  revert hs h1
  revert s
  decide

/-! ## The members -/

/-- What rustc demands of the names inside an item. -/
def GoodItem : Item → Prop
  | .struct _ _ _ fs => (fs.map FieldItem.ident).Nodup ∧
      ∀ f ∈ fs, f.optionalIdx.isSome = true → f.ident ≠ "data".toList
  | .choice _ _ _ _ vs => (vs.map VariantItem.ident).Nodup
  | .openEnum _ _ vs => (vs.map OpenItem.ident).Nodup
  | _ => True

theorem withIdent_good {ty : RType} {input : Text} {g : Gen} {y : Text} {g' : Gen} (hg : ∀ a ∈ g.aux, GoodItem a)
    (hi : ∀ i g'', genItem sp input ty g = .ok (i, g'') → GoodItem i ∧ ∀ a ∈ g''.aux, GoodItem a)
    (h : withIdent sp ty input (fun nm => genItem sp nm ty) g = .ok (y, g')) : ∀ a ∈ g'.aux, GoodItem a := by
  unfold withIdent at h
  split at h
  · cases h; exact hg
  · obtain ⟨i, hb, h⟩ := Out.bind_ok.mp h
    obtain ⟨t, _, hb⟩ := Out.bind_ok.mp hb
    cases hb; cases h
    intro a ha
    rcases List.mem_append.mp ha with ha | ha
    · exact hg a ha
    · cases List.eq_of_mem_singleton ha
      exact trivial
  · obtain ⟨p, hp, h⟩ := Out.bind_ok.mp h
    cases h
    obtain ⟨h1, h2⟩ := hi _ _ hp
    intro a ha
    rcases List.mem_append.mp ha with ha | ha
    · exact h2 a ha
    · cases List.eq_of_mem_singleton ha
      exact h1

mutual

theorem genItem_good {ty : RType} : ∀ {name : Text} {g : Gen} {i : Item} {g' : Gen}, MembersDiffer sp ty →
    (∀ a ∈ g.aux, GoodItem a) → genItem sp name ty g = .ok (i, g') → GoodItem i ∧ ∀ a ∈ g'.aux, GoodItem a := by
  intro name g i g' hd hg h
  match ty with
  | .base b =>
    rw [genItem] at h
    obtain ⟨j, hj, h⟩ := Out.bind_ok.mp h
    obtain ⟨t, _, hj⟩ := Out.bind_ok.mp hj
    cases hj; cases h; exact ⟨trivial, hg⟩
  | .reference r => rw [genItem] at h; cases h; exact ⟨trivial, hg⟩
  | .set s types =>
    rw [genItem] at h; cases h
    rw [MembersDiffer] at hd
    refine ⟨?_, hg⟩
    show ((openItems types).map OpenItem.ident).Nodup
    rw [openItems, List.map_map]
    exact hd
  | .sequenceOf ty size =>
    rw [genItem] at h
    rw [MembersDiffer] at hd
    obtain ⟨p, hp, h⟩ := Out.bind_ok.mp h
    cases h
    exact ⟨trivial, withIdent_good hg (fun i g'' h => genItem_good hd hg h) hp⟩
  | .sequence ext cs =>
    rw [MembersDiffer] at hd
    obtain ⟨h1, h2, h3⟩ := hd
    obtain ⟨fs, e, _, h4⟩ := Props.C61_optional_indexes sp name ext cs g i g' h
    subst e
    rw [genItem] at h
    obtain ⟨p, hp, h⟩ := Out.bind_ok.mp h
    have hg' := genFields_good h3 hg hp
    injection h with h
    have e : p.2 = g' := congrArg Prod.snd h
    rw [e] at hg'
    refine ⟨⟨?_, fun f hf ho => ?_⟩, hg'⟩
    · have := congrArg (List.map fun p : Text × Bool × Bool => p.1) h4
      rw [List.map_map, List.map_map] at this
      have e : fs.map FieldItem.ident = cs.map fun | .mk id _ _ _ => valueIdent sp id :=
        Eq.trans this (List.map_congr_left fun c _ => by cases c; rfl)
      rw [e]
      exact h1
    · have : (f.ident, f.optionalIdx.isSome, f.keyField) ∈
          fs.map fun f => (f.ident, f.optionalIdx.isSome, f.keyField) := List.mem_map.mpr ⟨f, hf, rfl⟩
      rw [h4] at this
      obtain ⟨⟨id, ty, opt, key⟩, hc, e⟩ := List.mem_map.mp this
      have e1 : valueIdent sp id = f.ident := congrArg (·.1) e
      have e2 : opt = f.optionalIdx.isSome := congrArg (·.2.1) e
      rw [ho] at e2
      subst e2
      rw [← e1]
      exact h2 _ hc id ty key rfl
  | .choice root none =>
    rw [genItem] at h
    rw [MembersDiffer] at hd
    obtain ⟨p, hp, h⟩ := Out.bind_ok.mp h
    split at h
    · cases h
    · cases h
      refine ⟨?_, genVariants_good hd.2 hg hp⟩
      show (p.1.map VariantItem.ident).Nodup
      rw [(Props.genVariants_spec hp).2.2]
      exact hd.1
  | .choice root (some adds) =>
    rw [genItem] at h
    rw [MembersDiffer] at hd
    obtain ⟨p, hp, h⟩ := Out.bind_ok.mp h
    obtain ⟨q, hq, h⟩ := Out.bind_ok.mp h
    split at h
    · cases h
    · cases h
      refine ⟨?_, genVariants_good hd.2.2 (genVariants_good hd.2.1 hg hp) hq⟩
      show ((p.1 ++ q.1).map VariantItem.ident).Nodup
      rw [List.map_append, (Props.genVariants_spec hp).2.2, (Props.genVariants_spec hq).2.2, ← List.map_append]
      exact hd.1
termination_by structural ty

theorem genFields_good {cs : List RSeqComponent} : ∀ {name : Text} {n : Nat} {g : Gen} {p : (List FieldItem × Nat) × Gen},
    FieldsDiffer sp cs → (∀ a ∈ g.aux, GoodItem a) → genFields sp name n cs g = .ok p →
    ∀ a ∈ p.2.aux, GoodItem a := by
  intro name n g r hd hg h
  match cs with
  | [] => rw [genFields] at h; cases h; exact hg
  | .mk id ty opt key :: cs =>
    rw [genFields] at h
    rw [FieldsDiffer] at hd
    obtain ⟨p, hp, h⟩ := Out.bind_ok.mp h
    obtain ⟨q, hq, h⟩ := Out.bind_ok.mp h
    have h1 := withIdent_good hg (fun i g'' h => genItem_good hd.1 hg h) hp
    have h2 := genFields_good hd.2 h1 hq
    cases h
    exact h2
termination_by structural cs

theorem genVariants_good {cs : List RComponent} : ∀ {name : Text} {x : Bool} {n : Nat} {g : Gen}
    {p : List VariantItem × Gen}, AlternativesDiffer sp cs → (∀ a ∈ g.aux, GoodItem a) →
    genVariants sp name x n cs g = .ok p → ∀ a ∈ p.2.aux, GoodItem a := by
  intro name x n g r hd hg h
  match cs with
  | [] => rw [genVariants] at h; cases h; exact hg
  | .mk id ty :: cs =>
    rw [genVariants] at h
    rw [AlternativesDiffer] at hd
    obtain ⟨p, hp, h⟩ := Out.bind_ok.mp h
    obtain ⟨q, hq, h⟩ := Out.bind_ok.mp h
    have h1 := withIdent_good hg (fun i g'' h => genItem_good hd.1 hg h) hp
    have h2 := genVariants_good hd.2 h1 hq
    cases h
    exact h2
termination_by structural cs

end

theorem genAll_good : ∀ {ts : List (Text × RType)} {g : Gen} {p : List Item × Gen},
    (∀ e ∈ ts, MembersDiffer sp e.2) → (∀ a ∈ g.aux, GoodItem a) → genAll sp ts g = .ok p →
    (∀ a ∈ p.1, GoodItem a) ∧ ∀ a ∈ p.2.aux, GoodItem a
  | [], g, p, _, hg, h => by cases h; exact ⟨nofun, hg⟩
  | (k, t) :: ts, g, p, hd, hg, h => by
      rw [genAll] at h
      obtain ⟨q, hq, h⟩ := Out.bind_ok.mp h
      obtain ⟨r, hr, h⟩ := Out.bind_ok.mp h
      obtain ⟨h1, h2⟩ := genItem_good (hd _ List.mem_cons_self) hg hq
      obtain ⟨h3, h4⟩ := genAll_good (fun e he => hd e (List.mem_cons_of_mem _ he)) h2 hr
      cases h
      refine ⟨fun a ha => ?_, h4⟩
      rcases List.mem_cons.mp ha with rfl | ha
      · exact h1
      · exact h3 a ha

theorem rendersOpen_idents {vs : List OpenItem} {l : List VariantSyn} (h : RendersOpen vs l) :
    l.map VariantSyn.ident = vs.map OpenItem.ident := by
  induction h with
  | nil => rfl
  | cons _ ih => rw [List.map_cons, List.map_cons, ih]

/-- The names inside a good item. -/
theorem good_renders {item : Item} {i : Input} (hg : GoodItem item) (h : Renders item (.derived i)) :
    (∀ l, i.data = .named l → (l.map FieldSyn.ident).Nodup ∧
      ∀ f ∈ l, ∀ y, f.ty = .app "Option".toList y → f.ident ≠ "data".toList) ∧
    ∀ l, i.data = .enum l → (l.map VariantSyn.ident).Nodup := by
  cases h with
  | newtype h =>
    refine ⟨fun l hl => ?_, fun l hl => ?_⟩ <;> (cases h <;> cases hl)
  | unknownText => exact ⟨nofun, nofun⟩
  | @struct x ext n fs =>
    obtain ⟨h1, h2⟩ := hg
    refine ⟨fun l hl => ?_, nofun⟩
    cases hl
    refine ⟨?_, fun f hf y hy => ?_⟩
    · rw [List.map_map]
      exact h1
    · obtain ⟨f', hf', rfl⟩ := List.mem_map.mp hf
      refine h2 f' hf' ?_
      cases ho : f'.optionalIdx with
      | some _ => rfl
      | none => simp [fieldSyn, ho, RustTy.name, RustTy.app] at hy
  | vec => exact ⟨nofun, nofun⟩
  | @choice x lb ub ext vs =>
    refine ⟨nofun, fun l hl => ?_⟩
    cases hl
    rw [List.map_map]
    exact hg
  | @openEnum x vs l h =>
    refine ⟨nofun, fun l hl => ?_⟩
    cases hl
    rw [rendersOpen_idents h]
    exact hg
  | @plainEnum x vs l h =>
    refine ⟨nofun, fun l hl => ?_⟩
    cases hl
    rw [rendersOpen_idents h]
    exact hg

end Hampi.Compiler
