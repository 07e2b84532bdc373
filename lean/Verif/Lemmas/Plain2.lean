import Verif.Lemmas.Plain
import Verif.Props.Classes
/-! # Lemmas about resolving a schema in which every definition has a meaning -/
namespace Hampi.Compiler
open Hampi.Compiler.Spec
open Hampi.Spec (Numeral)

/-! ## More resolved definitions do not change a meaning -/

/-- Everything known stays as it is. -/
structure Grows (R R' : Resolver) : Prop where
  resolved : ∀ k d, get R.resolved k = some d → get R'.resolved k = some d
  params : ∀ k d, get R.params k = some d → get R'.params k = some d
  classes : ∀ k d, get R.classes k = some d → get R'.classes k = some d

theorem Grows.refl (R : Resolver) : Grows R R := ⟨fun _ _ h => h, fun _ _ h => h, fun _ _ h => h⟩

theorem Grows.trans {R S T : Resolver} (h : Grows R S) (h' : Grows S T) : Grows R T :=
  ⟨fun k d hk => h'.resolved k d (h.resolved k d hk), fun k d hk => h'.params k d (h.params k d hk),
    fun k d hk => h'.classes k d (h.classes k d hk)⟩

section
variable {R R' : Resolver}

mutual

theorem means_grows (hg : Grows R R') {ty : RType} {t : Ty} (h : Means R ty t) : Means R' ty t := by
  match h with
  | .base hb => exact .base hb
  | .reference hr hm => exact .reference (hg.resolved _ _ hr) (means_grows hg hm)
  | .sequence hf => exact .sequence (meansFields_grows hg hf)
  | .sequenceOf he => exact .sequenceOf (means_grows hg he)
  | .choice ha => exact .choice (meansAlts_grows hg ha)
  | .choiceExt hb ha => exact .choiceExt (meansAlts_grows hg hb) (meansAlts_grows hg ha)
  | .set ho => exact .set (meansOpen_grows hg ho)
termination_by structural h

theorem meansFields_grows (hg : Grows R R') {i : Nat} {cs : List RSeqComponent} {n : Nat} {fs : Fields}
    (h : MeansFields R i cs n fs) : MeansFields R' i cs n fs := by
  match h with
  | .nil => exact .nil
  | .required hm hr => exact .required (means_grows hg hm) (meansFields_grows hg hr)
  | .optional hm hr => exact .optional (means_grows hg hm) (meansFields_grows hg hr)
termination_by structural h

theorem meansAlts_grows (hg : Grows R R') {x : Bool} {i : Nat} {cs : List RComponent} {rest as : Alts}
    (h : MeansAlts R x i cs rest as) : MeansAlts R' x i cs rest as := by
  match h with
  | .nil => exact .nil
  | .cons hm hr => exact .cons (means_grows hg hm) (meansAlts_grows hg hr)
termination_by structural h

theorem meansOpen_grows (hg : Grows R R') {types : List (Text × Text × Text)} {as : Alts}
    (h : MeansOpen R types as) : MeansOpen R' types as := by
  match h with
  | .nil => exact .nil
  | .cons hm hr => exact .cons (means_grows hg hm) (meansOpen_grows hg hr)
termination_by structural h

end
end

/-! ## What a type needs -/

section
variable {ms : List Module}

theorem bare_refs {k : Kind} {cs : Option (List Constraint)} (h : Bare cs) :
    (AsnType.mk k cs).refs = k.refs := by
  rcases h with rfl | rfl
  · rw [AsnType.refs]
  · rw [AsnType.refs, constraintsRefs, List.append_nil]

theorem Spec.DefinesInteger.refs {a : Assignment} {v : Int} (h : DefinesInteger a v) : a.refs = [] := by
  obtain ⟨named, cs, num, rfl, hb, _⟩ := h
  rw [Assignment.refs, bare_refs hb, Kind.refs] <;> simp

/-- The names in a size constraint. -/
theorem sizeRefs (e : ElementSet) : constraintsRefs [.subtype (.mk [[.size e]] none)] = e.refs := by
  simp [constraintsRefs, Constraint.refs, ElementSet.refs, unionRefs, interRefs, Elements.refs]

/-- The texts in a constraint that are not numerals are values in scope. -/
theorem unionRefs_named {ns : Hampi.Spec.Names} (hn : ∀ x v, ns.int x = some v → IsName x) :
    {l : List (List Elements)} → Hampi.Spec.SimpleUnion l → Hampi.Spec.SmallUnion ns l → ∀ r ∈ unionRefs l,
    ∃ v, ns.int r = some v
  | [], _, _ => by simp [unionRefs]
  | i :: is, hs, hsm => by
      intro r hr
      rw [unionRefs] at hr
      rcases List.mem_append.mp hr with hr | hr
      · have hp : ∀ t, Hampi.Spec.Small ns t → (parseI128 t).isSome = false → ∃ v, ns.int t = some v := by
          rintro t ⟨v, hd | hd, h1, h2⟩ h
          · rw [parseI128_complete hd ⟨by omega, by omega⟩] at h; cases h
          · exact ⟨v, hd⟩
        have hq : ∀ t, Hampi.Spec.Small ns t → r ∈ valueRef t → ∃ v, ns.int r = some v := by
          intro t ht h
          unfold valueRef at h
          split at h
          · cases h
          · rename_i hne
            obtain ⟨v, hv⟩ := hp t ht (by simpa using hne)
            rw [(hn t v hv).blank, List.mem_singleton] at h
            exact ⟨v, h ▸ hv⟩
        rcases hs i List.mem_cons_self with ⟨t, rfl⟩ | ⟨lo, li, hi', hj, rfl⟩
        · rw [interRefs, interRefs, List.append_nil, Elements.refs] at hr
          split at hr
          · cases hr
          · rename_i hne
            obtain ⟨v, hv⟩ := hp t hsm.1.1 (by simpa using hne)
            rw [(hn t v hv).braces, List.mem_singleton] at hr
            exact ⟨v, hr ▸ hv⟩
        · rw [interRefs, interRefs, List.append_nil, Elements.refs] at hr
          rcases List.mem_append.mp hr with hr | hr
          · exact hq lo hsm.1.1.1 hr
          · exact hq hi' hsm.1.1.2 hr
      · exact unionRefs_named hn (fun j hj => hs j (List.mem_cons_of_mem _ hj)) hsm.2 r hr

theorem Spec.Bounded.named {ns : Hampi.Spec.Names} {e : ElementSet} {lb ub : Int} {ext : Bool}
    (h : Bounded ns e lb ub ext) (hn : ∀ x v, ns.int x = some v → IsName x) :
    ∀ r ∈ e.refs, ∃ v, ns.int r = some v := by
  cases h with
  | @mk root add _ _ hk hi ha hsm =>
    have hs : Hampi.Spec.SimpleUnion root := by
      rcases hk with hk | hk
      · exact fun i hi => Or.inl (hk i hi)
      · exact fun i hi => Or.inr (hk i hi)
    cases add with
    | none => rw [ElementSet.refs]; exact unionRefs_named hn hs hsm
    | some a =>
      rw [ElementSet.refs]
      intro r hr
      rcases List.mem_append.mp hr with hr | hr
      · exact unionRefs_named hn hs hsm.1 r hr
      · exact unionRefs_named hn (ha a rfl) hsm.2 r hr

theorem Spec.Sized.named {ns : Hampi.Spec.Names} {cs : Option (List Constraint)} {lb ub : Option Int} {ext : Bool}
    (h : Sized ns cs lb ub ext) (hn : ∀ x v, ns.int x = some v → IsName x) {k : Kind} (hk : k.refs = []) :
    ∀ r ∈ (AsnType.mk k cs).refs, ∃ v, ns.int r = some v := by
  cases h with
  | any hb => rw [bare_refs hb, hk]; simp
  | size hb _ => rw [AsnType.refs, hk, List.nil_append, sizeRefs]; exact hb.named hn

theorem componentsRefs_append (a b : List Component) :
    componentsRefs (a ++ b) = componentsRefs a ++ componentsRefs b := by
  induction a with
  | nil => simp [componentsRefs]
  | cons c cs ih =>
    obtain ⟨id, ty⟩ := c
    rw [List.cons_append, componentsRefs, componentsRefs, ih, List.append_assoc]

theorem choiceGroupsRefs_eq (gs : List ChoiceGroup) :
    choiceGroupsRefs gs = componentsRefs (groupComponents gs) := by
  unfold groupComponents
  induction gs with
  | nil => simp [choiceGroupsRefs, componentsRefs]
  | cons g gs ih =>
    obtain ⟨v, cs⟩ := g
    rw [choiceGroupsRefs, List.flatMap_cons, componentsRefs_append, ih]

/-! ## Every definition is in the order -/

theorem same_definition (h : ProperSchema ms) {M N : Module} (hM : M ∈ ms) (hN : N ∈ ms) {x : Text} {d e : Definition}
    (hd : (x, d) ∈ M.definitions) (he : (x, e) ∈ N.definitions) : M = N ∧ d = e := by
  have hname := h.distinct M hM N hN x d e hd he
  have hMN : M = N := by
    have e1 := Props.getModule_of_mem h.modules hM
    rw [hname, Props.getModule_of_mem h.modules hN] at e1
    exact (Option.some.inj e1).symm
  subst hMN
  refine ⟨rfl, ?_⟩
  have e1 := get_of_mem (h.definitions M hM) hd
  rw [get_of_mem (h.definitions M hM) he] at e1
  exact (Option.some.inj e1).symm

theorem order_all (h : ProperSchema ms) {M : Module} (hM : M ∈ ms) {order : List Text}
    (hs : Sorted (needsOf M.imports M.definitions) order) :
    ∀ x d, (x, d) ∈ M.definitions → x ∈ order := by
  obtain ⟨rank, hrank⟩ := h.acyclic M hM
  have hneeds : ∀ a b, Needs (needsOf M.imports M.definitions) a b →
      (∃ d, (a, d) ∈ M.definitions) ∧ ((∃ d, (b, d) ∈ M.definitions) → rank b < rank a) := by
    rintro a b ⟨rs, hrs, hb⟩
    obtain ⟨⟨x, d⟩, hd, he⟩ := List.mem_map.mp hrs
    cases he
    exact ⟨⟨d, hd⟩, fun ⟨e, he⟩ => hrank _ hd _ he (List.mem_filter.mp hb).1⟩
  have hreach : ∀ a b, Reaches (needsOf M.imports M.definitions) a b →
      (∃ d, (a, d) ∈ M.definitions) ∧ ((∃ d, (b, d) ∈ M.definitions) → rank b < rank a) := by
    intro a b hr
    induction hr with
    | one hn => exact hneeds _ _ hn
    | more hn _ ih =>
      exact ⟨(hneeds _ _ hn).1, fun hb => Nat.lt_trans (ih.2 hb) ((hneeds _ _ hn).2 ih.1)⟩
  intro x d hd
  refine (hs.mem_iff (.inl ⟨_, List.mem_map.mpr ⟨_, hd, rfl⟩⟩)).mpr ?_
  rintro (hc | ⟨c, _, hc⟩)
  · exact Nat.lt_irrefl _ ((hreach _ _ hc).2 ⟨d, hd⟩)
  · exact Nat.lt_irrefl _ ((hreach _ _ hc).2 (hreach _ _ hc).1)

end
end Hampi.Compiler
