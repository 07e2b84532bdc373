import Verif.Spec.Mentions
import Verif.Lemmas.Plain
/-!
# The names a definition mentions, and the ones collected for the order
-/
namespace Hampi.Compiler.Ment
open _root_.Hampi.Compiler.Spec

/-! ## Texts -/

theorem dropWhile_split (p : Char → Bool) (t : Text) : ∃ a, t = a ++ t.dropWhile p ∧ (∀ c ∈ a, p c = true) ∧
    ∀ c, (t.dropWhile p).head? = some c → p c = false := by
  induction t with
  | nil => exact ⟨[], rfl, nofun, nofun⟩
  | cons x t ih =>
    rw [List.dropWhile_cons]
    by_cases h : p x = true
    · rw [if_pos h]
      obtain ⟨a, e, h1, h2⟩ := ih
      refine ⟨x :: a, by rw [List.cons_append, ← e], ?_, h2⟩
      intro c hc
      rcases List.mem_cons.mp hc with rfl | hc
      · exact h
      · exact h1 c hc
    · rw [if_neg h]
      refine ⟨[], rfl, nofun, ?_⟩
      intro c hc
      cases hc
      exact Bool.eq_false_iff.mpr h

theorem dropWhile_drop {p : Char → Bool} {a x : Text} (h : ∀ c ∈ a, p c = true)
    (hx : ∀ c, x.head? = some c → p c = false) : (a ++ x).dropWhile p = x := by
  induction a with
  | nil =>
    cases x with
    | nil => rfl
    | cons c x => rw [List.nil_append, List.dropWhile_cons, hx c rfl]; rfl
  | cons c a ih =>
    rw [List.cons_append, List.dropWhile_cons, h c (List.mem_cons_self ..)]
    exact ih fun d hd => h d (List.mem_cons_of_mem _ hd)

theorem around_iff {p : Char → Bool} {P : Char → Prop} (hp : ∀ c, p c = true ↔ P c) {t x : Text} :
    Around P t x ↔ trimMatches p t = x := by
  have hn : ∀ c, p c = false ↔ ¬ P c := fun c => by rw [← hp, Bool.not_eq_true]
  constructor
  · rintro ⟨a, b, rfl, ha, hb, hh, hl⟩
    unfold trimMatches
    cases x with
    | nil =>
      rw [List.nil_append]
      have : (a ++ b).dropWhile p = [] := by
        have h := dropWhile_drop (p := p) (a := a ++ b) (x := []) (fun c hc => (hp c).mpr <| by
          rcases List.mem_append.mp hc with hc | hc
          · exact ha c hc
          · exact hb c hc) nofun
        rwa [List.append_nil] at h
      rw [this]
      rfl
    | cons y x =>
      rw [dropWhile_drop (fun c hc => (hp c).mpr (ha c hc)) (x := (y :: x) ++ b) (fun c hc => (hn c).mpr (hh c hc)),
        List.reverse_append, dropWhile_drop (fun c hc => (hp c).mpr (hb c (List.mem_reverse.mp hc))), List.reverse_reverse]
      intro c hc
      rw [List.head?_reverse] at hc
      exact (hn c).mpr (hl c hc)
  · intro h
    unfold trimMatches at h
    obtain ⟨a, e1, ha, hh⟩ := dropWhile_split p t
    obtain ⟨b, e2, hb, hl⟩ := dropWhile_split p (t.dropWhile p).reverse
    have e3 : t.dropWhile p = x ++ b.reverse := by
      have := congrArg List.reverse e2
      rw [List.reverse_reverse, List.reverse_append, h] at this
      exact this
    refine ⟨a, b.reverse, by rw [← e3]; exact e1, fun c hc => (hp c).mp (ha c hc),
      fun c hc => (hp c).mp (hb c (List.mem_reverse.mp hc)), fun c hc => (hn c).mp (hh c ?_), fun c hc => (hn c).mp (hl c ?_)⟩
    · rw [e3, List.head?_append, hc]; rfl
    · rw [← List.getLast?_reverse, h]; exact hc

theorem white_iff (c : Char) : isBlank c = true ↔ White c := Iff.rfl

theorem curly_iff (c : Char) : (c == '{' || c == '}') = true ↔ Curly c := by simp [Curly]

theorem bracketed_iff {t x : Text} : Bracketed t x ↔ trimBraces t = x := by
  unfold Bracketed trimBraces
  constructor
  · rintro ⟨y, h1, h2⟩
    rw [(around_iff curly_iff).mp h1]
    exact (around_iff white_iff).mp h2
  · intro h
    exact ⟨_, (around_iff curly_iff).mpr rfl, (around_iff white_iff).mpr h⟩

theorem around_mem {P : Char → Prop} {t x : Text} (h : Around P t x) {c : Char} (hc : c ∈ x) : c ∈ t := by
  obtain ⟨a, b, rfl, -⟩ := h
  simp [hc]

theorem not_number {t : Text} {c : Char} (hc : c ∈ t) (ha : c.isAlpha = true) : parseI128 t = none := by
  have hd : c.isDigit = false := by
    simp only [Char.isAlpha, Char.isUpper, Char.isLower, Char.isDigit, Bool.or_eq_true, Bool.and_eq_true, decide_eq_true_eq,
      Bool.and_eq_false_iff, decide_eq_false_iff_not, ge_iff_le, UInt32.le_iff_toNat_le] at *
    simp at *
    omega
  cases h : parseI128 t with
  | none => rfl
  | some v =>
    exfalso
    replace h := (parseI128_sound h).1
    rcases h with ⟨h, -⟩ | ⟨ds, h, ⟨rfl, -⟩ | ⟨rfl, -⟩⟩
    · have := h.2 c hc; rw [hd] at this; cases this
    · rcases List.mem_cons.mp hc with rfl | hc
      · revert ha; decide
      · have := h.2 c hc; rw [hd] at this; cases this
    · rcases List.mem_cons.mp hc with rfl | hc
      · revert ha; decide
      · have := h.2 c hc; rw [hd] at this; cases this

/-! ## Lists -/

theorem mem_components {x : Text} : ∀ {cs : List Component}, x ∈ componentsRefs cs ↔ ∃ i ty, .mk i ty ∈ cs ∧ x ∈ ty.refs
  | [] => by simp [componentsRefs]
  | .mk i ty :: cs => by
    rw [componentsRefs, List.mem_append, mem_components (cs := cs)]
    constructor
    · rintro (h | ⟨i', ty', h1, h2⟩)
      · exact ⟨i, ty, List.mem_cons_self .., h⟩
      · exact ⟨i', ty', List.mem_cons_of_mem _ h1, h2⟩
    · rintro ⟨i', ty', h1, h2⟩
      rcases List.mem_cons.mp h1 with e | h1
      · cases e; exact .inl h2
      · exact .inr ⟨i', ty', h1, h2⟩

theorem mem_choiceGroups {x : Text} : ∀ {gs : List ChoiceGroup},
    x ∈ choiceGroupsRefs gs ↔ ∃ v cs, .mk v cs ∈ gs ∧ x ∈ componentsRefs cs
  | [] => by simp [choiceGroupsRefs]
  | .mk v cs :: gs => by
    rw [choiceGroupsRefs, List.mem_append, mem_choiceGroups (gs := gs)]
    constructor
    · rintro (h | ⟨v', cs', h1, h2⟩)
      · exact ⟨v, cs, List.mem_cons_self .., h⟩
      · exact ⟨v', cs', List.mem_cons_of_mem _ h1, h2⟩
    · rintro ⟨v', cs', h1, h2⟩
      rcases List.mem_cons.mp h1 with e | h1
      · cases e; exact .inl h2
      · exact .inr ⟨v', cs', h1, h2⟩

theorem mem_seqComponents {x : Text} : ∀ {cs : List SeqComponent},
    x ∈ seqComponentsRefs cs ↔ ∃ i ty o d, .mk i ty o d ∈ cs ∧ x ∈ ty.refs
  | [] => by simp [seqComponentsRefs]
  | .mk i ty o d :: cs => by
    rw [seqComponentsRefs, List.mem_append, mem_seqComponents (cs := cs)]
    constructor
    · rintro (h | ⟨i', ty', o', d', h1, h2⟩)
      · exact ⟨i, ty, o, d, List.mem_cons_self .., h⟩
      · exact ⟨i', ty', o', d', List.mem_cons_of_mem _ h1, h2⟩
    · rintro ⟨i', ty', o', d', h1, h2⟩
      rcases List.mem_cons.mp h1 with e | h1
      · cases e; exact .inl h2
      · exact .inr ⟨i', ty', o', d', h1, h2⟩

theorem mem_seqGroups {x : Text} : ∀ {gs : List SeqGroup},
    x ∈ seqGroupsRefs gs ↔ ∃ v cs, .mk v cs ∈ gs ∧ x ∈ seqComponentsRefs cs
  | [] => by simp [seqGroupsRefs]
  | .mk v cs :: gs => by
    rw [seqGroupsRefs, List.mem_append, mem_seqGroups (gs := gs)]
    constructor
    · rintro (h | ⟨v', cs', h1, h2⟩)
      · exact ⟨v, cs, List.mem_cons_self .., h⟩
      · exact ⟨v', cs', List.mem_cons_of_mem _ h1, h2⟩
    · rintro ⟨v', cs', h1, h2⟩
      rcases List.mem_cons.mp h1 with e | h1
      · cases e; exact .inl h2
      · exact .inr ⟨v', cs', h1, h2⟩

theorem mem_constraints {x : Text} : ∀ {cs : List Constraint}, x ∈ constraintsRefs cs ↔ ∃ c ∈ cs, x ∈ c.refs
  | [] => by simp [constraintsRefs]
  | c :: cs => by rw [constraintsRefs, List.mem_append, mem_constraints (cs := cs)]; simp

theorem mem_inter {x : Text} : ∀ {es : List Elements}, x ∈ interRefs es ↔ ∃ e ∈ es, x ∈ e.refs
  | [] => by simp [interRefs]
  | c :: cs => by rw [interRefs, List.mem_append, mem_inter (es := cs)]; simp

theorem mem_union {x : Text} : ∀ {us : List (List Elements)}, x ∈ unionRefs us ↔ ∃ is ∈ us, x ∈ interRefs is
  | [] => by simp [unionRefs]
  | c :: cs => by rw [unionRefs, List.mem_append, mem_union (us := cs)]; simp

/-! ## What is mentioned is collected -/

variable {x : Text}

theorem name_alpha (hx : IsName x) : ∃ c ∈ x, c.isAlpha = true := by
  obtain ⟨⟨c, cs, rfl, h⟩, -⟩ := hx
  exact ⟨c, List.mem_cons_self .., h⟩

theorem mem_valueRef (hx : IsName x) {t : Text} (h : Around White t x) : x ∈ valueRef t := by
  obtain ⟨c, hc, ha⟩ := name_alpha hx
  rw [valueRef, not_number (around_mem h hc) ha, (around_iff white_iff).mp h]
  simp

mutual

theorem type_refs (hx : IsName x) {ty : AsnType} (h : InType false ty x) : x ∈ ty.refs := by
  match h with
  | .kind (cs := none) h => rw [AsnType.refs]; exact kind_refs hx h
  | .kind (cs := some _) h => rw [AsnType.refs]; exact List.mem_append_left _ (kind_refs hx h)
  | .constraint hc h =>
    rw [AsnType.refs]
    exact List.mem_append_right _ (mem_constraints.mpr ⟨_, hc, constraint_refs hx h⟩)

theorem kind_refs (hx : IsName x) {k : Kind} (h : InKind false k x) : x ∈ k.refs := by
  match h with
  | .reference => rw [Kind.refs]; exact List.mem_singleton.mpr rfl
  | .class => rw [Kind.refs]; exact List.mem_singleton.mpr rfl
  | .parameterized => rw [Kind.refs]; exact List.mem_cons_self ..
  | .parameter hp e => rw [Kind.refs]; exact List.mem_cons_of_mem _ (List.mem_map.mpr ⟨_, hp, e⟩)
  | .alternative (adds := none) hm h => rw [Kind.refs]; exact mem_components.mpr ⟨_, _, hm, type_refs hx h⟩
  | .alternative (adds := some _) hm h =>
    rw [Kind.refs]; exact List.mem_append_left _ (mem_components.mpr ⟨_, _, hm, type_refs hx h⟩)
  | .addedAlternative hg hm h =>
    rw [Kind.refs]
    exact List.mem_append_right _ (mem_choiceGroups.mpr ⟨_, _, hg, mem_components.mpr ⟨_, _, hm, type_refs hx h⟩⟩)
  | .component hm h =>
    rw [Kind.refs]; exact List.mem_append_left _ (mem_seqComponents.mpr ⟨_, _, _, _, hm, type_refs hx h⟩)
  | .addedComponent hg hm h =>
    rw [Kind.refs]
    exact List.mem_append_right _ (mem_seqGroups.mpr ⟨_, _, hg, mem_seqComponents.mpr ⟨_, _, _, _, hm, type_refs hx h⟩⟩)
  | .element h => rw [Kind.refs]; exact type_refs hx h

theorem constraint_refs (hx : IsName x) {c : Constraint} (h : InConstraint false c x) : x ∈ c.refs := by
  match h with
  | .subtype h => rw [Constraint.refs]; exact set_refs hx h
  | .table h => rw [Constraint.refs, bracketed_iff.mp h]; exact List.mem_singleton.mpr rfl
  | .relation h => rw [Constraint.refs, bracketed_iff.mp h]; exact List.mem_singleton.mpr rfl

theorem set_refs (hx : IsName x) {e : ElementSet} (h : InSet false e x) : x ∈ e.refs := by
  match h with
  | .root (add := none) h1 h2 h =>
    rw [ElementSet.refs]; exact mem_union.mpr ⟨_, h1, mem_inter.mpr ⟨_, h2, elements_refs hx h⟩⟩
  | .root (add := some _) h1 h2 h =>
    rw [ElementSet.refs]
    exact List.mem_append_left _ (mem_union.mpr ⟨_, h1, mem_inter.mpr ⟨_, h2, elements_refs hx h⟩⟩)
  | .additional h1 h2 h =>
    rw [ElementSet.refs]
    exact List.mem_append_right _ (mem_union.mpr ⟨_, h1, mem_inter.mpr ⟨_, h2, elements_refs hx h⟩⟩)

theorem elements_refs (hx : IsName x) {e : Elements} (h : InElements false e x) : x ∈ e.refs := by
  match h with
  | .single (v := v) h =>
    obtain ⟨c, hc, ha⟩ := name_alpha hx
    have : c ∈ v := by
      obtain ⟨y, h1, h2⟩ := h
      exact around_mem h1 (around_mem h2 hc)
    rw [Elements.refs, not_number this ha, bracketed_iff.mp h]
    simp
  | .contained h => rw [Elements.refs]; exact type_refs hx h
  | .lower h => rw [Elements.refs]; exact List.mem_append_left _ (mem_valueRef hx h)
  | .upper h => rw [Elements.refs]; exact List.mem_append_right _ (mem_valueRef hx h)
  | .size h => rw [Elements.refs]; exact set_refs hx h
  | .set h => rw [Elements.refs]; exact set_refs hx h

end

theorem field_refs (hx : IsName x) {f : ObjectField} (h : InField false f x) : x ∈ f.refs := by
  cases h with
  | type h => exact type_refs hx h
  | valueType h => exact type_refs hx h
  | value h => cases h

theorem element_refs (hx : IsName x) {e : SetElement} (h : InElement false e x) : x ∈ e.refs := by
  cases h with
  | setRef => exact List.mem_singleton.mpr rfl
  | objectRef => exact List.mem_singleton.mpr rfl
  | field hm h => exact List.mem_flatMap.mpr ⟨_, hm, field_refs hx h⟩

theorem definition_refs (hx : IsName x) {d : Assignment} (h : InDefinition false d x) : x ∈ d.refs := by
  cases h with
  | valueType h => exact type_refs hx h
  | value h => cases h
  | type h => exact type_refs hx h
  | fieldType hm h => exact List.mem_flatMap.mpr ⟨_, hm, type_refs hx h⟩
  | fieldDefault h => cases h
  | fieldDefaultType h => cases h
  | setClass => exact List.mem_cons_self ..
  | element hm h =>
    refine List.mem_cons_of_mem _ ?_
    rw [← List.flatMap_append]
    exact List.mem_flatMap.mpr ⟨_, hm, element_refs hx h⟩
  | «class» => exact List.mem_singleton.mpr rfl
  | object h => cases h

/-! ## What is collected is mentioned -/

theorem of_valueRef {t : Text} (h : x ∈ valueRef t) : Around White t x := by
  rw [valueRef] at h
  split at h
  · cases h
  · exact (around_iff white_iff).mpr (List.mem_singleton.mp h).symm

mutual

theorem of_type : ∀ (ty : AsnType), x ∈ ty.refs → InType false ty x
  | .mk k none, h => by rw [AsnType.refs] at h; exact .kind (of_kind k h)
  | .mk k (some cs), h => by
    rw [AsnType.refs] at h
    rcases List.mem_append.mp h with h | h
    · exact .kind (of_kind k h)
    · obtain ⟨c, hc, h⟩ := of_constraints cs h
      exact .constraint hc h

theorem of_kind : ∀ (k : Kind), x ∈ k.refs → InKind false k x
  | .reference r, h => by rw [Kind.refs] at h; cases List.mem_singleton.mp h; exact .reference
  | .classField c f, h => by rw [Kind.refs] at h; cases List.mem_singleton.mp h; exact .class
  | .parameterized t ps, h => by
    rw [Kind.refs] at h
    rcases List.mem_cons.mp h with rfl | h
    · exact .parameterized
    · obtain ⟨p, hp, rfl⟩ := List.mem_map.mp h
      exact .parameter hp rfl
  | .choice root none, h => by
    rw [Kind.refs] at h
    obtain ⟨i, ty, hm, h⟩ := of_components root h
    exact .alternative hm h
  | .choice root (some adds), h => by
    rw [Kind.refs] at h
    rcases List.mem_append.mp h with h | h
    · obtain ⟨i, ty, hm, h⟩ := of_components root h
      exact .alternative hm h
    · obtain ⟨v, cs, hg, i, ty, hm, h⟩ := of_choiceGroups adds h
      exact .addedAlternative hg hm h
  | .sequence root adds e, h => by
    rw [Kind.refs] at h
    rcases List.mem_append.mp h with h | h
    · obtain ⟨i, ty, o, d, hm, h⟩ := of_seqComponents root h
      exact .component hm h
    · obtain ⟨v, cs, hg, i, ty, o, d, hm, h⟩ := of_seqGroups adds h
      exact .addedComponent hg hm h
  | .sequenceOf _ ty, h => by rw [Kind.refs] at h; exact .element (of_type ty h)
  | .integer _, h | .enumerated .., h | .bitString _, h | .boolean, h | .null, h | .octetString, h
  | .objectIdentifier, h | .relativeOid, h | .characterString _, h | .set, h | .setOf, h => by
    rw [Kind.refs] at h
    · cases h
    all_goals simp

theorem of_components : ∀ (cs : List Component), x ∈ componentsRefs cs → ∃ i ty, .mk i ty ∈ cs ∧ InType false ty x
  | [], h => by rw [componentsRefs] at h; cases h
  | .mk i ty :: cs, h => by
    rw [componentsRefs] at h
    rcases List.mem_append.mp h with h | h
    · exact ⟨i, ty, List.mem_cons_self .., of_type ty h⟩
    · obtain ⟨i, ty, hm, h⟩ := of_components cs h
      exact ⟨i, ty, List.mem_cons_of_mem _ hm, h⟩

theorem of_choiceGroups : ∀ (gs : List ChoiceGroup), x ∈ choiceGroupsRefs gs →
    ∃ v cs, .mk v cs ∈ gs ∧ ∃ i ty, .mk i ty ∈ cs ∧ InType false ty x
  | [], h => by rw [choiceGroupsRefs] at h; cases h
  | .mk v cs :: gs, h => by
    rw [choiceGroupsRefs] at h
    rcases List.mem_append.mp h with h | h
    · exact ⟨v, cs, List.mem_cons_self .., of_components cs h⟩
    · obtain ⟨v, cs, hm, h⟩ := of_choiceGroups gs h
      exact ⟨v, cs, List.mem_cons_of_mem _ hm, h⟩

theorem of_seqComponents : ∀ (cs : List SeqComponent), x ∈ seqComponentsRefs cs →
    ∃ i ty o d, .mk i ty o d ∈ cs ∧ InType false ty x
  | [], h => by rw [seqComponentsRefs] at h; cases h
  | .mk i ty o d :: cs, h => by
    rw [seqComponentsRefs] at h
    rcases List.mem_append.mp h with h | h
    · exact ⟨i, ty, o, d, List.mem_cons_self .., of_type ty h⟩
    · obtain ⟨i, ty, o, d, hm, h⟩ := of_seqComponents cs h
      exact ⟨i, ty, o, d, List.mem_cons_of_mem _ hm, h⟩

theorem of_seqGroups : ∀ (gs : List SeqGroup), x ∈ seqGroupsRefs gs →
    ∃ v cs, .mk v cs ∈ gs ∧ ∃ i ty o d, .mk i ty o d ∈ cs ∧ InType false ty x
  | [], h => by rw [seqGroupsRefs] at h; cases h
  | .mk v cs :: gs, h => by
    rw [seqGroupsRefs] at h
    rcases List.mem_append.mp h with h | h
    · exact ⟨v, cs, List.mem_cons_self .., of_seqComponents cs h⟩
    · obtain ⟨v, cs, hm, h⟩ := of_seqGroups gs h
      exact ⟨v, cs, List.mem_cons_of_mem _ hm, h⟩

theorem of_constraints : ∀ (cs : List Constraint), x ∈ constraintsRefs cs → ∃ c ∈ cs, InConstraint false c x
  | [], h => by rw [constraintsRefs] at h; cases h
  | c :: cs, h => by
    rw [constraintsRefs] at h
    rcases List.mem_append.mp h with h | h
    · exact ⟨c, List.mem_cons_self .., of_constraint c h⟩
    · obtain ⟨c, hm, h⟩ := of_constraints cs h
      exact ⟨c, List.mem_cons_of_mem _ hm, h⟩

theorem of_constraint : ∀ (c : Constraint), x ∈ c.refs → InConstraint false c x
  | .subtype e, h => by rw [Constraint.refs] at h; exact .subtype (of_set e h)
  | .tableSimple s, h => by
    rw [Constraint.refs] at h; exact .table (bracketed_iff.mpr (List.mem_singleton.mp h).symm)
  | .tableRelation s i, h => by
    rw [Constraint.refs] at h; exact .relation (bracketed_iff.mpr (List.mem_singleton.mp h).symm)
  | .contents _, h => by rw [Constraint.refs] at h; cases h

theorem of_set : ∀ (e : ElementSet), x ∈ e.refs → InSet false e x
  | .mk root none, h => by
    rw [ElementSet.refs] at h
    obtain ⟨is, h1, e, h2, h⟩ := of_union root h
    exact .root h1 h2 h
  | .mk root (some add), h => by
    rw [ElementSet.refs] at h
    rcases List.mem_append.mp h with h | h
    · obtain ⟨is, h1, e, h2, h⟩ := of_union root h
      exact .root h1 h2 h
    · obtain ⟨is, h1, e, h2, h⟩ := of_union add h
      exact .additional h1 h2 h

theorem of_union : ∀ (us : List (List Elements)), x ∈ unionRefs us →
    ∃ is ∈ us, ∃ e ∈ is, InElements false e x
  | [], h => by rw [unionRefs] at h; cases h
  | i :: is, h => by
    rw [unionRefs] at h
    rcases List.mem_append.mp h with h | h
    · exact ⟨i, List.mem_cons_self .., of_inter i h⟩
    · obtain ⟨c, hm, h⟩ := of_union is h
      exact ⟨c, List.mem_cons_of_mem _ hm, h⟩

theorem of_inter : ∀ (es : List Elements), x ∈ interRefs es → ∃ e ∈ es, InElements false e x
  | [], h => by rw [interRefs] at h; cases h
  | e :: es, h => by
    rw [interRefs] at h
    rcases List.mem_append.mp h with h | h
    · exact ⟨e, List.mem_cons_self .., of_elements e h⟩
    · obtain ⟨c, hm, h⟩ := of_inter es h
      exact ⟨c, List.mem_cons_of_mem _ hm, h⟩

theorem of_elements : ∀ (e : Elements), x ∈ e.refs → InElements false e x
  | .single v, h => by
    rw [Elements.refs] at h
    split at h
    · cases h
    · exact .single (bracketed_iff.mpr (List.mem_singleton.mp h).symm)
  | .contained ty, h => by rw [Elements.refs] at h; exact .contained (of_type ty h)
  | .range lo a hi b, h => by
    rw [Elements.refs] at h
    rcases List.mem_append.mp h with h | h
    · exact .lower (of_valueRef h)
    · exact .upper (of_valueRef h)
  | .size e, h => by rw [Elements.refs] at h; exact .size (of_set e h)
  | .alphabet _, h => by rw [Elements.refs] at h; cases h
  | .set e, h => by rw [Elements.refs] at h; exact .set (of_set e h)

end

theorem of_field : ∀ (f : ObjectField), x ∈ f.refs → InField false f x
  | .type (some ty), h => .type (of_type ty h)
  | .fixedTypeValue ty _, h => .valueType (of_type ty h)

theorem of_element : ∀ (e : SetElement), x ∈ e.refs → InElement false e x
  | .setRef _, h => by cases List.mem_singleton.mp h; exact .setRef
  | .objectRef _, h => by cases List.mem_singleton.mp h; exact .objectRef
  | .object (.fields fs), h => by
    obtain ⟨⟨n, f⟩, hm, h⟩ := List.mem_flatMap.mp h
    exact .field hm (of_field f h)

theorem of_definition : ∀ (d : Assignment), x ∈ d.refs → InDefinition false d x
  | .value ty _, h => .valueType (of_type ty h)
  | .type ty, h => .type (of_type ty h)
  | .class fs, h => by
    obtain ⟨⟨n, f⟩, hm, h⟩ := List.mem_flatMap.mp h
    cases f with
    | type => cases h
    | fixedTypeValue => exact .fieldType hm (of_type _ h)
  | .objectSet cls root add, h => by
    rcases List.mem_cons.mp h with rfl | h
    · exact .setClass
    · rw [← List.flatMap_append] at h
      obtain ⟨e, hm, h⟩ := List.mem_flatMap.mp h
      exact .element hm (of_element e h)
  | .object cls _, h => by cases List.mem_singleton.mp h; exact .class

end Hampi.Compiler.Ment
