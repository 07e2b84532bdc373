import Verif.Lemmas.OpenTypes
import Verif.Lemmas.ParserReads
/-! # Lemmas about resolving a schema in which every definition has a meaning: types -/
namespace Hampi.Compiler
open Hampi.Compiler.Spec
open Hampi.Spec (Numeral)

section
variable {ms : List Module}

/-- The size of a string. -/
theorem Spec.Sized.resolve (h : ProperSchema ms) {R : Resolver} {S : Text → Prop} (hc : Ctx ms R S)
    {sees : Text → Module → Definition → Prop} (hM : Honest ms sees) {ns : Hampi.Spec.Names}
    (hs : InScope sees ns) {cs : Option (List Constraint)} {lb ub : Option Int} {ext : Bool}
    (hz : Sized ns cs lb ub ext)
    (hr : ∀ r, ∀ N d, r ∈ (AsnType.mk .octetString cs).refs → sees r N d → S r) :
    ∃ size, lenientSize R.env cs = .ok size ∧ strictSize R.env cs = .ok size ∧ boundsOf size = (lb, ub) ∧
      extensibleOf size = ext := by
  cases hz with
  | any hb => rcases hb with rfl | rfl <;> exact ⟨none, rfl, rfl, rfl, rfl⟩
  | size hb _ =>
    rw [AsnType.refs, show Kind.refs .octetString = [] by rw [Kind.refs] <;> simp, List.nil_append, sizeRefs] at hr
    obtain ⟨vs, h1, h2, h3, h4⟩ := hb.values (hs.proper h hM)
    have hc := hb.congr (ctx_env hc hM hs fun r hx N d => hr r N d hx) (hs.names h hM)
    refine ⟨some vs, ?_, ?_, ?_, h4⟩
    · simp [lenientSize, Constraint.isSize, Constraint.sizeValueset, hc, h1, Out.bind]
    · simp [strictSize, Constraint.isSize, Constraint.sizeValueset, hc, h1, Out.bind]
    · simp [boundsOf, h2, h3]

theorem explicit_none {vs : List EnumValue} (h : ∀ v ∈ vs, v.value = none) : explicitNumbers vs = .ok false := by
  induction vs with
  | nil => rfl
  | cons v vs ih =>
    have := h v List.mem_cons_self
    obtain ⟨name, value⟩ := v
    dsimp only at this
    subst this
    rw [explicitNumbers]
    · exact ih fun w hw => h w (List.mem_cons_of_mem _ hw)
    · simp

/-- The set that a table constraint names. -/
theorem tableOf_set {k : Constraint} {S : Text} {c : Option Text} (h : TableOf k S c) (hS : IsName S) :
    k.setReference = .ok S ∧ S ∈ k.refs := by
  cases h with
  | simple =>
    have ht : trimBraces ('{' :: ' ' :: (S ++ [' ', '}'])) = S := by
      obtain ⟨⟨c, cs, rfl, hc⟩, hall⟩ := hS
      have hlast : ∃ a l, (c :: cs).reverse = l :: a := by
        cases hr : (c :: cs).reverse with
        | nil => exact absurd hr (by simp)
        | cons l a => exact ⟨a, l, rfl⟩
      obtain ⟨a, l, hl⟩ := hlast
      have hl1 : l ∈ c :: cs := by rw [← List.mem_reverse, hl]; exact List.mem_cons_self
      have e1 := alpha_facts (hall c List.mem_cons_self)
      have e2 := alpha_facts (hall l hl1)
      have hblank : isBlank ' ' = true := rfl
      have inner : trimMatches isBlank (' ' :: ((c :: cs) ++ [' '])) = c :: cs := by
        unfold trimMatches
        rw [List.dropWhile_cons, hblank, if_pos rfl, List.cons_append, List.dropWhile_cons, e1.1, if_neg (by decide),
          ← List.cons_append, List.reverse_append, hl]
        simp only [List.reverse_cons, List.reverse_nil, List.nil_append, List.cons_append]
        rw [List.dropWhile_cons, hblank, if_pos rfl, List.dropWhile_cons, e2.1, if_neg (by decide), ← hl,
          List.reverse_reverse]
      have outer : trimMatches (fun c => c == '{' || c == '}') ('{' :: ' ' :: ((c :: cs) ++ [' ', '}'])) =
          ' ' :: ((c :: cs) ++ [' ']) := by
        unfold trimMatches
        rw [List.dropWhile_cons, if_pos (by decide), List.dropWhile_cons, if_neg (by decide)]
        have : ' ' :: ((c :: cs) ++ [' ', '}']) = (' ' :: ((c :: cs) ++ [' '])) ++ ['}'] := by simp
        rw [this, List.reverse_append]
        simp only [List.reverse_cons, List.reverse_nil, List.nil_append, List.cons_append]
        rw [List.dropWhile_cons, if_pos (by decide)]
        have e : (cs.reverse ++ [c]) = (c :: cs).reverse := by simp
        simp
      unfold trimBraces
      rw [outer, inner]
    refine ⟨by rw [Constraint.setReference, ht], ?_⟩
    have hp : parseI128 ('{' :: ' ' :: (S ++ [' ', '}'])) = none := by
      cases hp : parseI128 ('{' :: ' ' :: (S ++ [' ', '}'])) with
      | none => rfl
      | some v =>
        exact absurd (parseI128_sound hp).1 (not_numeral_word rfl (by decide) (by decide) (by decide) v)
    simp [Constraint.refs, ElementSet.refs, unionRefs, interRefs, Elements.refs, hp, ht]
  | relation =>
    have := hS.braces
    exact ⟨by rw [Constraint.setReference, this], by rw [Constraint.refs, this]; exact List.mem_singleton.mpr rfl⟩

theorem seqRefs_mem {c : SeqComponent} {cs : List SeqComponent} (h : c ∈ cs) :
    ∀ r ∈ (match c with | .mk _ ty _ _ => ty.refs), r ∈ seqComponentsRefs cs := by
  induction cs with
  | nil => cases h
  | cons x cs ih =>
    obtain ⟨id, ty, opt, d⟩ := x
    intro r hr
    rw [seqComponentsRefs]
    rcases List.mem_cons.mp h with rfl | h
    · exact List.mem_append_left _ hr
    · exact List.mem_append_right _ (ih h r hr)

theorem refs_mk {k : Kind} {cs : Option (List Constraint)} {r : Text} (h : r ∈ k.refs) : r ∈ (AsnType.mk k cs).refs := by
  cases cs with
  | none => rw [AsnType.refs]; exact h
  | some cs => rw [AsnType.refs]; exact List.mem_append_left _ h

/-- The sizes of strings are written with names that can be seen. -/
theorem sized_refs {k : Kind} (hk : k.refs = []) (cs : Option (List Constraint)) :
    (AsnType.mk .octetString cs).refs = (AsnType.mk k cs).refs := by
  cases cs with
  | none => rw [AsnType.refs, AsnType.refs, hk, Kind.refs] <;> simp
  | some cs => rw [AsnType.refs, AsnType.refs, hk, Kind.refs] <;> simp

mutual

/-- A type is resolved to what it means when all it needs has been resolved. -/
theorem resolve_described (h : ProperSchema ms) {lax : Bool} {σ : Scope} {ty : AsnType} {t : Ty}
    (hd : Describes lax ms σ ty t) (hσ : σ.In ms) :
    Ev fun n => ∀ R S, Ctx ms R S → Supplied ms S σ → Has ms S σ ty.refs →
      ∃ rt, resolveType n R ty = .ok rt ∧ Means R rt t := by
  match hd with
  | .boolean hb => exact .step (.all fun n R S _ _ _ => ⟨.base .boolean, rfl, .base rfl⟩)
  | .null hb => exact .step (.all fun n R S _ _ _ => ⟨.base .null, rfl, .base rfl⟩)
  | .objectIdentifier hb => exact .step (.all fun n R S _ _ _ => ⟨.base .objectIdentifier, rfl, .base rfl⟩)
  | .integer hb =>
      refine .step (.all fun n R S _ _ _ => ⟨.base (.integer 64 true none), ?_, .base rfl⟩)
      rcases hb with rfl | rfl <;> rfl
  | .boundedInteger (e := e) hs hb hw =>
      refine .step (.all fun n R S hc _ hr => ?_)
      have hM := Spec.Scope.Sees.mem hσ
      obtain ⟨vs, h1, h2, h3, h4⟩ := hb.values (hs.proper h hM)
      have hc := hb.congr (env := R.env) (ctx_env hc hM hs fun r hx N d => hr r (by
        rw [AsnType.refs, constraintsRefs, Constraint.refs]
        simp [hx]) N d) (hs.names h hM)
      obtain ⟨b, h5, h6⟩ := hw.integer h2 h3
      refine ⟨.base b, ?_, .base (by rw [h6, h4])⟩
      simp [resolveType, resolveBase, resolveInteger, AsnType.valueset, Constraint.valueset, hc, h1, h5, Out.bind]
  | .enumerated (vs := vs) (marker := marker) (add := add) hne hlen hv hb hadd =>
      refine .step (.all fun n R S _ _ _ => ?_)
      have ha : ∀ v ∈ add, v.value = none := by
        rcases hadd with rfl | ⟨_, ha⟩
        · exact nofun
        · exact ha
      refine ⟨.base (.enumerated 8 false marker.isSome (numbered vs) (numbered add)), ?_, .base ?_⟩
      · simp [resolveType, resolveBase, resolveEnumerated, explicit_none hv, explicit_none ha, Out.bind]
      · cases vs with
        | nil => exact absurd rfl hne
        | cons v vs => simp [RBase.attrs, numbered, List.zipIdx_cons, innerWidth]
  | .bitString hs hb =>
      refine .step (.all fun n R S hc _ hr => ?_)
      obtain ⟨size, h1, _, h2, h3⟩ := hb.resolve h hc (Spec.Scope.Sees.mem hσ) hs fun r N d hx =>
        hr r (by rw [← sized_refs (by rw [Kind.refs] <;> simp)]; exact hx) N d
      refine ⟨.base (.bitString size []), ?_, .base (by rw [RBase.attrs, h2, h3])⟩
      simp [resolveType, resolveBase, h1, resolveNamedBits, Out.bind]
  | .octetString hs hb =>
      refine .step (.all fun n R S hc _ hr => ?_)
      obtain ⟨size, h1, _, h2, h3⟩ := hb.resolve h hc (Spec.Scope.Sees.mem hσ) hs fun r N d hx => hr r hx N d
      refine ⟨.base (.octetString size), ?_, .base (by rw [RBase.attrs, h2, h3])⟩
      simp [resolveType, resolveBase, h1, Out.bind]
  | .containing =>
      exact .step (.all fun n R S _ _ _ => ⟨.base (.octetString none), rfl, .base rfl⟩)
  | .characterString (st := st) (k := k) hk hs hb =>
      refine .step (.all fun n R S hc _ hr => ?_)
      obtain ⟨size, _, h1, h2, h3⟩ := hb.resolve h hc (Spec.Scope.Sees.mem hσ) hs fun r N d hx =>
        hr r (by rw [← sized_refs (by rw [Kind.refs] <;> simp)]; exact hx) N d
      refine ⟨.base (.characterString st size), ?_, .base ?_⟩
      · simp [resolveType, resolveBase, h1, Out.bind]
      · have : charKindOf st = some k := by cases hk <;> decide
        rw [RBase.attrs, h2, h3, this]
        rfl
  | .reference (r := r) _ hs hd' =>
      refine .step (.all fun n R S hc _ hr => ?_)
      obtain ⟨hN, hdef⟩ := Spec.Scope.Sees.mem hσ _ _ _ hs
      have hready := hc.ready r (hr r (refs_mk (by rw [Kind.refs]; exact List.mem_singleton.mpr rfl)) _ _ hs)
      obtain ⟨rt, h1, h2, _⟩ := hready _ hN _ hdef
      exact ⟨.reference r, by simp [resolveType, h1], .reference h1 (h2 _ _ hd')⟩
  | .sequence (comps := comps) hb hf =>
      have ih := resolve_fields h hf hσ
      refine .step (ih.imp fun n hn R S hc hsup hr => ?_)
      obtain ⟨rcs, h1, h2⟩ := hn R S hc hsup (by
        rw [bare_refs hb, Kind.refs, seqGroupsRefs, List.append_nil] at hr
        exact hr)
      exact ⟨.sequence _ rcs, by simp [resolveType, h1], .sequence h2⟩
  | .sequenceOf (size := size) hb hin hz hd' =>
      have ih := resolve_described h hd' hσ
      refine .step (ih.imp fun n hn R S hc hsup hr => ?_)
      obtain ⟨rt, h1, h2⟩ := hn R S hc hsup (by
        rw [bare_refs hb, Kind.refs] at hr
        exact hr)
      cases size with
      | none =>
        cases hz
        exact ⟨.sequenceOf rt none, by simp [resolveType, h1, Out.bind], .sequenceOf h2⟩
      | some c =>
        rw [Option.map_some] at hz
        generalize he : (some [c] : Option (List Constraint)) = cs at hz
        cases hz with
        | any hb => rcases hb with rfl | rfl <;> cases he
        | size hb _ =>
          injection he with he
          injection he with he
          subst he
          have hM := Spec.Scope.Imports.mem hσ
          obtain ⟨vs, g1, g2, g3, g4⟩ := hb.values (hin.proper h hM)
          have hc := hb.congr (env := R.env) (ctx_env hc hM hin fun r _ N d hi => hsup.imports hi) (hin.names h hM)
          refine ⟨.sequenceOf rt (some vs), ?_, ?_⟩
          · simp [resolveType, h1, Constraint.sizeValueset, hc, g1, Out.bind]
          · have := Means.sequenceOf (size := some vs) h2
            simp only [boundsOf, extensibleOf, g2, g3, g4] at this
            exact this
  | .choice (root := root) hb hne ha =>
      have ih := resolve_alts h ha hσ
      refine .step (ih.imp fun n hn R S hc hsup hr => ?_)
      obtain ⟨rcs, h1, h2, h3⟩ := hn R S hc hsup (by
        rw [bare_refs hb, Kind.refs] at hr
        exact hr)
      refine ⟨.choice rcs none, by simp [resolveType, h1, Out.bind], ?_⟩
      match rcs, h2, h3 with
      | [], _, h3 => exact absurd (List.length_eq_zero_iff.mp h3.symm) hne
      | c :: rest, h2, h3 =>
          rw [← h3, show (((c :: rest).length : Nat) : Int) - 1 = rest.length by simp]
          exact .choice h2
  | .extensibleChoice (root := root) (groups := groups) hb hne ha ha' =>
      have ih1 := resolve_alts h ha hσ
      have ih2 := resolve_alts h ha' hσ
      refine .step ((ih1.and ih2).imp fun n hn R S hc hsup hr => ?_)
      rw [bare_refs hb, Kind.refs, choiceGroupsRefs_eq] at hr
      obtain ⟨bcs, g1, g2, _⟩ := hn.1 R S hc hsup fun r hx => hr r (List.mem_append_right _ hx)
      obtain ⟨rcs, h1, h2, h3⟩ := hn.2 R S hc hsup fun r hx => hr r (List.mem_append_left _ hx)
      have g1' : mapOut (resolveAlternative (resolveType n R)) (groupComponents groups) = .ok bcs := g1
      refine ⟨.choice rcs (some bcs), by simp [resolveType, h1, g1', Out.bind], ?_⟩
      match rcs, h2, h3 with
      | [], _, h3 => exact absurd (List.length_eq_zero_iff.mp h3.symm) hne
      | c :: rest, h2, h3 =>
          rw [← h3, show (((c :: rest).length : Nat) : Int) - 1 = rest.length by simp]
          exact .choiceExt g2 h2
  | .parameterized (P := P) (ps := ps) (N := N) (body := body) (expand := expand) (ty := ty') hb hs he hn hd' =>
      obtain ⟨hN, hdef⟩ := Spec.Scope.Sees.mem hσ _ _ _ hs
      have ih := resolve_described h hd' ⟨hσ, hN⟩
      refine .step (ih.imp fun n hn' R S hc hsup hr => ?_)
      rw [bare_refs hb, Kind.refs] at hr
      have hSP := hr P List.mem_cons_self _ _ hs
      have hcl := hc.closed P hSP N hN _ hdef
      have hready : get R.params P = some expand := hc.ready P hSP N hN _ hdef
      obtain ⟨rt, h1, h2⟩ := hn' R S hc
        ⟨hsup, hcl.2, fun x hx N' d' hsee => hr x (List.mem_cons_of_mem _ hx) N' d' hsee⟩ (by
          rintro r hrr N' d' (⟨ha, hsee⟩ | ⟨ha, hsee⟩)
          · exact hr r (List.mem_cons_of_mem _ ha) N' d' hsee
          · rcases hn r hrr with hx | hx
            · exact absurd hx ha
            · exact hcl.1 r hx N' d' hsee)
      exact ⟨rt, by simp [resolveType, hready, he, h1, Out.bind], h2⟩
  | .table (T := T) (comps := comps) (ext := ext) hb hne hT htab =>
      refine .step (.step (.all fun n R S hc hsup hr => ?_))
      rw [bare_refs hb, Kind.refs, seqGroupsRefs, List.append_nil] at hr
      obtain ⟨N, root, add, hsee, hcls, hobj⟩ := hT.seen
      obtain ⟨hN, hdef⟩ := Spec.Scope.Sees.mem hσ _ _ _ hsee
      have hname := h.names N hN _ hdef
      -- the first component
      have hfirst : ∃ id f k rest, comps = .mk id (.mk (.classField T.cls f) (some [k])) false none :: rest ∧
          ∃ c, TableOf k T.set c := by
        cases htab with
        | nil => exact absurd rfl hne
        | key hk => exact ⟨_, _, _, _, rfl, _, hk⟩
        | value hk => exact ⟨_, _, _, _, rfl, _, hk⟩
        | openType hk => exact ⟨_, _, _, _, rfl, _, hk⟩
      obtain ⟨id, f, k, rest, rfl, c, hk⟩ := hfirst
      obtain ⟨hk1, hk2⟩ := tableOf_set hk hname
      have hS := hr T.set (seqRefs_mem List.mem_cons_self _ (by
        dsimp only
        rw [AsnType.refs, constraintsRefs]
        exact List.mem_append_right _ (List.mem_append_left _ hk2))) _ _ hsee
      obtain ⟨s, os, g1, g2, g3, g4, g5⟩ := hc.ready T.set hS N hN _ hdef
      have := objects_unique h g2 hN hobj
      subst this
      cases h.proper N hN _ hdef with
      | objectSet hc1 hc2 =>
        obtain ⟨rfl, hcf⟩ := sees_unique h hN hN hc1 hcls
        injection hcf with hcf
        injection hcf with hcf
        subst hcf
        obtain ⟨hK, hKd⟩ := hcls.mem hN
        have hready : TableReady ms R T s := by
          refine ⟨g3, g4, g5 _ _ _ hcls hT.unique, fun o ho => ?_, ?_⟩
          · obtain ⟨_, q1, q2, q3⟩ := objects_proper h hobj hN hcls hc2 o ho
            exact ⟨q1, q2, q3⟩
          · cases h.proper _ hK _ hKd with
            | «class» hnd _ => exact hnd
        cases hel : s.elements with
        | nil =>
          rw [hel] at g3
          cases ho : T.objects with
          | nil => exact absurd ho hT.objects
          | cons o os => rw [ho] at g3; cases g3
        | cons first rest' =>
          obtain ⟨rcs, q1, q2⟩ := table_means hT hready hel htab rfl
          refine ⟨.sequence ext rcs, ?_, .sequence q2⟩
          obtain ⟨l, hl, q1⟩ : ∃ l, allComponents (.mk id (.mk (.classField T.cls f) (some [k])) false none :: rest) [] =
              (id, .mk (.classField T.cls f) (some [k])) :: l ∧
              mapOut (fun c : Text × AsnType => objectComponent T.set s first c.1 c.2)
                ((id, .mk (.classField T.cls f) (some [k])) :: l) = .ok (rcs.map some) := by
            refine ⟨rest.map fun | .mk id ty _ _ => (id, ty), ?_, ?_⟩
            · simp only [allComponents, List.flatMap_nil, List.append_nil, List.map_cons]
              rfl
            · rw [← q1]
              rfl
          have hcf : resolveClassFields R (.mk id (.mk (.classField T.cls f) (some [k])) false none :: rest) [] ext =
              .ok (.sequence ext rcs) := by
            unfold resolveClassFields
            rw [hl]
            simp only [AsnType.firstConstraint, hk1, Out.bind, g1, objectComponents, hel, q1, components_filter]
          rw [resolveType]
          simp only [mapOut, resolveComponent, resolveType, Out.bind]
          exact hcf
  | .emptyTable (id := id) (cls := cls) (field := field) (k := k) (ks := ks) (opt := opt) (d := d) (comps := comps)
        (ext := ext) (S := T) _ hb hk hsee hobj =>
      refine .step (.step (.all fun n R S hc hsup hr => ?_))
      rw [bare_refs hb, Kind.refs, seqGroupsRefs, List.append_nil] at hr
      obtain ⟨hN, hdef⟩ := Spec.Scope.Sees.mem hσ _ _ _ hsee
      obtain ⟨hk1, hk2⟩ := tableOf_set hk (h.names _ hN _ hdef)
      have hS := hr T (seqRefs_mem List.mem_cons_self _ (by
        dsimp only
        rw [AsnType.refs, constraintsRefs]
        exact List.mem_append_right _ (List.mem_append_left _ hk2))) _ _ hsee
      obtain ⟨s, os, g1, g2, g3, _⟩ := hc.ready T hS _ hN _ hdef
      have := objects_unique h g2 hN hobj
      subst this
      have hel : s.elements = [] := by
        cases hel : s.elements with
        | nil => rfl
        | cons => rw [hel] at g3; cases g3
      refine ⟨.sequence ext [], ?_, .sequence .nil⟩
      rw [resolveType]
      simp only [mapOut, resolveComponent, resolveType, Out.bind]
      unfold resolveClassFields
      simp [allComponents, AsnType.firstConstraint, hk1, Out.bind, g1, objectComponents, hel]
termination_by structural hd

theorem resolve_fields (h : ProperSchema ms) {lax : Bool} {σ : Scope} {i : Nat} {cs : List SeqComponent} {k : Nat}
    {fs : Fields} (hd : DescribesFields lax ms σ i cs k fs) (hσ : σ.In ms) :
    Ev fun n => ∀ R S, Ctx ms R S → Supplied ms S σ → Has ms S σ (seqComponentsRefs cs) →
      ∃ rcs, mapOut (resolveComponent (resolveType n R)) cs = .ok rcs ∧ MeansFields R i rcs k fs := by
  match hd with
  | .nil => exact .all fun n R S _ _ _ => ⟨[], rfl, .nil⟩
  | .required (id := id) _ h1 h2 =>
      have ih1 := resolve_described h h1 hσ
      have ih2 := resolve_fields h h2 hσ
      refine (ih1.and ih2).imp fun n hn R S hc hsup hr => ?_
      rw [seqComponentsRefs] at hr
      obtain ⟨rt, g1, g2⟩ := hn.1 R S hc hsup fun r hx => hr r (List.mem_append_left _ hx)
      obtain ⟨rcs, g3, g4⟩ := hn.2 R S hc hsup fun r hx => hr r (List.mem_append_right _ hx)
      exact ⟨.mk id rt false false :: rcs, by simp [mapOut, resolveComponent, g1, g3, Out.bind], .required g2 g4⟩
  | .optional (id := id) h1 h2 =>
      have ih1 := resolve_described h h1 hσ
      have ih2 := resolve_fields h h2 hσ
      refine (ih1.and ih2).imp fun n hn R S hc hsup hr => ?_
      rw [seqComponentsRefs] at hr
      obtain ⟨rt, g1, g2⟩ := hn.1 R S hc hsup fun r hx => hr r (List.mem_append_left _ hx)
      obtain ⟨rcs, g3, g4⟩ := hn.2 R S hc hsup fun r hx => hr r (List.mem_append_right _ hx)
      exact ⟨.mk id rt true false :: rcs, by simp [mapOut, resolveComponent, g1, g3, Out.bind], .optional g2 g4⟩
termination_by structural hd

theorem resolve_alts (h : ProperSchema ms) {lax : Bool} {σ : Scope} {x : Bool} {i : Nat} {cs : List Component}
    {rest as : Alts} (hd : DescribesAlts lax ms σ x i cs rest as) (hσ : σ.In ms) :
    Ev fun n => ∀ R S, Ctx ms R S → Supplied ms S σ → Has ms S σ (componentsRefs cs) →
      ∃ rcs, mapOut (resolveAlternative (resolveType n R)) cs = .ok rcs ∧ MeansAlts R x i rcs rest as ∧
        rcs.length = cs.length := by
  match hd with
  | .nil => exact .all fun n R S _ _ _ => ⟨[], rfl, .nil, rfl⟩
  | .cons (id := id) h1 h2 =>
      have ih1 := resolve_described h h1 hσ
      have ih2 := resolve_alts h h2 hσ
      refine (ih1.and ih2).imp fun n hn R S hc hsup hr => ?_
      rw [componentsRefs] at hr
      obtain ⟨rt, g1, g2⟩ := hn.1 R S hc hsup fun r hx => hr r (List.mem_append_left _ hx)
      obtain ⟨rcs, g3, g4, g5⟩ := hn.2 R S hc hsup fun r hx => hr r (List.mem_append_right _ hx)
      exact ⟨.mk id rt :: rcs, by simp [mapOut, resolveAlternative, g1, g3, Out.bind], .cons g2 g4, by simp [g5]⟩
termination_by structural hd

end

end
end Hampi.Compiler
