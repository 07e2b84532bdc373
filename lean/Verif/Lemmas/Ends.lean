import Verif.Spec.Endless
import Verif.Lemmas.ResolveMono
import Verif.Lemmas.Meaning
import Verif.Lemmas.Tokens
/-! # When resolving ends -/
namespace Hampi.Compiler
open Hampi.Compiler.Spec

/-- Not cut off. -/
abbrev Done {ε α : Type} (m : Out ε α) : Prop := m ≠ .diverge

theorem Done.ok {ε α : Type} (a : α) : Done (.ok a : Out ε α) := nofun
theorem Done.err {ε α : Type} (e : ε) : Done (.err e : Out ε α) := nofun
theorem Done.panic {ε α : Type} : Done (.panic : Out ε α) := nofun

theorem Done.bind {ε α β : Type} {m : Out ε α} {f : α → Out ε β} (h : Done m) (h' : ∀ a, m = .ok a → Done (f a)) :
    Done (m.bind f) := by
  cases m with
  | ok a => exact h' a rfl
  | diverge => exact absurd rfl h
  | _ => nofun

theorem Done.of_le {ε α : Type} {a b : Out ε α} (h : Done a) (hle : Out.Le a b) : Done b := by
  rcases hle with e | e
  · exact absurd e h
  · rw [← e]; exact h

theorem Done.ite {ε α : Type} {c : Prop} [Decidable c] {a b : Out ε α} (h : Done a) (h' : Done b) :
    Done (if c then a else b) := by
  split
  · exact h
  · exact h'

theorem mapOut_done {ε α β : Type} {f : α → Out ε β} {l : List α} (h : ∀ x ∈ l, Done (f x)) : Done (mapOut f l) := by
  induction l with
  | nil => exact .ok _
  | cons x xs ih =>
    exact .bind (h x List.mem_cons_self) fun _ _ => .bind (ih fun y hy => h y (List.mem_cons_of_mem _ hy)) fun _ _ => .ok _

/-! ## Base types -/

theorem checked128_done (v : Int) : Done (checked128 v) := by
  unfold checked128; split
  · exact .ok _
  · exact .panic

theorem parseOrResolve_done (env : Text → Option Int) (t : Text) : Done (parseOrResolve env t) := by
  unfold parseOrResolve
  split
  · exact .ok _
  · split
    · exact .ok _
    · exact .err _

mutual

theorem AsnType.valueset_done (env : Text → Option Int) : (ty : AsnType) → Done (ty.valueset env)
  | .mk kind cs => by
    cases kind with
    | integer named =>
      match cs with
      | some (c :: _) => rw [AsnType.valueset]; exact c.valueset_done env
      | some [] => rw [AsnType.valueset]; exact .panic; nofun
      | none => rw [AsnType.valueset]; exact .panic; nofun
    | _ => rw [AsnType.valueset]; exact .err _; all_goals nofun

theorem Constraint.valueset_done (env : Text → Option Int) : (c : Constraint) → Done (c.valueset env)
  | .subtype e => by rw [Constraint.valueset]; exact e.valueset_done env
  | .tableSimple _ | .tableRelation .. | .contents _ => by rw [Constraint.valueset]; exact .err _; all_goals nofun

theorem ElementSet.valueset_done (env : Text → Option Int) : (e : ElementSet) → Done (e.valueset env)
  | .mk root none => by rw [ElementSet.valueset]; exact .bind (unionValues_done env root) fun _ _ => .ok _
  | .mk root (some add) => by
    rw [ElementSet.valueset]
    exact .bind (unionValues_done env root) fun _ _ => .bind (unionValues_done env add) fun _ _ => .ok _

theorem unionValues_done (env : Text → Option Int) : (l : List (List Elements)) → Done (unionValues env l)
  | [] => by rw [unionValues]; exact .ok _
  | i :: is => by
    rw [unionValues]
    exact .bind (interValues_done env {} i) fun _ _ => .bind (unionValues_done env is) fun _ _ => .ok _

theorem interValues_done (env : Text → Option Int) (acc : ConstraintValues) :
    (l : List Elements) → Done (interValues env acc l)
  | [] => by rw [interValues]; exact .ok _
  | e :: es => by
    rw [interValues]
    exact .bind (e.values_done env) fun s _ => interValues_done env (intersectStep acc s) es

theorem Elements.values_done (env : Text → Option Int) : (e : Elements) → Done (e.values env)
  | .single t => by rw [Elements.values]; exact .bind (parseOrResolve_done _ _) fun _ _ => .ok _
  | .contained ty => by rw [Elements.values]; exact .bind (ty.valueset_done env) fun _ _ => .ok _
  | .range lo loIncl hi hiIncl => by
    rw [Elements.values]
    have hc : ∀ (b : Bool) (x y : Int), Done (if b then .ok x else checked128 y) := by
      intro b x y
      split
      · exact .ok _
      · exact checked128_done _
    exact .bind (parseOrResolve_done _ _) fun _ _ => .bind (hc _ _ _) fun _ _ => .bind (parseOrResolve_done _ _) fun _ _ =>
      .bind (hc _ _ _) fun _ _ => .bind (checked128_done _) fun _ _ => .ok _
  | .size e => by rw [Elements.values]; exact .bind (e.valueset_done env) fun _ _ => .ok _
  | .alphabet _ => by rw [Elements.values]; exact .err _
  | .set _ => by rw [Elements.values]; exact .err _

end

theorem sizeValueset_done (env : Text → Option Int) (c : Constraint) : Done (c.sizeValueset env) := by
  unfold Constraint.sizeValueset
  split
  · exact ElementSet.valueset_done _ _
  · exact .err _

theorem integerOfValueset_done (vs : ValueSet) : Done (integerOfValueset vs) := by
  unfold integerOfValueset
  refine .bind ?_ fun _ _ => .ok _
  have habs : ∀ v, Done (abs128 v) := fun v => checked128_done _
  refine .ite ?_ ?_
  · cases vs.root.min with
    | none => exact .panic
    | some mn =>
      cases vs.root.max with
      | none => exact .panic
      | some mx => exact Done.bind (habs mx) fun _ _ => Done.bind (habs mn) fun _ _ => .ok _
  · cases vs.root.max with
    | none => exact .panic
    | some mx => exact .ok _

theorem explicitNumbers_done : (l : List EnumValue) → Done (explicitNumbers l)
  | [] => .ok _
  | e :: vs => by
    unfold explicitNumbers
    split
    · exact .ok _
    · rename_i h
      cases h
      split
      · exact .bind (explicitNumbers_done vs) fun _ _ => .ok _
      · exact .panic
    · rename_i h
      cases h
      exact explicitNumbers_done vs

theorem resolveNamedBits_done : (l : List (Text × NamedValue)) → Done (resolveNamedBits l)
  | [] => .ok _
  | e :: vs => by
    unfold resolveNamedBits
    split
    · exact .ok _
    · rename_i h
      cases h
      split
      · exact .bind (resolveNamedBits_done vs) fun _ _ => .ok _
      · exact .panic
    · rename_i h
      cases h
      exact resolveNamedBits_done vs

theorem lenientSize_done (env : Text → Option Int) (cs : Option (List Constraint)) : Done (lenientSize env cs) := by
  unfold lenientSize
  split
  · split
    · exact .bind (sizeValueset_done _ _) fun _ _ => .ok _
    · exact .ok _
  · exact .ok _

theorem strictSize_done (env : Text → Option Int) (cs : Option (List Constraint)) : Done (strictSize env cs) := by
  unfold strictSize
  split
  · split
    · exact .bind (sizeValueset_done _ _) fun _ _ => .ok _
    · exact .err _
  · exact .ok _

theorem resolveBase_done (env : Text → Option Int) (ty : AsnType) : Done (resolveBase env ty) := by
  unfold resolveBase
  split
  · unfold resolveInteger
    split
    · exact .ok _
    · exact .ok _
    · exact .bind (AsnType.valueset_done _ _) fun _ _ => integerOfValueset_done _
  · exact .bind (explicitNumbers_done _) fun _ _ => .bind (explicitNumbers_done _) fun _ _ => .ok _
  · exact .bind (lenientSize_done _ _) fun _ _ => .bind (resolveNamedBits_done _) fun _ _ => .ok _
  · exact .ok _
  · exact .bind (lenientSize_done _ _) fun _ _ => .ok _
  · exact .bind (strictSize_done _ _) fun _ _ => .ok _
  · exact .ok _
  · exact .ok _
  · exact .err _

/-! ## SEQUENCE types with the fields of a class -/

theorem firstConstraint_done (ty : AsnType) : Done ty.firstConstraint := by
  unfold AsnType.firstConstraint
  split
  · exact .ok _
  · exact .panic

theorem setReference_done (c : Constraint) : Done c.setReference := by
  unfold Constraint.setReference
  split <;> first | exact .ok _ | exact .err _ | exact .panic

theorem resolveClassFields_done (R : Resolver) (root : List SeqComponent) (adds : List SeqGroup) (ext : Bool) :
    Done (resolveClassFields R root adds ext) := by
  unfold resolveClassFields
  split
  · exact .err _
  · refine .bind (firstConstraint_done _) fun _ _ => .bind (setReference_done _) fun _ _ => ?_
    split
    · refine .bind ?_ fun _ _ => .ok _
      unfold objectComponents
      split
      · exact .ok _
      · refine .bind (mapOut_done fun c _ => ?_) fun _ _ => .ok _
        unfold objectComponent
        split
        · split
          · exact .bind (firstConstraint_done _) fun _ _ => .ok _
          · exact .ok _
        · exact .ok _
    · exact .err _

/-! ## Types -/

/-- The parameterized definitions of the resolver are those of the schema. -/
def ParamsOf (ms : List Module) (R : Resolver) : Prop :=
  ∀ t e, get R.params t = some e → ∃ M ∈ ms, ∃ d, (t, d) ∈ M.definitions ∧ d.params = some e

/-- `n` nested calls are enough for the type. -/
def Suffices (ms : List Module) (n : Nat) (ty : AsnType) : Prop := ∀ R, ParamsOf ms R → Done (resolveType n R ty)

theorem Suffices.more {ms : List Module} {n m : Nat} (h : n ≤ m) {ty : AsnType} (hf : Suffices ms n ty) : Suffices ms m ty := by
  intro R hR
  induction h with
  | refl => exact hf R hR
  | step _ ih => exact ih.of_le (resolveType_mono R _ ty)

/-- One number for the members of a list. -/
theorem uniform {α : Type} {P : Nat → α → Prop} (mono : ∀ n m x, n ≤ m → P n x → P m x) {l : List α}
    (h : ∀ x ∈ l, ∃ n, P n x) : ∃ n, ∀ m, n ≤ m → ∀ x ∈ l, P m x := by
  induction l with
  | nil => exact ⟨0, fun _ _ => nofun⟩
  | cons a l ih =>
    obtain ⟨n, hn⟩ := ih fun x hx => h x (List.mem_cons_of_mem _ hx)
    obtain ⟨k, hk⟩ := h a List.mem_cons_self
    refine ⟨max n k, fun m hm x hx => ?_⟩
    rcases List.mem_cons.mp hx with rfl | hx
    · exact mono k m x (by omega) hk
    · exact hn m (by omega) x hx

theorem fits_of_instances {ms : List Module} (ty : AsnType)
    (h : ∀ a, Occurs a ty → ∃ n, ∀ cs, Suffices ms n (.mk (.parameterized a.1 a.2) cs)) : ∃ n, Suffices ms n ty := by
  match ty with
  | .mk (.parameterized t ps) cs =>
    obtain ⟨n, hn⟩ := h (t, ps) .here
    exact ⟨n, hn cs⟩
  | .mk (.choice root adds) cs =>
    have h1 : ∀ c ∈ root, ∃ n, (fun n (c : Component) => ∀ id ty, c = .mk id ty → Suffices ms n ty) n c := by
      rintro ⟨id, ty⟩ hc
      have : sizeOf ty < sizeOf (AsnType.mk (.choice root adds) cs) := by
        have := List.sizeOf_lt_of_mem hc
        simp at this ⊢
        omega
      obtain ⟨n, hn⟩ := fits_of_instances ty fun a ha => h a (.alternative hc ha)
      exact ⟨n, fun _ _ e => by cases e; exact hn⟩
    obtain ⟨n1, hn1⟩ := uniform (fun n m x hnm hx id ty e => (hx id ty e).more hnm) h1
    match adds with
    | none =>
      refine ⟨n1 + 1, fun R hR => ?_⟩
      rw [resolveType]
      refine .bind (mapOut_done ?_) fun _ _ => .ok _
      rintro ⟨id, ty⟩ hc
      exact .bind (hn1 n1 (Nat.le_refl _) _ hc id ty rfl R hR) fun _ _ => .ok _
    | some gs =>
      have h2 : ∀ c ∈ groupComponents gs, ∃ n, (fun n (c : Component) => ∀ id ty, c = .mk id ty → Suffices ms n ty) n c := by
        rintro ⟨id, ty⟩ hc
        obtain ⟨⟨v, alts⟩, hg, hc⟩ := List.mem_flatMap.mp hc
        have : sizeOf ty < sizeOf (AsnType.mk (.choice root (some gs)) cs) := by
          have e1 := List.sizeOf_lt_of_mem hg
          have e2 := List.sizeOf_lt_of_mem hc
          simp at e1 e2 ⊢
          omega
        obtain ⟨n, hn⟩ := fits_of_instances ty fun a ha => h a (.addition hg hc ha)
        exact ⟨n, fun _ _ e => by cases e; exact hn⟩
      obtain ⟨n2, hn2⟩ := uniform (fun n m x hnm hx id ty e => (hx id ty e).more hnm) h2
      refine ⟨max n1 n2 + 1, fun R hR => ?_⟩
      rw [resolveType]
      refine .bind (mapOut_done ?_) fun _ _ => .bind (mapOut_done ?_) fun _ _ => .ok _
      · rintro ⟨id, ty⟩ hc
        exact .bind (hn1 _ (Nat.le_max_left _ _) _ hc id ty rfl R hR) fun _ _ => .ok _
      · rintro ⟨id, ty⟩ hc
        exact .bind (hn2 _ (Nat.le_max_right _ _) _ hc id ty rfl R hR) fun _ _ => .ok _
  | .mk (.sequence root adds ext) cs =>
    have h1 : ∀ c ∈ root, ∃ n, (fun n (c : SeqComponent) => ∀ id ty o d, c = .mk id ty o d → Suffices ms n ty) n c := by
      rintro ⟨id, ty, o, d⟩ hc
      have : sizeOf ty < sizeOf (AsnType.mk (.sequence root adds ext) cs) := by
        have := List.sizeOf_lt_of_mem hc
        simp at this ⊢
        omega
      obtain ⟨n, hn⟩ := fits_of_instances ty fun a ha => h a (.component hc ha)
      exact ⟨n, fun _ _ _ _ e => by cases e; exact hn⟩
    obtain ⟨n1, hn1⟩ := uniform (fun n m x hnm hx id ty o d e => (hx id ty o d e).more hnm) h1
    refine ⟨n1 + 1, fun R hR => ?_⟩
    rw [resolveType]
    have : Done (mapOut (resolveComponent (resolveType n1 R)) root) := by
      refine mapOut_done ?_
      rintro ⟨id, ty, o, d⟩ hc
      exact .bind (hn1 n1 (Nat.le_refl _) _ hc id ty o d rfl R hR) fun _ _ => .ok _
    split
    · exact .ok _
    · exact resolveClassFields_done R root adds ext
    · exact .panic
    · rename_i e; exact absurd e this
  | .mk (.sequenceOf size ty) cs =>
    obtain ⟨n, hn⟩ := fits_of_instances ty fun a ha => h a (.element ha)
    refine ⟨n + 1, fun R hR => ?_⟩
    rw [resolveType]
    refine .bind (hn R hR) fun _ _ => ?_
    split
    · exact .ok _
    · exact .bind (sizeValueset_done _ _) fun _ _ => .ok _
  | .mk (.reference r) cs =>
    refine ⟨1, fun R _ => ?_⟩
    rw [resolveType]
    split
    · exact .ok _
    · exact .err _
  | .mk (.classField _ _) cs | .mk .set cs | .mk .setOf cs =>
    exact ⟨1, fun R _ => by rw [resolveType]; exact .err _⟩
  | .mk (.integer _) cs | .mk (.enumerated _ _ _) cs | .mk (.bitString _) cs | .mk .boolean cs | .mk .null cs
  | .mk .octetString cs | .mk .objectIdentifier cs | .mk .relativeOid cs | .mk (.characterString _) cs =>
    refine ⟨1, fun R _ => ?_⟩
    rw [resolveType]
    · exact .bind (resolveBase_done _ _) fun _ _ => .ok _
    all_goals nofun
termination_by sizeOf ty
decreasing_by all_goals first | (simp at this ⊢; omega) | (simp; omega)

/-- The definitions with a name. -/
def allDefinitions (ms : List Module) : List (Module × Text × Definition) :=
  ms.flatMap fun M => M.definitions.map fun d => (M, d)

theorem mem_definitionsOf {ms : List Module} {M : Module} {k : Text} {d : Definition} :
    (M, k, d) ∈ allDefinitions ms ↔ M ∈ ms ∧ (k, d) ∈ M.definitions := by
  unfold allDefinitions
  simp only [List.mem_flatMap, List.mem_map]
  constructor
  · rintro ⟨N, hN, x, hx, e⟩
    cases e
    exact ⟨hN, hx⟩
  · rintro ⟨h, h'⟩
    exact ⟨M, h, (k, d), h', rfl⟩

theorem instance_fits {ms : List Module} (hr : ReadingEnds ms) {a : Instance} (ha : Arises ms a)
    (acc : Acc (fun b a => Unfolds ms a b) a) : ∃ n, ∀ cs, Suffices ms n (.mk (.parameterized a.1 a.2) cs) := by
  induction acc with
  | intro a _ ih =>
    have h1 : ∀ x ∈ allDefinitions ms, ∃ n, (fun n (x : Module × Text × Definition) =>
        x.2.1 = a.1 → ∀ e, x.2.2.params = some e → ∀ R, ParamsOf ms R → Done ((e a.2).bind (resolveType n R))) n x := by
      rintro ⟨M, k, d⟩ hx
      obtain ⟨hM, hd⟩ := mem_definitionsOf.mp hx
      by_cases hk : k = a.1
      · subst hk
        cases he : d.params with
        | none => exact ⟨0, fun _ e he' => by dsimp only at he'; rw [he] at he'; cases he'⟩
        | some e =>
          have hdone := hr.expansion a ha M hM d e hd he
          cases hx : e a.2 with
          | ok ty =>
            obtain ⟨n, hn⟩ := fits_of_instances ty fun b hb =>
              ih b ⟨M, hM, d, e, ty, hd, he, hx, hb⟩ (.unfolded ha ⟨M, hM, d, e, ty, hd, he, hx, hb⟩)
            refine ⟨n, fun _ e' he' R hR => ?_⟩
            dsimp only at he'
            rw [he] at he'
            cases he'
            rw [hx]
            exact hn R hR
          | diverge => exact absurd hx hdone
          | err _ | panic =>
            refine ⟨0, fun _ e' he' R hR => ?_⟩
            dsimp only at he'
            rw [he] at he'
            cases he'
            rw [hx]
            nofun
      · exact ⟨0, fun e => absurd e hk⟩
    obtain ⟨n, hn⟩ := uniform (P := fun n (x : Module × Text × Definition) =>
        x.2.1 = a.1 → ∀ e, x.2.2.params = some e → ∀ R, ParamsOf ms R → Done ((e a.2).bind (resolveType n R)))
      (by
        intro n m x hnm hx hk e he R hR
        have := hx hk e he R hR
        cases hy : e a.2 with
        | ok ty =>
          rw [hy] at this
          show Done (resolveType m R ty)
          have this : Done (resolveType n R ty) := this
          clear hx
          induction hnm with
          | refl => exact this
          | step _ ih => exact ih.of_le (resolveType_mono R _ ty)
        | diverge => rw [hy] at this; exact absurd rfl this
        | err _ | panic => nofun) h1
    refine ⟨n + 1, fun cs R hR => ?_⟩
    rw [resolveType]
    split
    · rename_i e he
      obtain ⟨M, hM, d, hd, hp⟩ := hR _ _ he
      exact hn n (Nat.le_refl _) (M, a.1, d) (mem_definitionsOf.mpr ⟨hM, hd⟩) rfl e hp R hR
    · exact .err _

/-! ## Values -/

/-- The names of what is resolved are in the list. -/
def Among (names : List Text) (R : Resolver) : Prop := ∀ k x, get R.resolved k = some x → k ∈ names

theorem filter_lt {α : Type} {p q : α → Bool} {l : List α} (h : ∀ x, p x = true → q x = true) {a : α} (ha : a ∈ l)
    (hp : p a = false) (hq : q a = true) : (l.filter p).length < (l.filter q).length := by
  induction l with
  | nil => cases ha
  | cons b l ih =>
    have hle : (l.filter p).length ≤ (l.filter q).length := by
      clear ih ha
      induction l with
      | nil => exact Nat.le_refl _
      | cons c l ih =>
        rw [List.filter_cons, List.filter_cons]
        cases hc : p c with
        | true => rw [h c hc]; simpa using ih
        | false =>
          cases q c with
          | true => simpa using Nat.le_succ_of_le ih
          | false => simpa using ih
    rcases List.mem_cons.mp ha with rfl | ha
    · rw [List.filter_cons, List.filter_cons, hp, hq]
      simpa using Nat.lt_succ_of_le hle
    · have := ih ha
      rw [List.filter_cons, List.filter_cons]
      cases hc : p b with
      | true => rw [h b hc]; simpa using this
      | false =>
        cases q b with
        | true => simpa using Nat.lt_succ_of_lt this
        | false => simpa using this

theorem resolveValue_done {names : List Text} {R : Resolver} (ha : Among names R) (hf : Founded R) (v : Text)
    (ty : RType) : ∀ n, names.length + 1 < n → Done (resolveValue n R v ty) := by
  obtain ⟨rank, hrank⟩ := hf
  have key : ∀ n ty, (∀ r, ty = .reference r → (names.filter fun k => rank k ≤ rank r).length < n) → 0 < n →
      Done (resolveValue n R v ty) := by
    intro n
    induction n with
    | zero => exact fun _ _ h => absurd h (Nat.lt_irrefl 0)
    | succ n ih =>
      intro ty hty _
      unfold resolveValue
      cases get R.resolved v with
      | some x =>
        cases x with
        | value _ => exact .ok _
        | _ => exact .err _
      | none =>
        cases ty with
        | base b =>
          cases b with
          | integer =>
            dsimp only
            split
            · exact .ok _
            · exact .panic
          | enumerated => exact .ok _
          | _ => exact .err _
        | reference r =>
          dsimp only
          split
          · rename_i t ht
            refine .bind ?_ fun _ _ => .ok _
            have hr := hty r rfl
            have hpos : 0 < (names.filter fun k => rank k ≤ rank r).length := by
              refine List.length_pos_of_mem (a := r) (List.mem_filter.mpr ⟨ha r _ ht, ?_⟩)
              simp
            refine ih t ?_ (by omega)
            rintro s rfl
            have hlt := hrank r _ ht s (by rw [RType.names]; exact List.mem_singleton.mpr rfl)
            have : (names.filter fun k => rank k ≤ rank s).length < (names.filter fun k => rank k ≤ rank r).length :=
              filter_lt (a := r) (by intro x hx; simp only [decide_eq_true_eq] at hx ⊢; omega) (ha r _ ht)
                (by simp only [decide_eq_false_iff_not]; omega) (by simp)
            omega
          · exact .err _
        | _ => exact .err _
  intro n hn
  refine key n ty (fun r _ => ?_) (by omega)
  have := List.length_filter_le (fun k => decide (rank k ≤ rank r)) names
  omega

/-! ## Definitions -/

/-- From some number of nested calls on. -/
def Soon (P : Nat → Prop) : Prop := ∃ n, ∀ m, n ≤ m → P m

theorem Soon.all {α : Type} {P : Nat → α → Prop} {l : List α} (h : ∀ x ∈ l, Soon fun n => P n x) :
    Soon fun n => ∀ x ∈ l, P n x := by
  obtain ⟨n, hn⟩ := uniform (P := fun n x => ∀ m, n ≤ m → P m x) (fun n m x hnm hx k hk => hx k (by omega)) h
  exact ⟨n, fun m hm x hx => hn m hm x hx m (Nat.le_refl _)⟩

/-- What holds of the resolver whenever it resolves a definition. -/
structure Sound (ms : List Module) (names : List Text) (R : Resolver) : Prop where
  params : ParamsOf ms R
  among : Among names R
  founded : Founded R

theorem resolveObject_done {ms : List Module} {names : List Text} {o : ObjectValue}
    (h : ∀ ty, FieldType ty o → ∃ n, Suffices ms n ty) :
    Soon fun n => ∀ R, Sound ms names R → Done (resolveObject n R o) := by
  cases o with
  | input s => exact ⟨0, fun _ _ R _ => by rw [resolveObject]; exact .err _⟩
  | fields fs =>
    have h1 : ∀ p ∈ fs, Soon fun n => ∀ R, Sound ms names R → Done (resolveField n R p.2) := by
      rintro ⟨x, f⟩ hp
      match f with
      | .type none => exact ⟨0, fun _ _ R _ => by rw [resolveField]; exact .ok _⟩
      | .type (some ty) =>
        obtain ⟨n, hn⟩ := h ty (.type hp)
        exact ⟨n, fun m hm R hR => by rw [resolveField]; exact .bind ((hn.more hm) R hR.params) fun _ _ => .ok _⟩
      | .fixedTypeValue ty v =>
        obtain ⟨n, hn⟩ := h ty (.value hp)
        refine ⟨max n (names.length + 2), fun m hm R hR => ?_⟩
        rw [resolveField]
        refine .bind ((hn.more (by omega)) R hR.params) fun t _ => .bind ?_ fun _ _ => .ok _
        cases v with
        | none => exact .ok _
        | some v => exact .bind (resolveValue_done hR.among hR.founded v t m (by omega)) fun _ _ => .ok _
    obtain ⟨n, hn⟩ := Soon.all h1
    refine ⟨n, fun m hm R hR => ?_⟩
    rw [resolveObject]
    exact .bind (mapOut_done fun p hp => .bind (hn m hm p hp R hR) fun _ _ => .ok _) fun _ _ => .ok _

theorem addObject_done (R : Resolver) (u : Option Text) (s : RObjectSet) (o : RObject) : Done (addObject R u s o) := by
  unfold addObject
  dsimp only
  repeat' split
  all_goals first | exact .ok _ | exact .panic

theorem addElements_done {n : Nat} {R : Resolver} {u : Option Text} {es : List SetElement}
    (h : ∀ o, SetElement.object o ∈ es → Done (resolveObject n R o)) : ∀ s, Done (addElements n R u s es) := by
  induction es with
  | nil => exact fun _ => .ok _
  | cons e es ih =>
    intro s
    rw [addElements]
    refine .bind ?_ fun s' _ => ih (fun o ho => h o (List.mem_cons_of_mem _ ho)) s'
    cases e with
    | setRef r =>
      rw [addElement]
      split
      · exact .ok _
      · exact .err _
    | objectRef r =>
      rw [addElement]
      split
      · exact addObject_done _ _ _ _
      · exact .err _
    | object o =>
      rw [addElement]
      exact .bind (h o List.mem_cons_self) fun _ _ => addObject_done _ _ _ _

/-- The types of a definition. -/
inductive TypeOf (ty : AsnType) : Assignment → Prop
  | type : TypeOf ty (.type ty)
  | value {v} : TypeOf ty (.value ty v)
  | object {cls o} : FieldType ty o → TypeOf ty (.object cls o)
  | set {cls root add o} : SetElement.object o ∈ root ++ add → FieldType ty o → TypeOf ty (.objectSet cls root add)

theorem resolveDefinition_done {ms : List Module} {names : List Text} {a : Assignment}
    (h : ∀ ty, TypeOf ty a → ∃ n, Suffices ms n ty) :
    Soon fun n => ∀ R, Sound ms names R → Done (resolveDefinition n R a) := by
  cases a with
  | value ty v =>
    obtain ⟨n, hn⟩ := h ty .value
    refine ⟨max n (names.length + 2), fun m hm R hR => ?_⟩
    rw [resolveDefinition]
    exact .bind ((hn.more (by omega)) R hR.params) fun t _ =>
      .bind (resolveValue_done hR.among hR.founded v t m (by omega)) fun _ _ => .ok _
  | type ty =>
    obtain ⟨n, hn⟩ := h ty .type
    refine ⟨n, fun m hm R hR => ?_⟩
    rw [resolveDefinition]
    exact .bind ((hn.more hm) R hR.params) fun t _ => .ok _
  | «class» fs => exact ⟨0, fun _ _ R _ => by rw [resolveDefinition]; exact .err _⟩
  | objectSet cls root add =>
    have h1 : ∀ e ∈ root ++ add, Soon fun n => ∀ R, Sound ms names R → ∀ o, e = .object o → Done (resolveObject n R o) := by
      intro e he
      cases e with
      | object o =>
        obtain ⟨n, hn⟩ := resolveObject_done (names := names) fun ty hty => h ty (.set he hty)
        exact ⟨n, fun m hm R hR o' e => by cases e; exact hn m hm R hR⟩
      | _ => exact ⟨0, fun _ _ _ _ _ e => by cases e⟩
    obtain ⟨n, hn⟩ := Soon.all h1
    refine ⟨n, fun m hm R hR => ?_⟩
    rw [resolveDefinition]
    refine .bind ?_ fun _ _ => .ok _
    unfold resolveObjectSet
    split
    · exact .err _
    · exact addElements_done (fun o ho => hn m hm _ ho R hR o rfl) _
  | object cls o =>
    obtain ⟨n, hn⟩ := resolveObject_done (names := names) fun ty hty => h ty (.object hty)
    refine ⟨n, fun m hm R hR => ?_⟩
    rw [resolveDefinition]
    exact .bind (hn m hm R hR) fun _ _ => .ok _

/-! ## Modules -/

/-- The classes of a schema. -/
def classesOf (ms : List Module) : List (List (Text × ClassField)) :=
  (allDefinitions ms).filterMap fun x => match x.2.2.kind with
    | .class fs => some fs
    | _ => none

theorem mem_classesOf {ms : List Module} {fs : List (Text × ClassField)} : fs ∈ classesOf ms ↔ IsClass ms fs := by
  unfold classesOf IsClass
  rw [List.mem_filterMap]
  constructor
  · rintro ⟨⟨M, k, d⟩, hx, he⟩
    obtain ⟨hM, hd⟩ := mem_definitionsOf.mp hx
    dsimp only at he
    split at he
    · cases he; exact ⟨M, hM, k, d, hd, by assumption⟩
    · cases he
  · rintro ⟨M, hM, c, d, hd, he⟩
    exact ⟨(M, c, d), mem_definitionsOf.mpr ⟨hM, hd⟩, by dsimp only; rw [he]⟩

/-- What a definition may be once its objects are read. -/
def readings (ms : List Module) (M : Module) (d : Definition) : List Assignment :=
  match d.kind with
  | .object cls (.input s) => (classesOf ms).filterMap fun fs =>
      match M.readObject s fs with
      | .ok o => some (.object cls o)
      | _ => none
  | .objectSet cls root add => (classesOf ms).filterMap fun fs =>
      match M.readSet (root, add) fs with
      | .ok r => some (.objectSet cls r.1 r.2)
      | _ => none
  | a => [a]

/-- The classes of the resolver are those of the schema. -/
def ClassesOf (ms : List Module) (R : Resolver) : Prop := ∀ c fs, get R.classes c = some fs → IsClass ms fs

theorem readDefinition_readings {ms : List Module} {R : Resolver} (hc : ClassesOf ms R) {M : Module}
    {d e : Text × Definition} (h : readDefinition R M d = .ok e) : e.2.kind ∈ readings ms M d.2 := by
  unfold readDefinition at h
  unfold readings
  split at h
  · rename_i cls s hk
    rw [hk]
    split at h
    · cases h
    · rename_i fs hfs
      obtain ⟨o, ho, h⟩ := Out.bind_ok.mp h
      cases h
      exact List.mem_filterMap.mpr ⟨fs, mem_classesOf.mpr (hc _ _ hfs), by rw [ho]⟩
  · rename_i cls fs hk
    rw [hk]
    split at h
    · cases h
      rw [hk]
      exact List.mem_singleton.mpr rfl
    · cases h
  · rename_i cls root add hk
    rw [hk]
    split at h
    · cases h
    · rename_i fs hfs
      obtain ⟨r, hr, h⟩ := Out.bind_ok.mp h
      cases h
      exact List.mem_filterMap.mpr ⟨fs, mem_classesOf.mpr (hc _ _ hfs), by rw [hr]⟩
  · rename_i h1 h2 h3
    cases h
    split
    · rename_i hk; exact absurd hk (h1 _ _)
    · rename_i hk; exact absurd hk (h3 _ _ _)
    · exact List.mem_singleton.mpr rfl

theorem readings_typeIn {ms : List Module} {M : Module} (hM : M ∈ ms) {k : Text} {d : Definition}
    (hd : (k, d) ∈ M.definitions) (hp : d.params = none) {a : Assignment} (ha : a ∈ readings ms M d) {ty : AsnType}
    (hty : TypeOf ty a) : TypeIn ms ty := by
  obtain ⟨kind, params⟩ := d
  cases hp
  unfold readings at ha
  dsimp only at ha
  split at ha
  · rename_i cls s
    obtain ⟨fs, hfs, he⟩ := List.mem_filterMap.mp ha
    split at he
    · rename_i o ho
      cases he
      cases hty with
      | object hf => exact .object hM hd (mem_classesOf.mp hfs) ho hf
    · cases he
  · rename_i cls root add
    obtain ⟨fs, hfs, he⟩ := List.mem_filterMap.mp ha
    split at he
    · rename_i r hr
      cases he
      cases hty with
      | set hm hf => exact .set hM hd (mem_classesOf.mp hfs) hr hm hf
    · cases he
  · rename_i h1 h2
    cases List.mem_singleton.mp ha
    cases hty with
    | type => exact .type hM hd
    | value => exact .value hM hd
    | object hf => exact .fields hM hd hf
    | set hm hf => exact absurd rfl (h2 _ _ _)

/-- One number of nested calls is enough for all definitions. -/
theorem definitions_done {ms : List Module} {names : List Text}
    (h : ∀ ty, TypeIn ms ty → ∃ n, Suffices ms n ty) :
    Soon fun n => ∀ M ∈ ms, ∀ k d, (k, d) ∈ M.definitions → d.params = none → ∀ a ∈ readings ms M d, ∀ R,
      Sound ms names R → Done (resolveDefinition n R a) := by
  have h1 : ∀ x ∈ allDefinitions ms, Soon fun n => ∀ a ∈ readings ms x.1 x.2.2, x.2.2.params = none →
      ∀ R, Sound ms names R → Done (resolveDefinition n R a) := by
    rintro ⟨M, k, d⟩ hx
    obtain ⟨hM, hd⟩ := mem_definitionsOf.mp hx
    refine Soon.all fun a ha => ?_
    dsimp only
    cases hp : d.params with
    | some e => exact ⟨0, fun _ _ h => by cases h⟩
    | none =>
      obtain ⟨n, hn⟩ := resolveDefinition_done (names := names) fun ty hty =>
        h ty (readings_typeIn hM hd hp ha hty)
      exact ⟨n, fun m hm _ => hn m hm⟩
  obtain ⟨n, hn⟩ := Soon.all h1
  exact ⟨n, fun m hm M hM k d hd hp a ha R hR => hn m hm (M, k, d) (mem_definitionsOf.mpr ⟨hM, hd⟩) a ha hp R hR⟩

theorem resolveOne_sound {ms : List Module} {names : List Text} {n : Nat} {defs : List (Text × Definition)}
    {R R' : Resolver} {k : Text} (h : resolveOne n defs R k = .ok R') (hp : ParamsOf ms R) (hc : ClassesOf ms R)
    (ha : Among names R) (hn : ∀ j d, (j, d) ∈ defs → j ∈ names)
    (hdp : ∀ j d e, (j, d) ∈ defs → d.params = some e → ∃ M ∈ ms, ∃ d, (j, d) ∈ M.definitions ∧ d.params = some e)
    (hdc : ∀ j d fs, (j, d) ∈ defs → d.kind = .class fs → IsClass ms fs) :
    ParamsOf ms R' ∧ ClassesOf ms R' ∧ Among names R' := by
  refine ⟨?_, ?_, ?_⟩
  · intro t e ht
    unfold resolveOne at h
    split at h
    · cases h; exact hp t e ht
    · rename_i d hd
      split at h
      · rename_i e' he
        cases h
        dsimp only at ht
        rw [get_put] at ht
        split at ht
        · rename_i hk
          cases ht
          exact hk ▸ hdp k d e (get_mem hd) he
        · exact hp t e ht
      · split at h
        · cases h; exact hp t e ht
        · obtain ⟨x, _, h⟩ := Out.bind_ok.mp h
          cases h
          exact hp t e ht
  · intro c fs ht
    unfold resolveOne at h
    split at h
    · cases h; exact hc c fs ht
    · rename_i d hd
      split at h
      · cases h; exact hc c fs ht
      · split at h
        · rename_i fs' hk
          cases h
          dsimp only at ht
          rw [get_put] at ht
          split at ht
          · cases ht; exact hdc k d fs (get_mem hd) hk
          · exact hc c fs ht
        · obtain ⟨x, _, h⟩ := Out.bind_ok.mp h
          cases h
          exact hc c fs ht
  · intro j x hj
    rcases resolveOne_new h hj with ⟨y, hy⟩ | ⟨d, hd⟩
    · exact ha j y hy
    · exact hn j d hd

theorem resolveInOrder_done {ms : List Module} {names : List Text} {n : Nat} {defs : List (Text × Definition)}
    (hn : ∀ j d, (j, d) ∈ defs → j ∈ names)
    (hdp : ∀ j d e, (j, d) ∈ defs → d.params = some e → ∃ M ∈ ms, ∃ d, (j, d) ∈ M.definitions ∧ d.params = some e)
    (hdc : ∀ j d fs, (j, d) ∈ defs → d.kind = .class fs → IsClass ms fs)
    (hdone : ∀ j d, (j, d) ∈ defs → d.params = none → ∀ R, Sound ms names R → Done (resolveDefinition n R d.kind)) :
    {order : List Text} → {R : Resolver} → order.Nodup → Closed R → Founded R → ParamsOf ms R → ClassesOf ms R →
    Among names R → (∀ k ∈ order, ∀ d, get defs k = some d → get R.resolved k = none) →
    Done (resolveInOrder n defs R order) ∧
      ∀ R', resolveInOrder n defs R order = .ok R' → ParamsOf ms R' ∧ ClassesOf ms R' ∧ Among names R'
  | [], R, _, _, _, hp, hc, ha, _ => ⟨.ok _, fun R' h => by cases h; exact ⟨hp, hc, ha⟩⟩
  | k :: ks, R, hnd, hC, hF, hp, hc, ha, hk => by
      rw [List.nodup_cons] at hnd
      have h1 : Done (resolveOne n defs R k) := by
        unfold resolveOne
        split
        · exact .ok _
        · rename_i d hd
          split
          · exact .ok _
          · rename_i hpar
            split
            · exact .ok _
            · rename_i hkind
              exact .bind (hdone k d (get_mem hd) hpar R ⟨hp, ha, hF⟩) fun _ _ => .ok _
      have rec_ : ∀ R1, resolveOne n defs R k = .ok R1 → Done (resolveInOrder n defs R1 ks) ∧
          ∀ R', resolveInOrder n defs R1 ks = .ok R' → ParamsOf ms R' ∧ ClassesOf ms R' ∧ Among names R' := by
        intro R1 hR1
        have hC1 : Closed R1 := resolveOne_closed hR1 hC fun d hd ⟨t, ht⟩ => by
          rw [hk k List.mem_cons_self d hd] at ht; cases ht
        obtain ⟨hp1, hc1, ha1⟩ := resolveOne_sound hR1 hp hc ha hn hdp hdc
        refine resolveInOrder_done hn hdp hdc hdone hnd.2 hC1
          (resolveOne_founded hR1 hC hF (hk k List.mem_cons_self)) hp1 hc1 ha1 ?_
        intro j hj d hd
        rw [(resolveOne_keeps hR1 (fun e => hnd.1 (e ▸ hj) : j ≠ k)).1]
        exact hk j (List.mem_cons_of_mem _ hj) d hd
      rw [resolveInOrder]
      refine ⟨.bind h1 fun R1 hR1 => (rec_ R1 hR1).1, fun R' hR' => ?_⟩
      obtain ⟨R1, hR1, hR'⟩ := Out.bind_ok.mp hR'
      exact (rec_ R1 hR1).2 R' hR'

theorem addClasses_classesOf {ms : List Module} {R : Resolver} (h : ClassesOf ms R) {M : Module} (hM : M ∈ ms) :
    ClassesOf ms (addClasses R M.definitions) := by
  have key : ∀ (l : List (Text × Definition)) (m : List (Text × List (Text × ClassField))), (∀ d ∈ l, d ∈ M.definitions) →
      (∀ c fs, get m c = some fs → IsClass ms fs) →
      ∀ c fs, get (l.foldl (fun m d => match d.2.kind with | .class fs => put m d.1 fs | _ => m) m) c = some fs →
        IsClass ms fs := by
    intro l
    induction l with
    | nil => exact fun m _ h => h
    | cons d l ih =>
      intro m hl hm
      refine ih _ (fun x hx => hl x (List.mem_cons_of_mem _ hx)) ?_
      intro c fs hc
      dsimp only at hc
      split at hc
      · rename_i fs' hk
        rw [get_put] at hc
        split at hc
        · cases hc
          exact ⟨M, hM, d.1, d.2, hl d List.mem_cons_self, hk⟩
        · exact hm c fs hc
      · exact hm c fs hc
  exact key M.definitions R.classes (fun _ h => h) h

theorem readDefinition_done {ms : List Module} (hr : ReadingEnds ms) {M : Module} (hM : M ∈ ms) {R : Resolver}
    (hc : ClassesOf ms R) {d : Text × Definition} (hd : d ∈ M.definitions) : Done (readDefinition R M d) := by
  obtain ⟨k, kind, params⟩ := d
  unfold readDefinition
  dsimp only
  split
  · split
    · exact .err _
    · rename_i fs hfs
      exact .bind (hr.object M hM k _ _ params fs hd (hc _ _ hfs)) fun _ _ => .ok _
  · exact .ite (.ok _) (.err _)
  · split
    · exact .err _
    · rename_i fs hfs
      exact .bind (hr.set M hM k _ _ _ params fs hd (hc _ _ hfs)) fun _ _ => .ok _
  · exact .ok _

theorem order_done {n : Nat} {ms : List Module} (hd : DistinctDefinitions ms) (hr : ReadingEnds ms)
    (hdone : ∀ M ∈ ms, ∀ k d, (k, d) ∈ M.definitions → d.params = none → ∀ a ∈ readings ms M d, ∀ R,
      Sound ms ((allDefinitions ms).map (·.2.1)) R → Done (resolveDefinition n R a)) : {order done : List Text} →
    {R : Resolver} → {r : Out Err Resolver} → ResolvesOrder n ms order R r → order.Nodup → (∀ k ∈ order, k ∉ done) →
    Closed R → Founded R → DoneBy ms done R → ParamsOf ms R → ClassesOf ms R → Done r
  | [], done, R, r, h, _, _, _, _, _, _, _ => by cases h; exact .ok _
  | k :: ks, done, R, r, h, hn, hx, hC, hF, hD, hp, hcl => by
      rw [ResolvesOrder] at h
      split at h
      · cases h; exact .panic
      · rename_i M hM
        obtain ⟨r1, h1, h2⟩ := h
        have hmem : M ∈ ms := List.mem_of_find?_eq_some hM
        have hname : M.name = k := by
          have := List.find?_some hM
          simpa using this
        rw [List.nodup_cons] at hn
        have hcl0 := addClasses_classesOf hcl hmem
        unfold ResolvesModule at h1
        split at h1
        · rename_i defs hdefs
          obtain ⟨o, ho, hres⟩ := h1
          have hall := mapOut_ok hdefs
          have hdef : ∀ j d, (j, d) ∈ defs → ∃ d0, (j, d0) ∈ M.definitions ∧ d0.params = d.params ∧
              d.kind ∈ readings ms M d0 := by
            intro j d hjd
            obtain ⟨x, hx, hxy⟩ := hall.mem_right _ hjd
            have h1 := readDefinition_key hxy
            have h3 := readDefinition_readings hcl0 hxy
            obtain ⟨kx, dx⟩ := x
            obtain ⟨e1, e2⟩ := h1
            dsimp only at e1 e2
            subst e1
            exact ⟨dx, hx, e2.symm, h3⟩
          have fresh : ∀ j ∈ o, ∀ d, get defs j = some d → get R.resolved j = none := by
            intro j _ d hj
            cases hg : get R.resolved j with
            | none => rfl
            | some x =>
              obtain ⟨N, hN, hNd, e, he⟩ := hD j x hg
              obtain ⟨d0, hd0, _⟩ := hdef j d (get_mem hj)
              have := hd N hN M hmem j e d0 he hd0
              rw [this, hname] at hNd
              exact absurd hNd (hx k List.mem_cons_self)
          have hC0 : Closed (addClasses R M.definitions) := hC
          have hF0 : Founded (addClasses R M.definitions) := hF
          have hnames : ∀ N ∈ ms, ∀ j d, (j, d) ∈ N.definitions → j ∈ (allDefinitions ms).map (·.2.1) :=
            fun N hN j d hj => List.mem_map.mpr ⟨(N, j, d), mem_definitionsOf.mpr ⟨hN, hj⟩, rfl⟩
          have main := resolveInOrder_done (ms := ms) (names := (allDefinitions ms).map (·.2.1)) (n := n) (defs := defs)
            (fun j d hj => by obtain ⟨d0, h0, _⟩ := hdef j d hj; exact hnames M hmem j d0 h0)
            (fun j d e hj he => by
              obtain ⟨d0, h0, hpar, _⟩ := hdef j d hj
              exact ⟨M, hmem, d0, h0, hpar.trans he⟩)
            (fun j d fs hj hk => by
              obtain ⟨d0, h0, _, hread⟩ := hdef j d hj
              refine ⟨M, hmem, j, d0, h0, ?_⟩
              rw [hk] at hread
              unfold readings at hread
              split at hread
              · obtain ⟨_, _, he⟩ := List.mem_filterMap.mp hread
                split at he <;> cases he
              · obtain ⟨_, _, he⟩ := List.mem_filterMap.mp hread
                split at he <;> cases he
              · exact (List.mem_singleton.mp hread).symm)
            (fun j d hj hpar R hR => by
              obtain ⟨d0, h0, hp0, hread⟩ := hdef j d hj
              exact hdone M hmem j d0 h0 (hp0.trans hpar) _ hread R hR)
            (order := o) (R := addClasses R M.definitions) ho.nodup hC0 hF0 hp hcl0
            (fun j x hj => by obtain ⟨N, hN, _, e, he⟩ := hD j x hj; exact hnames N hN j e he) fresh
          rw [← hres] at main
          split at h2
          · rename_i R1
            have hr1 := hres.symm
            have c1 : Closed R1 := resolveInOrder_closed hr1 ho.nodup hC0 fun j hj d hg ⟨t, ht⟩ => by
              have ht : get R.resolved j = _ := ht
              rw [fresh j hj d hg] at ht; cases ht
            have c2 : Founded R1 := resolveInOrder_founded hr1 ho.nodup hC0 hF0 fresh
            obtain ⟨p1, q1, _⟩ := main.2 R1 rfl
            refine order_done hd hr hdone h2 hn.2 (done := k :: done) ?_ c1 c2 ?_ p1 q1
            · intro j hj hm
              rcases List.mem_cons.mp hm with rfl | hm
              · exact hn.1 hj
              · exact hx j (List.mem_cons_of_mem _ hj) hm
            · intro j x hj
              rcases resolveInOrder_new hr1 hj with ⟨y, hy⟩ | ⟨d, hjd⟩
              · obtain ⟨N, hN, hNd, e⟩ := hD j y hy
                exact ⟨N, hN, List.mem_cons_of_mem _ hNd, e⟩
              · obtain ⟨d0, hd0, _⟩ := hdef j d hjd
                exact ⟨M, hmem, hname ▸ List.mem_cons_self, d0, hd0⟩
          · cases h2; exact .err _
          · cases h2; exact .panic
          · exact absurd rfl main.1
        · cases h1; cases h2; exact .err _
        · cases h1; cases h2; exact .panic
        · rename_i hdv
          exact absurd hdv (mapOut_done fun d hd => readDefinition_done hr hmem hcl0 hd)

/-- Without an endless sequence everything is founded. -/
theorem acc_of_not_endless {ms : List Module} (h : ¬ Endless ms) {a : Instance} {ty : AsnType} (hty : TypeIn ms ty)
    (ha : Occurs a ty) : Acc (fun b a => Unfolds ms a b) a := by
  refine Classical.byContradiction fun hacc => h ?_
  have step : ∀ x : {x : Instance // ¬ Acc (fun b a => Unfolds ms a b) x},
      ∃ y : {x : Instance // ¬ Acc (fun b a => Unfolds ms a b) x}, Unfolds ms x.1 y.1 := by
    rintro ⟨x, hx⟩
    refine Classical.byContradiction fun hno => hx ⟨x, fun y hy => ?_⟩
    exact Classical.byContradiction fun hy' => hno ⟨⟨y, hy'⟩, hy⟩
  let next := fun x => (step x).choose
  let f : Nat → {x : Instance // ¬ Acc (fun b a => Unfolds ms a b) x} := fun n => Nat.rec ⟨a, hacc⟩ (fun _ x => next x) n
  exact ⟨fun i => (f i).1, ⟨ty, hty, ha⟩, fun i => (step (f i)).choose_spec⟩

theorem resolves_done {ms : List Module} (hd : DistinctDefinitions ms) (hr : ReadingEnds ms) (h : ¬ Endless ms) :
    Soon fun n => ∀ r, ResolvesModules n {} ms r → Done r := by
  obtain ⟨n, hn⟩ := definitions_done (ms := ms) (names := (allDefinitions ms).map (·.2.1)) fun ty hty =>
    fits_of_instances ty fun a ha => instance_fits hr (.written hty ha) (acc_of_not_endless h hty ha)
  refine ⟨n, fun m hm r hres => ?_⟩
  unfold ResolvesModules at hres
  split at hres
  · obtain ⟨order, ho, hres⟩ := hres
    exact order_done hd hr (hn m hm) (done := []) hres ho.nodup (fun _ _ => nofun) (fun _ _ hd => by cases hd)
      ⟨fun _ => 0, fun _ _ hd => by cases hd⟩ (fun _ _ hd => by cases hd) (fun _ _ hd => by cases hd)
      (fun _ _ hd => by cases hd)
  · cases hres; exact .err _

end Hampi.Compiler
