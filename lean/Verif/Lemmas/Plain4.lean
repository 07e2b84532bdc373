import Verif.Lemmas.ReadyDefs
import Verif.Props.Classes
/-! # Lemmas about resolving a schema in which every definition has a meaning: modules -/
namespace Hampi.Compiler
open Hampi.Compiler.Spec
open Hampi.Spec (Numeral)

section
variable {ms : List Module}

/-- The definition of `x` in `M` can be resolved with this much fuel, as soon as what it needs has been. -/
def Resolvable (ms : List Module) (n : Nat) (M : Module) (x : Text) (d : Definition) : Prop :=
  ∀ R S, Ctx ms R S → Known ms R → get R.resolved x = none → (∀ r N e, Imports ms M r N e → S r) →
    Has ms S (.module M) d.kind.refs →
    ∃ R', resolveOne n M.definitions R x = .ok R' ∧ Grows R R' ∧ Ready ms R' x ∧ Known ms R' ∧
      ∀ k, (get R'.resolved k).isSome → (get R.resolved k).isSome ∨ k = x

/-- All definitions can be resolved with this much fuel. -/
def Fits (ms : List Module) (n : Nat) : Prop := ∀ M ∈ ms, ∀ d ∈ M.definitions, Resolvable ms n M d.1 d.2

theorem fits (h : ProperSchema ms) : Ev (Fits ms) :=
  Ev.list fun _ hM => Ev.list fun _ hd => resolve_definition h hM hd

theorem Ctx.grows {R R' : Resolver} {S : Text → Prop} (hg : Grows R R') (h : Ctx ms R S) : Ctx ms R' S :=
  ⟨h.closed, fun x hx => (h.ready x hx).grows hg⟩

/-- What the loop over the definitions of a module does. -/
theorem resolve_loop (h : ProperSchema ms) {n : Nat} (hn : Fits ms n) {M : Module} (hM : M ∈ ms)
    {order : List Text} (hs : Sorted (needsOf M.imports M.definitions) order) {D : Text → Prop}
    (himp : ∀ r N e, Imports ms M r N e → D r) :
    ∀ (rest pre : List Text) (R : Resolver), order = pre ++ rest →
      Ctx ms R (fun k => D k ∨ k ∈ pre ∧ ∃ d, (k, d) ∈ M.definitions) → Known ms R →
      (∀ k ∈ rest, ∀ d, (k, d) ∈ M.definitions → get R.resolved k = none) →
      ∃ R', resolveInOrder n M.definitions R rest = .ok R' ∧
        Ctx ms R' (fun k => D k ∨ k ∈ order ∧ ∃ d, (k, d) ∈ M.definitions) ∧ Known ms R' ∧
        (∀ k, (get R'.resolved k).isSome → (get R.resolved k).isSome ∨ ∃ d, (k, d) ∈ M.definitions) := by
  intro rest
  induction rest with
  | nil =>
    intro pre R he hpre hk hfresh
    rw [List.append_nil] at he
    subst he
    exact ⟨R, rfl, hpre, hk, fun k hk => .inl hk⟩
  | cons x rest ih =>
    intro pre R he hpre hk hfresh
    have hxo : x ∈ order := by rw [he]; simp
    have hnd := hs.nodup
    by_cases hdx : ∃ d, (x, d) ∈ M.definitions
    · obtain ⟨d, hd⟩ := hdx
      have hown : Has ms (fun k => D k ∨ k ∈ pre ∧ ∃ d, (k, d) ∈ M.definitions) (.module M) d.kind.refs := by
        intro r hr N e hsee
        cases hsee with
        | imported hi => exact .inl (himp _ _ _ hi)
        | own hre =>
          have hnone : (get M.imports r).isNone := by
            cases hg : get M.imports r with
            | none => rfl
            | some m => exact absurd rfl ((h.imports M hM _ (get_mem hg)).2 _ hre)
          have hb := hs.before hxo (r := r) ⟨_, List.mem_map.mpr ⟨_, hd, rfl⟩, List.mem_filter.mpr ⟨hr, hnone⟩⟩
          refine .inr ⟨?_, _, hre⟩
          have hidx := Before.idx hnd hb
          have hm := (Before.mem hb).1
          rw [he] at hm hidx hnd
          rcases List.mem_append.mp hm with hm | hm
          · exact hm
          · exfalso
            have hx1 : x ∉ pre := fun hx => (List.nodup_append.mp hnd).2.2 x hx x List.mem_cons_self rfl
            have hr1 : r ∉ pre := fun hx => (List.nodup_append.mp hnd).2.2 r hx r hm rfl
            rw [List.idxOf_append, if_neg hr1, List.idxOf_append, if_neg hx1, List.idxOf_cons_self] at hidx
            omega
      obtain ⟨R1, h1, h2, h3, h4, h5⟩ := hn M hM _ hd R _ hpre hk (hfresh x List.mem_cons_self d hd)
        (fun r N e hi => .inl (himp r N e hi)) hown
      obtain ⟨R', g1, g3, g4, g5⟩ := ih (pre ++ [x]) R1 (by rw [he]; simp)
        ⟨by
          intro k hkS N hN e hke
          rcases hkS with hkS | ⟨hkp, hkd⟩
          · obtain ⟨c1, c2⟩ := hpre.closed k (.inl hkS) N hN e hke
            refine ⟨fun r hr N' d' hs => ?_, fun r N' d' hi => ?_⟩
            · exact (c1 r hr N' d' hs).imp id fun q => ⟨List.mem_append_left _ q.1, q.2⟩
            · exact (c2 r N' d' hi).imp id fun q => ⟨List.mem_append_left _ q.1, q.2⟩
          · rcases List.mem_append.mp hkp with hkp | hkp
            · obtain ⟨c1, c2⟩ := hpre.closed k (.inr ⟨hkp, hkd⟩) N hN e hke
              refine ⟨fun r hr N' d' hs => ?_, fun r N' d' hi => ?_⟩
              · exact (c1 r hr N' d' hs).imp id fun q => ⟨List.mem_append_left _ q.1, q.2⟩
              · exact (c2 r N' d' hi).imp id fun q => ⟨List.mem_append_left _ q.1, q.2⟩
            · rw [List.mem_singleton] at hkp
              subst hkp
              obtain ⟨rfl, rfl⟩ := same_definition h hM hN hd hke
              refine ⟨fun r hr N' d' hs => ?_, fun r N' d' hi => .inl (himp r N' d' hi)⟩
              exact (hown r hr N' d' hs).imp id fun q => ⟨List.mem_append_left _ q.1, q.2⟩, by
          intro k hkS
          rcases hkS with hkS | ⟨hkp, hkd⟩
          · exact (hpre.ready k (.inl hkS)).grows h2
          · rcases List.mem_append.mp hkp with hkp | hkp
            · exact (hpre.ready k (.inr ⟨hkp, hkd⟩)).grows h2
            · rw [List.mem_singleton] at hkp
              subst hkp
              exact h3⟩
        h4
        (by
          intro k hkr e hke
          have hkx : k ≠ x := by
            rintro rfl
            rw [he] at hnd
            exact (List.nodup_cons.mp (List.nodup_append.mp hnd).2.1).1 hkr
          cases hg : get R1.resolved k with
          | none => rfl
          | some y =>
            exfalso
            rcases h5 k (by rw [hg]; rfl) with hk' | hk'
            · rw [hfresh k (List.mem_cons_of_mem _ hkr) e hke] at hk'
              cases hk'
            · exact hkx hk')
      refine ⟨R', by simp [resolveInOrder, h1, g1, Out.bind], g3, g4, ?_⟩
      intro k hkk
      rcases g5 k hkk with hkk | hkk
      · rcases h5 k hkk with hkk | rfl
        · exact .inl hkk
        · exact .inr ⟨d, hd⟩
      · exact .inr hkk
    · have hget : get M.definitions x = none := by
        cases hg : get M.definitions x with
        | none => rfl
        | some d => exact absurd ⟨d, get_mem hg⟩ hdx
      have hsame : (fun k => D k ∨ k ∈ pre ++ [x] ∧ ∃ d, (k, d) ∈ M.definitions) =
          fun k => D k ∨ k ∈ pre ∧ ∃ d, (k, d) ∈ M.definitions := by
        funext k
        refine propext ⟨fun hk => hk.imp id fun q => ⟨?_, q.2⟩, fun hk => hk.imp id fun q => ⟨List.mem_append_left _ q.1, q.2⟩⟩
        rcases List.mem_append.mp q.1 with hq | hq
        · exact hq
        · rw [List.mem_singleton] at hq
          subst hq
          exact absurd q.2 hdx
      obtain ⟨R', g1, g3, g4, g5⟩ := ih (pre ++ [x]) R (by rw [he]; simp) (by rw [hsame]; exact hpre) hk
        fun k hkr => hfresh k (List.mem_cons_of_mem _ hkr)
      exact ⟨R', by simp [resolveInOrder, resolveOne, hget, g1, Out.bind], g3, g4, g5⟩

/-- Which definitions are the same before objects are read. -/
theorem read_same {ms₀ : List Module} {M₀ : Module} {x y : Text × Definition} (h : ReadDefinition ms₀ M₀ x y) :
    (∀ cf, x.2.kind = .class cf → y = x) ∧ ∀ cf, y.2.kind = .class cf → x = y := by
  cases h with
  | object _ _ => exact ⟨fun cf h => (by cases h), fun cf h => (by cases h)⟩
  | objectSet _ _ => exact ⟨fun cf h => (by cases h), fun cf h => (by cases h)⟩
  | other _ _ => exact ⟨fun _ _ => rfl, fun _ _ => rfl⟩

variable {ms₀ : List Module}

theorem read_class (hread : ReadAs ms₀ ms) {N₀ : Module} (hN : N₀ ∈ ms₀) {x : Text} {d : Definition} {cf : List (Text × ClassField)}
    (hd : (x, d) ∈ N₀.definitions) (hk : d.kind = .class cf) :
    ∃ N ∈ ms, N.name = N₀.name ∧ (x, d) ∈ N.definitions := by
  obtain ⟨N, hN', hr⟩ := All2.mem_left hread _ hN
  obtain ⟨y, hy, hrd⟩ := All2.mem_left hr.definitions _ hd
  rw [(read_same hrd).1 cf hk] at hy
  exact ⟨N, hN', hr.name, hy⟩

theorem addClasses_from {R : Resolver} {defs : List (Text × Definition)} {x : Text} {cf : List (Text × ClassField)}
    (hx : get (addClasses R defs).classes x = some cf) :
    get R.classes x = some cf ∨ ∃ d, (x, d) ∈ defs ∧ d.kind = .class cf := by
  unfold addClasses at hx
  dsimp only at hx
  generalize R.classes = m at hx ⊢
  induction defs generalizing m with
  | nil => exact .inl hx
  | cons d defs ih =>
    rw [List.foldl_cons] at hx
    rcases ih _ hx with h | ⟨e, he, hk⟩
    · split at h
      · rename_i fs hfs
        rw [get_put] at h
        split at h
        · rename_i e
          cases h
          subst e
          exact .inr ⟨d.2, List.mem_cons_self, hfs⟩
        · exact .inl h
      · exact .inl h
    · exact .inr ⟨e, List.mem_cons_of_mem _ he, hk⟩

/-- The classes that become known when a module is begun. -/
theorem begin_module (h : ProperSchema ms) {M M₀ : Module} (hM : M ∈ ms) (hr : ReadModule ms₀ M₀ M) {R : Resolver}
    (hk : Known ms R) :
    Grows R (addClasses R M₀.definitions) ∧ Known ms (addClasses R M₀.definitions) ∧
      ∀ x d cf, (x, d) ∈ M₀.definitions → d.kind = .class cf → get (addClasses R M₀.definitions).classes x = some cf := by
  have hdef : ∀ x d cf, (x, d) ∈ M₀.definitions → d.kind = .class cf → (x, ⟨.class cf, none⟩) ∈ M.definitions := by
    intro x d cf hd hkd
    obtain ⟨y, hy, hrd⟩ := All2.mem_left hr.definitions _ hd
    rw [(read_same hrd).1 cf hkd] at hy
    obtain ⟨kind, params⟩ := d
    dsimp only at hkd
    subst hkd
    cases h.proper M hM _ hy with
    | «class» => exact hy
  have hadd := Props.addClasses_get (fun k cf => ∃ N ∈ ms, (k, ⟨.class cf, none⟩) ∈ N.definitions) R M₀.definitions
    (fun k d cf hd hkd => ⟨M, hM, hdef k d cf hd hkd⟩) (fun k cf cf' ⟨A, hA, a⟩ ⟨B, hB, b⟩ => by
      have := (same_definition h hA hB a b).2
      injection this with this
      injection this)
  refine ⟨⟨fun _ _ h => h, fun _ _ h => h, fun x cf hx => ?_⟩, ⟨hk.resolved, hk.params, fun x cf hx => ?_, hk.types, hk.sorted⟩,
    fun x d cf hd hkd => ?_⟩
  · exact (hadd x cf (hk.classes x cf hx)).1 hx
  · rcases addClasses_from hx with hx | ⟨d, hd, hkd⟩
    · exact hk.classes x cf hx
    · exact ⟨M, hM, hdef x d cf hd hkd⟩
  · exact (hadd x cf ⟨M, hM, hdef x d cf hd hkd⟩).2 ⟨d, hd, hkd⟩

theorem mapOut_of_all2 {ε α β : Type} {f : α → Out ε β} {P : α → β → Prop} {l : List α} {r : List β} (h : All2 P l r)
    (hf : ∀ x y, x ∈ l → P x y → f x = .ok y) : mapOut f l = .ok r := by
  induction h with
  | nil => rfl
  | cons h _ ih =>
    simp [mapOut, hf _ _ List.mem_cons_self h, ih fun x y hx => hf x y (List.mem_cons_of_mem _ hx), Out.bind]

/-- The objects of a module are read. -/
theorem read_module {M₀ M : Module} (hr : ReadModule ms₀ M₀ M) {R : Resolver}
    (hcls : ∀ cls K cf, Sees ms₀ M₀ cls K ⟨.class cf, none⟩ → get R.classes cls = some cf) :
    mapOut (readDefinition R M₀) M₀.definitions = .ok M.definitions := by
  refine mapOut_of_all2 hr.definitions fun x y hx hxy => ?_
  clear hx
  cases hxy with
  | object hs hv => simp [readDefinition, hcls _ _ _ hs, hv, Out.bind]
  | objectSet hs hv => simp [readDefinition, hcls _ _ _ hs, hv, Out.bind]
  | other h1 h2 =>
    rename_i d
    obtain ⟨kind, params⟩ := d
    cases kind with
    | object cls v => exact absurd rfl (h1 cls v)
    | objectSet cls root add => exact absurd rfl (h2 cls root add)
    | _ => rfl

/-- What resolving one module does. -/
theorem resolve_module (h : ProperSchema ms) (hread : ReadAs ms₀ ms) {n : Nat} (hn : Fits ms n) {M M₀ : Module} (hM : M ∈ ms)
    (hr : ReadModule ms₀ M₀ M) {R : Resolver} {D : Text → Prop} (hc : Ctx ms R D) (hk : Known ms R)
    (himp : ∀ r N e, Imports ms M r N e → D r)
    (hfresh : ∀ x d, (x, d) ∈ M.definitions → get R.resolved x = none) {r : Out Err Resolver}
    (hres : ResolvesModule n R M₀ r) :
    ∃ R', r = .ok R' ∧ Ctx ms R' (fun k => D k ∨ ∃ d, (k, d) ∈ M.definitions) ∧ Known ms R' ∧
      (∀ k, (get R'.resolved k).isSome → (get R.resolved k).isSome ∨ ∃ d, (k, d) ∈ M.definitions) := by
  obtain ⟨hg, hk1, hcl⟩ := begin_module h hM hr hk
  have hc1 := hc.grows hg
  unfold ResolvesModule at hres
  rw [read_module hr (by
    intro cls K cf hs
    cases hs with
    | own hd => exact hcl _ _ _ hd rfl
    | imported hi =>
      obtain ⟨N, hN, hname, hd⟩ := read_class hread hi.2.1 hi.2.2 rfl
      exact hc1.ready cls (himp cls N _ ⟨by rw [hname, hr.imports]; exact hi.1, hN, hd⟩) N hN _ hd)] at hres
  obtain ⟨order, hs, hres⟩ := hres
  rw [← hr.imports] at hs
  obtain ⟨R', g1, g2, g3, g4⟩ := resolve_loop h hn hM hs himp order [] (addClasses R M₀.definitions) rfl
    (by
      have : (fun k => D k ∨ k ∈ ([] : List Text) ∧ ∃ d, (k, d) ∈ M.definitions) = D := by
        funext k
        simp
      rw [this]
      exact hc1) hk1 fun k _ d hd => hfresh k d hd
  refine ⟨R', hres.trans g1, ?_, g3, g4⟩
  have : (fun k => D k ∨ k ∈ order ∧ ∃ d, (k, d) ∈ M.definitions) = fun k => D k ∨ ∃ d, (k, d) ∈ M.definitions := by
    funext k
    exact propext ⟨fun hk => hk.imp id fun q => q.2, fun hk => hk.imp id fun q => ⟨q.elim fun d hd => order_all h hM hs k d hd, q⟩⟩
  rw [this] at g2
  exact g2

theorem read_names (hread : ReadAs ms₀ ms) :
    ms.map Module.name = ms₀.map Module.name ∧ moduleNeeds ms₀ = moduleNeeds ms := by
  unfold moduleNeeds
  have : ∀ (P : Module → Module → Prop) (hP : ∀ a b, P a b → b.name = a.name ∧ b.imports = a.imports)
      (l r : List Module), All2 P l r → r.map Module.name = l.map Module.name ∧
        (l.map fun M => (M.name, M.imports.map (·.2))) = r.map fun M => (M.name, M.imports.map (·.2)) := by
    intro P hP l r h
    induction h with
    | nil => exact ⟨rfl, rfl⟩
    | cons h _ ih =>
      obtain ⟨e1, e2⟩ := hP _ _ h
      exact ⟨by rw [List.map_cons, List.map_cons, e1, ih.1], by rw [List.map_cons, List.map_cons, e1, e2, ih.2]⟩
  exact this _ (fun a b h => ⟨h.name, h.imports⟩) _ _ hread

theorem getModule_of_mem (h : ProperSchema ms) {M : Module} (hM : M ∈ ms) : getModule ms M.name = some M :=
  Props.getModule_of_mem h.modules hM

/-- What the loop over the modules does. -/
theorem resolve_modules (h : ProperSchema ms) (hread : ReadAs ms₀ ms) {n : Nat} (hn : Fits ms n)
    {order : List Text} (hs : Sorted (moduleNeeds ms) order) :
    ∀ (rest pre : List Text) (R : Resolver) (r : Out Err Resolver), order = pre ++ rest →
      (∀ k ∈ order, ∃ M ∈ ms, M.name = k) →
      Ctx ms R (fun k => ∃ M ∈ ms, M.name ∈ pre ∧ ∃ d, (k, d) ∈ M.definitions) → Known ms R →
      (∀ k, (get R.resolved k).isSome → ∃ M ∈ ms, M.name ∈ pre ∧ ∃ d, (k, d) ∈ M.definitions) →
      ResolvesOrder n ms₀ rest R r →
      ∃ R', r = .ok R' ∧ Ctx ms R' (fun k => ∃ M ∈ ms, M.name ∈ order ∧ ∃ d, (k, d) ∈ M.definitions) ∧ Known ms R' := by
  intro rest
  induction rest with
  | nil =>
    intro pre R r he _ hpre hk _ hr
    rw [List.append_nil] at he
    subst he
    exact ⟨R, hr, hpre, hk⟩
  | cons m rest ih =>
    intro pre R r he hnames hpre hk hkeys hr
    have hmo : m ∈ order := by rw [he]; simp
    obtain ⟨M, hM, rfl⟩ := hnames m hmo
    obtain ⟨M₀, hM₀, hrM⟩ := All2.mem_right hread _ hM
    have hgm : getModule ms₀ M.name = some M₀ := by
      rw [hrM.name]
      exact Props.getModule_of_mem (by rw [← (read_names hread).1]; exact h.modules) hM₀
    rw [ResolvesOrder, hgm] at hr
    obtain ⟨r1, hr1, hr⟩ := hr
    have hnd := hs.nodup
    have himp : ∀ r N e, Imports ms M r N e → ∃ M ∈ ms, M.name ∈ pre ∧ ∃ d, (r, d) ∈ M.definitions := by
      rintro r N e ⟨hi, hN, hd⟩
      refine ⟨N, hN, ?_, e, hd⟩
      have hb := hs.before hmo (r := N.name)
        ⟨_, List.mem_map.mpr ⟨M, hM, rfl⟩, List.mem_map.mpr ⟨_, hi, rfl⟩⟩
      have hidx := Before.idx hnd hb
      have hm := (Before.mem hb).1
      rw [he] at hm hidx hnd
      rcases List.mem_append.mp hm with hm | hm
      · exact hm
      · exfalso
        have hx1 : M.name ∉ pre := fun hx => (List.nodup_append.mp hnd).2.2 _ hx _ List.mem_cons_self rfl
        have hr1 : N.name ∉ pre := fun hx => (List.nodup_append.mp hnd).2.2 _ hx _ hm rfl
        rw [List.idxOf_append, if_neg hr1, List.idxOf_append, if_neg hx1, List.idxOf_cons_self] at hidx
        omega
    obtain ⟨R1, h1, h2, h3, h4⟩ := resolve_module h hread hn hM hrM hpre hk himp
      (by
        intro x d hd
        cases hg : get R.resolved x with
        | none => rfl
        | some e =>
          exfalso
          obtain ⟨N, hN, hNp, d', hd'⟩ := hkeys x (by rw [hg]; rfl)
          obtain ⟨rfl, -⟩ := same_definition h hN hM hd' hd
          rw [he] at hnd
          exact (List.nodup_append.mp hnd).2.2 _ hNp _ List.mem_cons_self rfl) hr1
    subst h1
    have hsame : (fun k => ∃ N ∈ ms, N.name ∈ pre ++ [M.name] ∧ ∃ d, (k, d) ∈ N.definitions) =
        fun k => (∃ N ∈ ms, N.name ∈ pre ∧ ∃ d, (k, d) ∈ N.definitions) ∨ ∃ d, (k, d) ∈ M.definitions := by
      funext k
      refine propext ⟨?_, ?_⟩
      · rintro ⟨N, hN, hNp, hd⟩
        rcases List.mem_append.mp hNp with hNp | hNp
        · exact .inl ⟨N, hN, hNp, hd⟩
        · rw [List.mem_singleton] at hNp
          have : N = M := by
            have e1 := getModule_of_mem h hN
            rw [hNp, getModule_of_mem h hM] at e1
            exact (Option.some.inj e1).symm
          subst this
          exact .inr hd
      · rintro (⟨N, hN, hNp, hd⟩ | hd)
        · exact ⟨N, hN, List.mem_append_left _ hNp, hd⟩
        · exact ⟨M, hM, by simp, hd⟩
    exact ih (pre ++ [M.name]) R1 r (by rw [he]; simp) hnames (by rw [hsame]; exact h2) h3
      (by
        intro k hkk
        rcases h4 k hkk with hkk | ⟨d, hd⟩
        · obtain ⟨N, hN, hNp, hd⟩ := hkeys k hkk
          exact ⟨N, hN, List.mem_append_left _ hNp, hd⟩
        · exact ⟨M, hM, by simp, d, hd⟩)
      hr

theorem no_module_cycle (h : ProperSchema ms) (k : Text) : ¬ Cyclic (moduleNeeds ms) k := by
  obtain ⟨rank, hrank⟩ := h.order
  have hneeds : ∀ a b, Needs (moduleNeeds ms) a b → rank b < rank a := by
    rintro a b ⟨rs, hrs, hb⟩
    obtain ⟨M, hM, he⟩ := List.mem_map.mp hrs
    cases he
    obtain ⟨i, hi, rfl⟩ := List.mem_map.mp hb
    exact hrank M hM i hi
  have hreach : ∀ a b, Reaches (moduleNeeds ms) a b → rank b < rank a := by
    intro a b hr
    induction hr with
    | one hn => exact hneeds _ _ hn
    | more hn _ ih => exact Nat.lt_trans ih (hneeds _ _ hn)
  rintro (hc | ⟨c, _, hc⟩)
  · exact Nat.lt_irrefl _ (hreach _ _ hc)
  · exact Nat.lt_irrefl _ (hreach _ _ hc)

/-- Every definition of a proper schema is resolved to what it means. -/
theorem resolve_schema (h : ProperSchema ms) (hread : ReadAs ms₀ ms) :
    Ev fun n => ∀ r, ResolvesModules n {} ms₀ r →
      ∃ R, r = .ok R ∧ (∀ M ∈ ms, ∀ x d, (x, d) ∈ M.definitions → ReadyAs ms R M x d) ∧ Known ms R := by
  refine (fits h).imp fun n hfit r hr => ?_
  have hfound : importsFound ms = true := by
    unfold importsFound
    simp only [List.all_eq_true]
    intro M hM i hi
    exact Props.getModule_isSome.mpr (h.imports M hM i hi).1
  have hfound₀ : importsFound ms₀ = true := by
    unfold importsFound
    simp only [List.all_eq_true]
    intro M₀ hM₀ i hi
    obtain ⟨M, hM, hrM⟩ := All2.mem_left hread _ hM₀
    obtain ⟨N, hN, hname⟩ := (h.imports M hM i (by rw [hrM.imports]; exact hi)).1
    obtain ⟨N₀, hN₀, hrN⟩ := All2.mem_right hread _ hN
    exact Props.getModule_isSome.mpr ⟨N₀, hN₀, by rw [← hrN.name, hname]⟩
  unfold ResolvesModules at hr
  rw [if_pos hfound₀] at hr
  obtain ⟨order, hs, hr⟩ := hr
  rw [(read_names hread).2] at hs
  obtain ⟨_, hnames, _, hall⟩ := Props.C63_module_order ms hfound order hs
  obtain ⟨R, g1, g2, g3⟩ := resolve_modules h hread hfit hs order [] {} r rfl
    (fun k hk => (hnames k hk).elim fun M hM => Props.getModule_isSome.mp (by rw [hM]; rfl))
    ⟨fun x ⟨_, _, hm, _⟩ => (by cases hm), fun x ⟨_, _, hm, _⟩ => (by cases hm)⟩
    ⟨fun k hk => (by cases hk), fun k e hk => (by cases hk), fun k e hk => (by cases hk), fun k e hk => (by cases hk), List.Pairwise.nil⟩
    (fun k hk => by cases hk) hr
  exact ⟨R, g1, fun M hM x d hd => g2.ready x ⟨M, hM, (hall M hM).mpr (no_module_cycle h _), d, hd⟩ M hM d hd, g3⟩

end
end Hampi.Compiler
