import Verif.Compiler.Session
import Verif.Props.Generate
import Verif.Props.Classes
import Verif.Lemmas.Tables
/-!
# Several calls of the compiler (C118, C119)

A history is a sequence of calls of `add_module`, `resolve_modules` and `generate` that return `Ok`.
-/
namespace Hampi.Compiler.Props
open Hampi.Compiler.Spec

/-- How often a file defines a name. -/
def definitionsOf (x : Text) (file : List Line) : Nat :=
  file.countP fun
    | .uses => false
    | .item i => i.ident == x

/-- How often a file has the `use` lines. -/
def usesOf (file : List Line) : Nat :=
  file.countP fun
    | .uses => true
    | .item _ => false

/-- A history: `k` is the number of calls of `generate` at which the definition `x` was a known type, `g` that of all calls of
`generate`. -/
inductive History (sp : Spelling) (n : Nat) (x : Text) : Session → Nat → Nat → Session → Prop
  | start (S : Session) : History sp n x S 0 0 S
  | other {S S' S'' k g} (h : History sp n x S k g S') (hc : Call sp n S' S'' none) : History sp n x S k g S''
  | known {S S' S'' k g out t} (h : History sp n x S k g S') (hk : (x, .type t) ∈ S'.resolver.resolved)
      (hc : Call sp n S' S'' (some out)) : History sp n x S (k + 1) (g + 1) S''
  | unknown {S S' S'' k g out} (h : History sp n x S k g S') (hk : ∀ t, (x, .type t) ∉ S'.resolver.resolved)
      (hc : Call sp n S' S'' (some out)) : History sp n x S k (g + 1) S''

/-! ## C118 -/

/-- The text of the first call of `generate` is that of the program (C97). -/
theorem C118_first_partial (sp : Spelling) (R : Resolver) :
    (Generator.new.generate sp R).bind (fun p => .ok p.1) =
      (generate sp R).bind fun items => .ok (Line.uses :: items.map .item) := by
  unfold Generator.generate generate Generator.new
  dsimp only
  cases genAll sp (resolvedTypes R.resolved) .new <;> rfl

theorem generate_adds {sp : Spelling} {R : Resolver} {G G' : Generator} {out : List Line} (h : G.generate sp R = .ok (out, G')) :
    G'.items = out ∧ usesOf out = usesOf G.items + 1 ∧ (∀ y, definitionsOf y G.items ≤ definitionsOf y out) ∧
    ∀ x t, (x, .type t) ∈ R.resolved → definitionsOf (typeIdent x) G.items + 1 ≤ definitionsOf (typeIdent x) out := by
  obtain ⟨p, hp, h⟩ := Out.bind_ok.mp h
  cases h
  obtain ⟨h1, -, -⟩ := genAll_spec (is := p.1) (g' := p.2) hp
  have hz : ∀ l : List Item, List.countP (fun | Line.uses => true | .item _ => false) (l.map Line.item) = 0 := by
    intro l
    induction l with
    | nil => rfl
    | cons a l ih => rw [List.map_cons, List.countP_cons, ih]; rfl
  refine ⟨rfl, ?_, fun y => ?_, fun x t hx => ?_⟩
  · simp only [usesOf, List.countP_append, hz]
    rfl
  · simp only [definitionsOf, List.countP_append]
    omega
  · simp only [definitionsOf, List.countP_append, List.map_append]
    have hmem : typeIdent x ∈ p.1.map (·.ident) := by
      rw [h1, List.mem_map]
      exact ⟨(x, t), List.mem_filterMap.mpr ⟨_, hx, rfl⟩, rfl⟩
    obtain ⟨i, hi, he⟩ := List.mem_map.mp hmem
    have : 0 < List.countP (fun | Line.uses => false | .item i => i.ident == typeIdent x) (p.1.map Line.item) := by
      rw [List.countP_pos_iff]
      exact ⟨.item i, List.mem_map.mpr ⟨i, hi, rfl⟩, by simp [he]⟩
    omega

/-- **C118 is violated** by every history with two calls of `generate`: the file printed last defines a type as many times as there
were such calls while the type was known, and has the `use` lines as many times as there were calls. -/
theorem C118_repeated_violated (sp : Spelling) (n : Nat) (x : Text) (S S' S'' : Session) (k g : Nat) (out : List Line) (t : RType)
    (h : History sp n x S k g S') (hk : (x, .type t) ∈ S'.resolver.resolved) (hc : Call sp n S' S'' (some out)) :
    k + 1 ≤ definitionsOf (typeIdent x) out ∧ g + 1 ≤ usesOf out := by
  have key : k ≤ definitionsOf (typeIdent x) S'.generator.items ∧ g ≤ usesOf S'.generator.items := by
    clear hc hk
    induction h with
    | start => exact ⟨Nat.zero_le _, Nat.zero_le _⟩
    | other _ hc ih =>
      cases hc with
      | add => exact ih
      | resolve _ _ => exact ih
    | known _ hk hc ih =>
      cases hc with
      | generate hc =>
        obtain ⟨h1, h2, -, h4⟩ := generate_adds hc
        have := h4 _ _ hk
        dsimp only
        rw [h1]
        omega
    | unknown _ _ hc ih =>
      cases hc with
      | generate hc =>
        obtain ⟨h1, h2, h3, -⟩ := generate_adds hc
        have := h3 (typeIdent x)
        dsimp only
        rw [h1]
        omega
  cases hc with
  | generate hc =>
    obtain ⟨-, h2, -, h4⟩ := generate_adds hc
    have := h4 _ _ hk
    omega

/-! ## C119 -/

theorem resolveInOrder_others {n : Nat} {defs : List (Text × Definition)} {x : Text} (hx : get defs x = none) :
    ∀ {order : List Text} {R R' : Resolver}, resolveInOrder n defs R order = .ok R' → get R'.resolved x = get R.resolved x
  | [], R, R', h => by cases h; rfl
  | k :: ks, R, R', h => by
      rw [resolveInOrder] at h
      obtain ⟨R1, h1, h2⟩ := Out.bind_ok.mp h
      rw [resolveInOrder_others hx h2]
      unfold resolveOne at h1
      split at h1
      · cases h1; rfl
      · rename_i d hd
        have hne : k ≠ x := by rintro rfl; rw [hx] at hd; cases hd
        split at h1
        · cases h1; rfl
        · split at h1
          · cases h1; rfl
          · obtain ⟨y, -, h1⟩ := Out.bind_ok.mp h1
            cases h1
            rw [get_put, if_neg hne]

theorem resolvesModule_others {n : Nat} {R R' : Resolver} {M : Module} {x : Text} (hx : ∀ d, (x, d) ∉ M.definitions)
    (h : ResolvesModule n R M (.ok R')) : get R'.resolved x = get R.resolved x := by
  unfold ResolvesModule at h
  split at h
  · rename_i defs hd
    obtain ⟨order, -, h⟩ := h
    have hk := readDefinitions_keys (mapOut_ok hd)
    have hx' : get defs x = none := by
      unfold get
      rw [Option.map_eq_none_iff, List.find?_eq_none]
      intro e he hex
      have hex : e.1 = x := by simpa using hex
      have : e.1 ∈ defs.map (·.1) := List.mem_map.mpr ⟨e, he, rfl⟩
      rw [hk, List.mem_map] at this
      obtain ⟨d, hd, hde⟩ := this
      exact hx d.2 (by rw [← hex, ← hde]; exact hd)
    exact (resolveInOrder_others hx' h.symm).trans rfl
  · cases h
  · cases h
  · cases h

theorem resolvesOrder_others {n : Nat} {ms : List Module} {x : Text} (hx : ∀ M ∈ ms, ∀ d, (x, d) ∉ M.definitions) :
    ∀ {order : List Text} {R R' : Resolver}, ResolvesOrder n ms order R (.ok R') → get R'.resolved x = get R.resolved x
  | [], R, R', h => by cases h; rfl
  | k :: ks, R, R', h => by
      unfold ResolvesOrder at h
      split at h
      · cases h
      · rename_i M hM
        obtain ⟨r1, h1, h2⟩ := h
        split at h2
        · rw [resolvesOrder_others hx h2]
          exact resolvesModule_others (hx M (List.mem_of_find?_eq_some hM)) h1
        · cases h2
        · cases h2
        · cases h2

/-- Resolving again leaves alone what no module defines. -/
theorem resolves_others {n : Nat} {R R' : Resolver} {ms : List Module} {x : Text} (hx : ∀ M ∈ ms, ∀ d, (x, d) ∉ M.definitions)
    (h : ResolvesModules n R ms (.ok R')) : get R'.resolved x = get R.resolved x := by
  unfold ResolvesModules at h
  split at h
  · obtain ⟨order, -, h⟩ := h
    exact resolvesOrder_others hx h
  · cases h

/-- **C119 is violated** whenever a module is replaced: a type that was resolved before and that no module defines any more is still
generated after resolving again. -/
theorem C119_stale_violated (sp : Spelling) (n : Nat) (x : Text) (t : RType) (S : Session) (R : Resolver) (out : List Line)
    (G : Generator) (hx : get S.resolver.resolved x = some (.type t)) (hno : ∀ M ∈ S.modules, ∀ d, (x, d) ∉ M.definitions)
    (hr : ResolvesModules n S.resolver S.modules (.ok R)) (hg : S.generator.generate sp R = .ok (out, G)) :
    1 ≤ definitionsOf (typeIdent x) out := by
  obtain ⟨-, -, -, h4⟩ := generate_adds hg
  have := h4 x t (get_mem ((resolves_others hno hr).trans hx))
  omega

/-- A module defines the type `x`. -/
def DefinesType (ms : List Module) (x : Text) : Prop := ∃ M ∈ ms, ∃ ty, (x, ⟨.type ty, none⟩) ∈ M.definitions

/-- What a compiler is like after calls with which no type has been taken away: a module may be replaced by one that
defines more. -/
inductive Keeping (sp : Spelling) (n : Nat) : Session → Prop
  | new : Keeping sp n .new
  | call {S S' out} : Keeping sp n S → Call sp n S S' out →
      (∀ x, DefinesType S.modules x → DefinesType S'.modules x) → Keeping sp n S'

theorem readDefinition_type {R : Resolver} {M : Module} {x : Text} {ty : AsnType} {d : Text × Definition}
    (h : readDefinition R M d = .ok (x, ⟨.type ty, none⟩)) : d = (x, ⟨.type ty, none⟩) := by
  unfold readDefinition at h
  split at h
  · split at h
    · cases h
    · obtain ⟨y, _, h⟩ := Out.bind_ok.mp h
      cases h
  · split at h <;> cases h
    rfl
  · split at h
    · cases h
    · obtain ⟨y, _, h⟩ := Out.bind_ok.mp h
      cases h
  · cases h; rfl

/-- What is known as a type was known before, or is defined as one. -/
theorem resolveInOrder_new {n : Nat} {defs : List (Text × Definition)} {x : Text} :
    ∀ {order : List Text} {R R' : Resolver} {t : RType}, resolveInOrder n defs R order = .ok R' →
      get R'.resolved x = some (.type t) → (∃ t, get R.resolved x = some (.type t)) ∨ ∃ ty, (x, ⟨.type ty, none⟩) ∈ defs
  | [], R, R', t, h, hx => by cases h; exact .inl ⟨t, hx⟩
  | k :: ks, R, R', t, h, hx => by
      rw [resolveInOrder] at h
      obtain ⟨R1, h1, h2⟩ := Out.bind_ok.mp h
      rcases resolveInOrder_new h2 hx with ⟨t1, hx1⟩ | h3
      · by_cases hk : x = k
        · subst hk
          unfold resolveOne at h1
          split at h1
          · cases h1; exact .inl ⟨_, hx1⟩
          · rename_i d hd
            obtain ⟨kind, params⟩ := d
            split at h1
            · cases h1; exact .inl ⟨_, hx1⟩
            · rename_i hp
              dsimp only at hp
              subst hp
              split at h1
              · cases h1; exact .inl ⟨_, hx1⟩
              · obtain ⟨y, hy, h1⟩ := Out.bind_ok.mp h1
                cases h1
                rw [get_put, if_pos rfl] at hx1
                cases hx1
                refine .inr ?_
                cases kind with
                | type ty => exact ⟨ty, get_mem hd⟩
                | value =>
                  obtain ⟨_, _, hy⟩ := Out.bind_ok.mp hy
                  obtain ⟨_, _, hy⟩ := Out.bind_ok.mp hy
                  cases hy
                | object => obtain ⟨_, _, hy⟩ := Out.bind_ok.mp hy; cases hy
                | objectSet => obtain ⟨_, _, hy⟩ := Out.bind_ok.mp hy; cases hy
                | «class» => cases hy
        · exact .inl ⟨t1, by rw [← (resolveOne_keeps h1 hk).1]; exact hx1⟩
      · exact .inr h3

theorem resolvesOrder_new {n : Nat} {ms : List Module} {x : Text} :
    ∀ {order : List Text} {R R' : Resolver} {t : RType}, ResolvesOrder n ms order R (.ok R') →
      get R'.resolved x = some (.type t) → (∃ t, get R.resolved x = some (.type t)) ∨ DefinesType ms x
  | [], R, R', t, h, hx => by cases h; exact .inl ⟨t, hx⟩
  | k :: ks, R, R', t, h, hx => by
      unfold ResolvesOrder at h
      split at h
      · cases h
      · rename_i M hM
        obtain ⟨r1, h1, h2⟩ := h
        split at h2
        · rcases resolvesOrder_new h2 hx with ⟨t1, hx1⟩ | h3
          · obtain ⟨defs, order, hd, -, hr⟩ := resolvesModule_ok h1
            rcases resolveInOrder_new hr hx1 with ⟨t2, hx2⟩ | ⟨ty, hty⟩
            · exact .inl ⟨t2, hx2⟩
            · obtain ⟨d, hd1, hd2⟩ := All2.mem_right (mapOut_ok hd) _ hty
              rw [readDefinition_type hd2] at hd1
              exact .inr ⟨M, List.mem_of_find?_eq_some hM, ty, hd1⟩
          · exact .inr h3
        · cases h2
        · cases h2
        · cases h2

theorem resolveInOrder_tables {n : Nat} {defs : List (Text × Definition)} :
    ∀ {order : List Text} {R R' : Resolver}, resolveInOrder n defs R order = .ok R' → KeySorted R.resolved →
      KeySorted R'.resolved
  | [], R, R', h, hs => by cases h; exact hs
  | k :: ks, R, R', h, hs => by
      rw [resolveInOrder] at h
      obtain ⟨R1, h1, h2⟩ := Out.bind_ok.mp h
      refine resolveInOrder_tables h2 ?_
      unfold resolveOne at h1
      split at h1
      · cases h1; exact hs
      · split at h1
        · cases h1; exact hs
        · split at h1
          · cases h1; exact hs
          · obtain ⟨y, -, h1⟩ := Out.bind_ok.mp h1
            cases h1
            exact hs.put _ _

theorem resolvesOrder_tables {n : Nat} {ms : List Module} :
    ∀ {order : List Text} {R R' : Resolver}, ResolvesOrder n ms order R (.ok R') → KeySorted R.resolved →
      KeySorted R'.resolved
  | [], R, R', h, hs => by cases h; exact hs
  | k :: ks, R, R', h, hs => by
      unfold ResolvesOrder at h
      split at h
      · cases h
      · obtain ⟨r1, h1, h2⟩ := h
        split at h2
        · obtain ⟨defs, order, -, -, hr⟩ := resolvesModule_ok h1
          exact resolvesOrder_tables h2 (resolveInOrder_tables hr hs)
        · cases h2
        · cases h2
        · cases h2

/-- What is known after such calls is defined in a module. -/
theorem keeping_known {sp : Spelling} {n : Nat} {S : Session} (h : Keeping sp n S) :
    (S.modules.map (·.name)).Nodup ∧ KeySorted S.resolver.resolved ∧
    ∀ x t, get S.resolver.resolved x = some (.type t) → DefinesType S.modules x := by
  induction h with
  | new => exact ⟨List.Pairwise.nil, List.Pairwise.nil, fun x t h => by cases h⟩
  | @call S S' out _ hc hk ih =>
    cases hc with
    | add M =>
      refine ⟨?_, ih.2.1, fun x t hx => hk x (ih.2.2 x t hx)⟩
      refine List.nodup_cons.mpr ⟨fun hm => ?_, (List.filter_sublist.map _).nodup ih.1⟩
      obtain ⟨N, hN, he⟩ := List.mem_map.mp hm
      exact absurd he (by simpa using (List.mem_filter.mp hN).2)
    | generate _ => exact ih
    | resolve ms hm hr =>
      unfold ResolvesModules at hr
      split at hr
      · obtain ⟨order, -, hr⟩ := hr
        refine ⟨?_, resolvesOrder_tables hr ih.2.1, fun x t hx => hk x ?_⟩
        · have : ms.map (·.name) = S.modules.map (·.name) := by
            clear hk ih hr
            generalize S.modules = l at hm
            induction hm with
            | nil => rfl
            | cons h _ ih =>
              rw [List.map_cons, List.map_cons, ih]
              rcases h with rfl | ⟨_, _, _, rfl⟩ <;> rfl
          rw [this]
          exact ih.1
        rcases resolvesOrder_new hr hx with ⟨t1, hx⟩ | hx
        · exact ih.2.2 x t1 hx
        · exact hx
      · cases hr

/-- `x` is a type wherever it is defined, and is defined in `M`, which is not on a cycle of imports; `x` is not on
a cycle of definitions. -/
structure Reached (ms : List Module) (M : Module) (x : Text) : Prop where
  mem : M ∈ ms
  type : ∃ ty, (x, ⟨.type ty, none⟩) ∈ M.definitions
  only : ∀ N ∈ ms, ∀ d, (x, d) ∈ N.definitions → ∃ ty, d = ⟨.type ty, none⟩
  distinct : (M.definitions.map (·.1)).Nodup
  imports : ¬ Cyclic (moduleNeeds ms) M.name
  refers : ∀ R defs, mapOut (readDefinition R M) M.definitions = .ok defs → ¬ Cyclic (needsOf M.imports defs) x

/-- What is only ever a type is still one after resolving. -/
theorem resolveInOrder_still {n : Nat} {defs : List (Text × Definition)} {x : Text}
    (hx : ∀ d, (x, d) ∈ defs → ∃ ty, d = ⟨.type ty, none⟩) :
    ∀ {order : List Text} {R R' : Resolver} {t : RType}, resolveInOrder n defs R order = .ok R' →
      get R.resolved x = some (.type t) → ∃ t, get R'.resolved x = some (.type t)
  | [], R, R', t, h, hr => by cases h; exact ⟨t, hr⟩
  | k :: ks, R, R', t, h, hr => by
      rw [resolveInOrder] at h
      obtain ⟨R1, h1, h2⟩ := Out.bind_ok.mp h
      by_cases hk : x = k
      · subst hk
        unfold resolveOne at h1
        split at h1
        · cases h1; exact resolveInOrder_still hx h2 hr
        · rename_i d hd
          obtain ⟨ty, rfl⟩ := hx d (get_mem hd)
          obtain ⟨y, hy, h1⟩ := Out.bind_ok.mp h1
          cases h1
          obtain ⟨rt, -, hy⟩ := Out.bind_ok.mp hy
          cases hy
          exact resolveInOrder_still hx h2 (t := rt) (by dsimp only; rw [get_put, if_pos rfl])
      · exact resolveInOrder_still hx h2 (t := t) (by rw [(resolveOne_keeps h1 hk).1]; exact hr)

theorem resolvesOrder_still {n : Nat} {ms : List Module} {x : Text}
    (hx : ∀ N ∈ ms, ∀ d, (x, d) ∈ N.definitions → ∃ ty, d = ⟨.type ty, none⟩) :
    ∀ {order : List Text} {R R' : Resolver} {t : RType}, ResolvesOrder n ms order R (.ok R') →
      get R.resolved x = some (.type t) → ∃ t, get R'.resolved x = some (.type t)
  | [], R, R', t, h, hr => by cases h; exact ⟨t, hr⟩
  | k :: ks, R, R', t, h, hr => by
      unfold ResolvesOrder at h
      split at h
      · cases h
      · rename_i N hN
        obtain ⟨r1, h1, h2⟩ := h
        split at h2
        · obtain ⟨defs, order, hd, -, h3⟩ := resolvesModule_ok h1
          have hdefs : ∀ d, (x, d) ∈ defs → ∃ ty, d = ⟨.type ty, none⟩ := fun d hxd => by
            obtain ⟨e, he1, he2⟩ := All2.mem_right (mapOut_ok hd) _ hxd
            obtain ⟨y, e⟩ := e
            have hy : y = x := (readDefinition_key he2).1.symm
            subst hy
            obtain ⟨ty, rfl⟩ := hx N (List.mem_of_find?_eq_some hN) e he1
            cases he2
            exact ⟨ty, rfl⟩
          obtain ⟨t1, ht1⟩ := resolveInOrder_still hdefs h3 (t := t) hr
          exact resolvesOrder_still hx h2 ht1
        · cases h2
        · cases h2
        · cases h2

theorem resolvesOrder_reached {n : Nat} {ms : List Module} {M : Module} {x : Text} (hn : (ms.map (·.name)).Nodup)
    (hx : Reached ms M x) :
    ∀ {order : List Text} {R R' : Resolver}, M.name ∈ order → ResolvesOrder n ms order R (.ok R') →
      ∃ t, get R'.resolved x = some (.type t)
  | [], R, R', hm, h => by cases hm
  | k :: ks, R, R', hm, h => by
      unfold ResolvesOrder at h
      split at h
      · cases h
      · rename_i N hN
        obtain ⟨r1, h1, h2⟩ := h
        split at h2
        · rcases List.mem_cons.mp hm with hk | hm
          · have hNM : N = M := by
              rw [← hk] at hN
              rw [getModule_of_mem hn hx.mem] at hN
              exact (Option.some.inj hN).symm
            subst hNM
            obtain ⟨defs, order, hd, hs, h3⟩ := resolvesModule_ok h1
            obtain ⟨ty, hty⟩ := hx.type
            obtain ⟨e, he1, he2⟩ := All2.mem_left (mapOut_ok hd) _ hty
            cases he2
            have := C59_acyclic_partial n N.imports defs (by rw [readDefinitions_keys (mapOut_ok hd)]; exact hx.distinct)
              _ _ order hs h3 x _ he1 (hx.refers _ _ hd)
            obtain ⟨R1, y, h4, h5⟩ := this.2.2 rfl (fun fs hf => by cases hf)
            obtain ⟨rt, -, h4⟩ := Out.bind_ok.mp h4
            cases h4
            exact resolvesOrder_still hx.only h2 h5
          · exact resolvesOrder_reached hn hx hm h2
        · cases h2
        · cases h2
        · cases h2

/-- **C119 (partial).** Full statement: the file holds the types of the modules that were added last under each name, and
no others. Proved for every history in which no type is taken away: the call of `generate` after `resolve_modules` adds to
what it printed before one item for each of certain types, and items for their components; each of the types is defined in a
module that is held, and every type that is held is among them, unless it is on or above a cycle, or something else in another
module. Missing, because false: that a type does not stay when the module is replaced by one without it, and that what was
printed before is not printed again (C118). -/
theorem C119_kept_partial (sp : Spelling) (n : Nat) (S : Session) (h : Keeping sp n S) (R : Resolver)
    (hr : ResolvesModules n S.resolver S.modules (.ok R)) (out : List Line) (G : Generator)
    (hg : S.generator.generate sp R = .ok (out, G)) :
    ∃ (names : List Text) (top components : List Item), out = S.generator.items ++ .uses :: (top ++ components).map .item ∧
      top.map (·.ident) = names.map typeIdent ∧ names.Nodup ∧
      (∀ x ∈ names, DefinesType S.modules x) ∧ (∀ M x, Reached S.modules M x → x ∈ names) := by
  obtain ⟨p, hp, hg⟩ := Out.bind_ok.mp hg
  cases hg
  obtain ⟨h1, -, -⟩ := genAll_spec (is := p.1) (g' := p.2) hp
  obtain ⟨hn, hk⟩ := keeping_known h
  unfold ResolvesModules at hr
  split at hr
  · obtain ⟨order, ho, hr⟩ := hr
    have hs := resolvesOrder_tables hr hk.1
    have hmem : ∀ x, x ∈ (resolvedTypes R.resolved).map (·.1) ↔ ∃ t, get R.resolved x = some (.type t) := by
      intro x
      rw [List.mem_map]
      constructor
      · rintro ⟨⟨y, t⟩, hy, rfl⟩
        obtain ⟨⟨z, d⟩, hz, hd⟩ := List.mem_filterMap.mp hy
        cases d <;> cases hd
        exact ⟨_, get_of_mem hs.nodup hz⟩
      · rintro ⟨t, ht⟩
        exact ⟨(x, t), List.mem_filterMap.mpr ⟨_, get_mem ht, rfl⟩, rfl⟩
    refine ⟨(resolvedTypes R.resolved).map fun d => d.1, p.1, p.2.aux, by simp, by rw [h1, List.map_map]; rfl, ?_, ?_, ?_⟩
    · have : ((resolvedTypes R.resolved).map (·.1)).Sublist (R.resolved.map (·.1)) := by
        unfold resolvedTypes
        generalize R.resolved = l
        induction l with
        | nil => exact .slnil
        | cons d l ih =>
          obtain ⟨k, d⟩ := d
          cases d <;> first | exact ih.cons _ | exact ih.cons_cons _
      exact this.nodup hs.nodup
    · intro x hx
      obtain ⟨t, ht⟩ := (hmem x).mp hx
      rcases resolvesOrder_new hr ht with ⟨t1, ht⟩ | hx
      · exact hk.2 x t1 ht
      · exact hx
    · intro M x hx
      exact (hmem x).mpr (resolvesOrder_reached hn hx
        ((ho.mem_iff (.inl ⟨_, List.mem_map.mpr ⟨M, hx.mem, rfl⟩⟩)).mpr hx.imports) hr)
  · cases hr

/-! A history with both: a module with `A ::= BOOLEAN` is added and resolved, replaced by one with `B ::= NULL`, resolved and generated
twice. -/

/-- A module with one definition. -/
def singleModule (x : String) (k : Kind) : Module where
  name := "M".toList
  imports := []
  definitions := [(x.toList, ⟨.type (.mk k none), none⟩)]
  readObject := fun _ _ => .err .parse
  readSet := fun _ _ => .err .parse

theorem resolves_singleModule (x : String) (k : Kind) (t : RType) (n : Nat) (R : Resolver)
    (hk : k.refs = []) (h : resolveType n R (.mk k none) = .ok t) :
    ResolvesModules n R [singleModule x k] (.ok { R with resolved := put R.resolved x.toList (.type t) }) := by
  have hone : ∀ y : Text, Sorted [(y, [])] [y] := fun y => by
    unfold Sorted
    have hr : (graphOf [(y, [])]).ready = [y] := by simp [graphOf, Graph.insert, Graph.ready]
    have hr' : ((graphOf [(y, [])]).remove [y]).ready = [] := by simp [graphOf, Graph.insert, Graph.ready, Graph.remove]
    exact .round (popped := [y]) (rest := []) (by rw [hr]) (by rw [hr]; simp) (.done hr')
  unfold ResolvesModules
  rw [if_pos (by rfl)]
  refine ⟨["M".toList], hone _, ?_⟩
  refine ⟨.ok { R with resolved := put R.resolved x.toList (.type t) }, ?_, rfl⟩
  show ResolvesModule n R (singleModule x k) _
  unfold ResolvesModule
  refine ⟨[x.toList], ?_, ?_⟩
  · show Sorted [(x.toList, (AsnType.refs (.mk k none)).filter _)] _
    rw [AsnType.refs, hk]
    exact hone _
  · simp [singleModule, resolveInOrder, resolveOne, get, resolveDefinition, h, Out.bind, addClasses]

-- It ends with a file that defines `A`, of a module that is gone, twice.
example (sp : Spelling) : ∃ S S' out, History sp 5 "A".toList .new 1 1 S ∧ S.modules = [singleModule "B" .null] ∧
    Call sp 5 S S' (some out) ∧ definitionsOf "A".toList out = 2 ∧ definitionsOf "B".toList out = 2 ∧ usesOf out = 2 := by
  have h1 : Call sp 5 .new ⟨[singleModule "A" .boolean], {}, .new⟩ none := .add .new (singleModule "A" .boolean)
  have h2 : Call sp 5 ⟨[singleModule "A" .boolean], {}, .new⟩
      ⟨[singleModule "A" .boolean], { resolved := [("A".toList, .type (.base .boolean))] }, .new⟩ none :=
    .resolve _ (.cons (.inl rfl) .nil) (resolves_singleModule "A" .boolean (.base .boolean) 5 {} rfl rfl)
  have h3 : Call sp 5 ⟨[singleModule "A" .boolean], { resolved := [("A".toList, .type (.base .boolean))] }, .new⟩
      ⟨[singleModule "B" .null], { resolved := [("A".toList, .type (.base .boolean))] }, .new⟩ none :=
    .add _ (singleModule "B" .null)
  have h4 : Call sp 5 ⟨[singleModule "B" .null], { resolved := [("A".toList, .type (.base .boolean))] }, .new⟩
      ⟨[singleModule "B" .null], { resolved := [("A".toList, .type (.base .boolean)), ("B".toList, .type (.base .null))] }, .new⟩ none :=
    .resolve _ (.cons (.inl rfl) .nil) (resolves_singleModule "B" .null (.base .null) 5 _ rfl rfl)
  have h5 : Call sp 5 _ _ _ := .generate (sp := sp) (n := 5) (S := ⟨[singleModule "B" .null],
    { resolved := [("A".toList, .type (.base .boolean)), ("B".toList, .type (.base .null))] }, .new⟩) rfl
  exact ⟨_, _, _, .known (t := .base .boolean) (.other (.other (.other (.other (.start _) h1) h2) h3) h4) (.head _) h5, rfl,
    .generate rfl, rfl, rfl, rfl⟩

/-- The same module under another name. -/
def namedModule (m x : String) (k : Kind) : Module := { singleModule x k with name := m.toList }

/-- The calls `add_module`, `resolve_modules`, `add_module`, with two modules. -/
theorem keeping_example (sp : Spelling) : Keeping sp 5
    ⟨[namedModule "N" "B" .null, singleModule "A" .boolean], { resolved := [("A".toList, .type (.base .boolean))] }, .new⟩ := by
  have h1 : Call sp 5 .new ⟨[singleModule "A" .boolean], {}, .new⟩ none := .add .new (singleModule "A" .boolean)
  have h2 : Call sp 5 ⟨[singleModule "A" .boolean], {}, .new⟩
      ⟨[singleModule "A" .boolean], { resolved := [("A".toList, .type (.base .boolean))] }, .new⟩ none :=
    .resolve _ (.cons (.inl rfl) .nil) (resolves_singleModule "A" .boolean (.base .boolean) 5 {} rfl rfl)
  have h3 : Call sp 5 ⟨[singleModule "A" .boolean], { resolved := [("A".toList, .type (.base .boolean))] }, .new⟩
      ⟨[namedModule "N" "B" .null, singleModule "A" .boolean], { resolved := [("A".toList, .type (.base .boolean))] }, .new⟩ none :=
    .add _ (namedModule "N" "B" .null)
  refine .call (.call (.call .new h1 ?_) h2 fun _ h => h) h3 ?_
  · rintro x ⟨M, hM, _⟩; cases hM
  · rintro x ⟨M, hM, h⟩; exact ⟨M, .tail _ hM, h⟩

-- Both types are generated.
example : Reached [namedModule "N" "B" .null, singleModule "A" .boolean] (namedModule "N" "B" .null) "B".toList := by
  have hn : ∀ (needs : List (Text × List Text)) (k : Text), (∀ p ∈ needs, p.2 = []) → ¬ Cyclic needs k := by
    intro needs k h hc
    have hr : ∀ a b, Reaches needs a b → False := by
      intro a b hab
      induction hab with
      | one hab => obtain ⟨rs, h1, h2⟩ := hab; cases (h _ h1 : rs = []); cases h2
      | more hab => obtain ⟨rs, h1, h2⟩ := hab; cases (h _ h1 : rs = []); cases h2
    rcases hc with hc | ⟨c, hc, -⟩ <;> exact hr _ _ hc
  refine ⟨.head _, ⟨_, .head _⟩, ?_, by decide, hn _ _ ?_, fun R defs hd => hn _ _ ?_⟩
  · intro N hN d hd
    simp only [List.mem_cons, List.not_mem_nil, or_false] at hN
    rcases hN with rfl | rfl
    · cases hd with
      | head => exact ⟨_, rfl⟩
      | tail _ h => cases h
    · cases hd with
      | tail _ h => cases h
  · intro p hp
    simp only [moduleNeeds, List.map_cons, List.map_nil, List.mem_cons, List.not_mem_nil, or_false] at hp
    rcases hp with rfl | rfl <;> rfl
  · cases hd
    intro p hp
    simp only [needsOf, List.map_cons, List.map_nil, List.mem_cons, List.not_mem_nil, or_false] at hp
    subst hp
    rfl

end Hampi.Compiler.Props
