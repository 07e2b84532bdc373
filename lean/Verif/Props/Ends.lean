import Verif.Lemmas.Ends
import Verif.Props.Main
import Verif.Props.Params
/-!
# C127: resolving ends

The number `n` in `ResolvesModules n` and `Runs u sp n` bounds the nesting of calls; `.diverge` means that it was not
enough. What is `.diverge` for every `n` never ends (the program overflows its stack).
-/
namespace Hampi.Compiler.Props
open Hampi.Compiler.Spec

/-! ## A type that is expanded for ever -/

/-- A parameterized type that is given itself. -/
def selfText : List Char :=
  "M DEFINITIONS ::= BEGIN P {X} ::= SEQUENCE { a X {X} } A ::= P {P} END\n".toList

/-- `SEQUENCE { a x {x} }`. -/
def selfType (x : Text) : AsnType :=
  .mk (.sequence [.mk "a".toList (.mk (.parameterized x [.single x]) (some [])) false none] [] false) (some [])

/-- The tokens of `SEQUENCE { a x {x} }`. -/
def selfTokens (x : Text) : List Token :=
  [⟨.keyword, ⟨0, 0⟩, ⟨0, 0⟩, "SEQUENCE".toList⟩, ⟨.curlyBegin, ⟨0, 0⟩, ⟨0, 0⟩, "{".toList⟩,
    ⟨.identifier, ⟨0, 0⟩, ⟨0, 0⟩, "a".toList⟩, ⟨.identifier, ⟨0, 0⟩, ⟨0, 0⟩, x⟩, ⟨.curlyBegin, ⟨0, 0⟩, ⟨0, 0⟩, "{".toList⟩,
    ⟨.identifier, ⟨0, 0⟩, ⟨0, 0⟩, x⟩, ⟨.curlyEnd, ⟨0, 0⟩, ⟨0, 0⟩, "}".toList⟩, ⟨.curlyEnd, ⟨0, 0⟩, ⟨0, 0⟩, "}".toList⟩]

@[inherit_doc selfText]
def selfParsed : ParsedModule :=
  ⟨"M".toList, [], [("A".toList, ⟨"A".toList, .type (.mk (.parameterized "P".toList [.single "P".toList]) (some [])), none⟩),
    ("P".toList, ⟨"P".toList, .type (selfType "X".toList), some (["X".toList], selfTokens "X".toList)⟩)]⟩

theorem self_note {x : Text} (hu : ∃ c cs, x = c :: cs ∧ c.isUpper = true) (hk : ∀ kw ∈ KEYWORDS, x ≠ kw.toList)
    {t1 t2 t3 t4 t5 t6 t7 t8 : Token} (h1 : Word "SEQUENCE" t1) (h2 : t2.type = .curlyBegin) (h3 : LowerName "a".toList t3)
    (a4 : t4.type = .identifier) (b4 : t4.text = x) (h5 : t5.type = .curlyBegin) (a6 : t6.type = .identifier)
    (b6 : t6.text = x) (h7 : t7.type = .curlyEnd) (h8 : t8.type = .curlyEnd) :
    TypeNote (selfType x) [t1, t2, t3, t4, t5, t6, t7, t8] := by
  have hp : ParamNote (.single x) [t6] := by
    rw [← b6]
    exact .single (.inr a6)
  refine TypeNote.type (us := []) (.sequence (j := 0) (ts := [t3, t4, t5, t6, t7]) h1 h2 ?_ h8) .nil
  exact .component (by decide) (.required (ts := [t4, t5, t6, t7]) h3
    (.type (ts := [t4, t5, t6, t7]) (us := []) (.simple (.parameterized (ts := [t6]) (upper a4 b4 hu hk) h5
      (.one hp) h7)) .nil)) .done

theorem unplaced_eq {t : Token} {k : TokenType} {x : Text} (h1 : t.type = k) (h2 : t.text = x) :
    t.unplaced = ⟨k, ⟨0, 0⟩, ⟨0, 0⟩, x⟩ := by
  rw [Token.unplaced, h1, h2]

set_option maxRecDepth 8000 in
theorem self_spells : Spells ascii selfText [selfParsed] := by
  refine spells_of (l := [(.identifier, "M".toList), (.keyword, "DEFINITIONS".toList), (.assignment, "::=".toList),
    (.keyword, "BEGIN".toList), (.identifier, "P".toList), (.curlyBegin, "{".toList), (.identifier, "X".toList),
    (.curlyEnd, "}".toList), (.assignment, "::=".toList), (.keyword, "SEQUENCE".toList), (.curlyBegin, "{".toList),
    (.identifier, "a".toList), (.identifier, "X".toList), (.curlyBegin, "{".toList), (.identifier, "X".toList),
    (.curlyEnd, "}".toList), (.curlyEnd, "}".toList), (.identifier, "A".toList), (.assignment, "::=".toList),
    (.identifier, "P".toList), (.curlyBegin, "{".toList), (.identifier, "P".toList), (.curlyEnd, "}".toList),
    (.keyword, "END".toList)])
    (by decide +kernel) (by decide) fun ts h => ?_
  obtain ⟨t1, ts, rfl, a1, b1, h⟩ := bare_cons h
  obtain ⟨t2, ts, rfl, a2, b2, h⟩ := bare_cons h
  obtain ⟨t3, ts, rfl, a3, b3, h⟩ := bare_cons h
  obtain ⟨t4, ts, rfl, a4, b4, h⟩ := bare_cons h
  obtain ⟨t5, ts, rfl, a5, b5, h⟩ := bare_cons h
  obtain ⟨t6, ts, rfl, a6, b6, h⟩ := bare_cons h
  obtain ⟨t7, ts, rfl, a7, b7, h⟩ := bare_cons h
  obtain ⟨t8, ts, rfl, a8, b8, h⟩ := bare_cons h
  obtain ⟨t9, ts, rfl, a9, b9, h⟩ := bare_cons h
  obtain ⟨t10, ts, rfl, a10, b10, h⟩ := bare_cons h
  obtain ⟨t11, ts, rfl, a11, b11, h⟩ := bare_cons h
  obtain ⟨t12, ts, rfl, a12, b12, h⟩ := bare_cons h
  obtain ⟨t13, ts, rfl, a13, b13, h⟩ := bare_cons h
  obtain ⟨t14, ts, rfl, a14, b14, h⟩ := bare_cons h
  obtain ⟨t15, ts, rfl, a15, b15, h⟩ := bare_cons h
  obtain ⟨t16, ts, rfl, a16, b16, h⟩ := bare_cons h
  obtain ⟨t17, ts, rfl, a17, b17, h⟩ := bare_cons h
  obtain ⟨t18, ts, rfl, a18, b18, h⟩ := bare_cons h
  obtain ⟨t19, ts, rfl, a19, b19, h⟩ := bare_cons h
  obtain ⟨t20, ts, rfl, a20, b20, h⟩ := bare_cons h
  obtain ⟨t21, ts, rfl, a21, b21, h⟩ := bare_cons h
  obtain ⟨t22, ts, rfl, a22, b22, h⟩ := bare_cons h
  obtain ⟨t23, ts, rfl, a23, b23, h⟩ := bare_cons h
  obtain ⟨t24, ts, rfl, a24, b24, h⟩ := bare_cons h
  rw [List.map_eq_nil_iff] at h
  subst h
  have seq : TypeNote (selfType "X".toList) [t10, t11, t12, t13, t14, t15, t16, t17] :=
    self_note ⟨_, _, rfl, rfl⟩ (by decide) ⟨a10, b10⟩ a11 ⟨a12, b12, _, _, rfl, rfl⟩ a13 b13 a14 a15 b15 a16 a17
  have htok : [t10, t11, t12, t13, t14, t15, t16, t17].map Token.unplaced = selfTokens "X".toList := by
    simp only [List.map, selfTokens, unplaced_eq a10 b10, unplaced_eq a11 b11, unplaced_eq a12 b12, unplaced_eq a13 b13,
      unplaced_eq a14 b14, unplaced_eq a15 b15, unplaced_eq a16 b16, unplaced_eq a17 b17]
  have hp : ParamNote (.single "P".toList) [t22] := by
    rw [show "P".toList = t22.text from b22.symm]
    exact .single (.inr a22)
  have d1 : DefNote ⟨"P".toList, .type (selfType "X".toList), some (["X".toList], selfTokens "X".toList)⟩
      [t5, t6, t7, t8, t9, t10, t11, t12, t13, t14, t15, t16, t17] := by
    rw [← htok]
    exact .parameterized (ws := [t7]) (upper a5 b5 ⟨_, _, rfl, rfl⟩ (by decide)) a6
      (.one (.plain (upper a7 b7 ⟨_, _, rfl, rfl⟩ (by decide)))) a8 a9 seq
  have d2 : DefNote ⟨"A".toList, .type (.mk (.parameterized "P".toList [.single "P".toList]) (some [])), none⟩
      [t18, t19, t20, t21, t22, t23] :=
    .type (upper a18 b18 ⟨_, _, rfl, rfl⟩ (by decide)) a19 (.type (ts := [t20, t21, t22, t23]) (us := [])
      (.simple (.parameterized (ts := [t22]) (upper a20 b20 ⟨_, _, rfl, rfl⟩ (by decide)) a21 (.one hp) a23)) .nil)
  exact .one (.mk (os := []) (gs := []) (is := []) (l := [])
    (ts := [t5, t6, t7, t8, t9, t10, t11, t12, t13, t14, t15, t16, t17, t18, t19, t20, t21, t22, t23])
    (ds := [⟨"P".toList, .type (selfType "X".toList), some (["X".toList], selfTokens "X".toList)⟩,
      ⟨"A".toList, .type (.mk (.parameterized "P".toList [.single "P".toList]) (some [])), none⟩])
    (upper a1 b1 ⟨_, _, rfl, rfl⟩ (by decide)) .none ⟨a2, b2⟩ .none a3 ⟨a4, b4⟩ .none
    (.cons (ts := [t5, t6, t7, t8, t9, t10, t11, t12, t13, t14, t15, t16, t17]) (us := [t18, t19, t20, t21, t22, t23]) d1
      (.cons (ts := [t18, t19, t20, t21, t22, t23]) (us := []) d2 .nil)) ⟨a24, b24⟩
    ⟨.refl _, .nil⟩ ⟨.swap _ _ _, by decide⟩)

theorem self_expands (m : Nat) : applyParams m ["X".toList] (selfTokens "X".toList) [.single "P".toList] = .diverge ∨
    applyParams m ["X".toList] (selfTokens "X".toList) [.single "P".toList] = .ok (selfType "P".toList) := by
  refine below (f := fun m => applyParams m ["X".toList] (selfTokens "X".toList) [.single "P".toList])
    (fun n => applyParams_le (Nat.le_succ n) _ _ _) (C93_instance_partial rfl ?_ ?_) m
  · intro k a h
    match k with
    | 0 => simp
    | k + 1 => simp at h
  · rw [show instantiated ["X".toList] ([.single "P".toList].map ActualParam.text) (selfTokens "X".toList) =
      selfTokens "P".toList by decide +kernel]
    exact self_note ⟨_, _, rfl, rfl⟩ (by decide) ⟨rfl, rfl⟩ rfl ⟨rfl, rfl, _, _, rfl, rfl⟩ rfl rfl rfl rfl rfl rfl rfl

theorem self_diverges {R : Resolver} {m : Nat}
    (h : get R.params "P".toList = some (applyParams m ["X".toList] (selfTokens "X".toList))) (n : Nat) :
    ∀ cs, resolveType n R (.mk (.parameterized "P".toList [.single "P".toList]) cs) = .diverge := by
  induction n using Nat.strongRecOn with
  | _ n ih =>
    intro cs
    match n with
    | 0 => rfl
    | n + 1 =>
      rw [resolveType, h]
      dsimp only
      rcases self_expands m with e | e
      · rw [e]; rfl
      · rw [e]
        show resolveType n R (selfType "P".toList) = .diverge
        match n with
        | 0 => rfl
        | n + 1 =>
          have := ih n (by omega) (some [])
          rw [selfType, resolveType, mapOut, resolveComponent, this]
          rfl

theorem self_order {r : List Text} (h : Sorted [("A".toList, ["P".toList, "P".toList]),
    ("P".toList, ["X".toList, "X".toList])] r) : r = ["X".toList, "P".toList, "A".toList] := by
  unfold Sorted at h
  cases h with
  | done h => exact absurd h (by decide)
  | round hp _ hr =>
    rw [show (graphOf _).ready = ["X".toList] by decide, List.perm_singleton] at hp
    subst hp
    cases hr with
    | done h => exact absurd h (by decide)
    | round hp _ hr =>
      rw [show Graph.ready _ = ["P".toList] by decide, List.perm_singleton] at hp
      subst hp
      cases hr with
      | done h => exact absurd h (by decide)
      | round hp _ hr =>
        rw [show Graph.ready _ = ["A".toList] by decide, List.perm_singleton] at hp
        subst hp
        cases hr with
        | done h => rfl
        | round hp hne hr => exact absurd (by decide) hne

theorem self_resolves {n m : Nat} {r : Out Err Resolver} (h : ResolvesModules n {} [selfParsed.toModule ascii m] r) :
    r = .diverge := by
  unfold ResolvesModules at h
  rw [if_pos (show importsFound [selfParsed.toModule ascii m] = true from rfl)] at h
  obtain ⟨order, ho, h⟩ := h
  have ho : Sorted [("M".toList, [])] order := ho
  have e : order = ["M".toList] := by
    unfold Sorted at ho
    cases ho with
    | done hz => exact absurd hz (by decide)
    | round hp _ hr =>
      rw [show (graphOf _).ready = ["M".toList] by decide, List.perm_singleton] at hp
      subst hp
      cases hr with
      | done h => rfl
      | round hp hne hr => exact absurd (by decide) hne
  subst e
  obtain ⟨r1, h1, h2⟩ := h
  obtain ⟨o, ho, h1⟩ := h1
  have := self_order ho
  subst this
  have h1 : r1 = resolveInOrder n _ _ ["X".toList, "P".toList, "A".toList] := h1
  have key := self_diverges (R := { params := [("P".toList, applyParams m ["X".toList] (selfTokens "X".toList))] }) rfl n
    (some [])
  have h3 : r1 = (((resolveType n { params := [("P".toList, applyParams m ["X".toList] (selfTokens "X".toList))] }
    (.mk (.parameterized "P".toList [.single "P".toList]) (some []))).bind fun t => Out.ok (RDef.type t)).bind _).bind _ := h1
  rw [key] at h3
  subst h3
  exact h2

/-- **C127 (violated).** The compiler never ends on this file, which is in the notation it supports: no number of nested
calls is enough. The parameterized type `P` applies its parameter to itself, and `A` gives `P` to it. The search for
circular definitions does not see it, as `P` by itself mentions only its parameter. -/
theorem C127_self_application_violated (sp : Spelling) :
    Spells ascii selfText [selfParsed] ∧
      ∀ n, (∃ r, Runs ascii sp n [.text selfText] r) ∧ ∀ r, Runs ascii sp n [.text selfText] r → r = .diverge := by
  refine ⟨self_spells, fun n => ?_⟩
  have hread : readArg ascii n (.text selfText) = .diverge ∨ readArg ascii n (.text selfText) = .ok [selfParsed] := by
    obtain ⟨n₀, h⟩ := spells_read self_spells
    have h0 := h (max n n₀) (by omega)
    unfold readArg at h0 ⊢
    dsimp only at h0 ⊢
    cases ht : tokenize ascii selfText with
    | ok ts =>
      rw [ht] at h0
      have h0 : (parse (max n n₀) ts).orCompile = .ok [selfParsed] := h0
      show (parse n ts).orCompile = .diverge ∨ (parse n ts).orCompile = .ok [selfParsed]
      by_cases hp : parse n ts = .diverge
      · rw [hp]; exact .inl rfl
      · rw [C85_result_is_stable (Nat.le_max_left n n₀) hp] at h0
        exact .inr h0
    | _ => rw [ht] at h0; cases h0
  unfold Runs
  rcases hread with h | h
  · rw [readArgs, h]
    exact ⟨⟨_, rfl⟩, fun _ h => h⟩
  · rw [readArgs, h]
    refine ⟨?_, ?_⟩
    · obtain ⟨s, hs⟩ := resolvesModules_exists n [selfParsed.toModule ascii n] {}
      exact ⟨_, s, hs, rfl⟩
    · rintro r ⟨s, hs, rfl⟩
      rw [self_resolves hs]
      rfl

/-! ## When it ends -/

/-- **C127 (partial).** When no name is defined in two modules, there is no endless sequence of instances of parameterized
types that lead to one another, and reading the instances and objects ends, resolving ends, with a result, an error
or a panic, in whatever order the hash tables give the definitions. Missing, because false: several definitions of a name
(`C72_endless_recursion_violated`), and parameterized types that lead to themselves (above). -/
theorem C127_ends_partial (ms : List Module) (hd : DistinctDefinitions ms) (hr : ReadingEnds ms) (h : ¬ Endless ms) :
    ∃ n₀, ∀ n, n₀ ≤ n → (∃ r, ResolvesModules n {} ms r) ∧ ∀ r, ResolvesModules n {} ms r → r ≠ .diverge := by
  obtain ⟨n₀, hn⟩ := resolves_done hd hr h
  exact ⟨n₀, fun n hle => ⟨resolvesModules_exists n ms {}, hn n hle⟩⟩

/-- C127 (partial): in particular when no definition has parameters. -/
theorem C127_without_parameters_partial (ms : List Module) (hd : DistinctDefinitions ms) (hr : ReadingEnds ms)
    (h : ∀ M ∈ ms, ∀ k d, (k, d) ∈ M.definitions → d.params = none) :
    ∃ n₀, ∀ n, n₀ ≤ n → (∃ r, ResolvesModules n {} ms r) ∧ ∀ r, ResolvesModules n {} ms r → r ≠ .diverge := by
  refine C127_ends_partial ms hd hr ?_
  rintro ⟨f, _, hf⟩
  obtain ⟨M, hM, d, e, ty, hd, he, _⟩ := hf 0
  rw [h M hM _ d hd] at he
  cases he

/-- The tokens of `SEQUENCE { a X }`. -/
def boxTokens : List Token :=
  [⟨.keyword, ⟨0, 0⟩, ⟨0, 0⟩, "SEQUENCE".toList⟩, ⟨.curlyBegin, ⟨0, 0⟩, ⟨0, 0⟩, "{".toList⟩,
    ⟨.identifier, ⟨0, 0⟩, ⟨0, 0⟩, "a".toList⟩, ⟨.identifier, ⟨0, 0⟩, ⟨0, 0⟩, "X".toList⟩,
    ⟨.curlyEnd, ⟨0, 0⟩, ⟨0, 0⟩, "}".toList⟩]

/-- `SEQUENCE { a x }`. -/
def boxType (x : Text) : AsnType :=
  .mk (.sequence [.mk "a".toList (.mk (.reference x) (some [])) false none] [] false) (some [])

/-- `P {X} ::= SEQUENCE { a X }`, `B ::= BOOLEAN`, `A ::= P {B}`. -/
def boxed : Module :=
  ⟨"M".toList, [],
    [("P".toList, ⟨.type (boxType "X".toList), some (applyParams 30 ["X".toList] boxTokens)⟩),
     ("B".toList, ⟨.type (.mk .boolean none), none⟩),
     ("A".toList, ⟨.type (.mk (.parameterized "P".toList [.single "B".toList]) none), none⟩)],
    fun s fs => parseObject ascii 30 s fs, fun s fs => parseObjectsOfSet ascii 30 s fs⟩

theorem box_expanded : applyParams 30 ["X".toList] boxTokens [.single "B".toList] = .ok (boxType "B".toList) := by
  with_unfolding_all rfl

theorem box_definitions {k : Text} {d : Definition} (h : (k, d) ∈ boxed.definitions) :
    d = ⟨.type (boxType "X".toList), some (applyParams 30 ["X".toList] boxTokens)⟩ ∨
      d = ⟨.type (.mk .boolean none), none⟩ ∨
      d = ⟨.type (.mk (.parameterized "P".toList [.single "B".toList]) none), none⟩ := by
  rcases List.mem_cons.mp h with h | h
  · cases h; exact .inl rfl
  · rcases List.mem_cons.mp h with h | h
    · cases h; exact .inr (.inl rfl)
    · cases List.mem_singleton.mp h; exact .inr (.inr rfl)

theorem occurs_applied {a : Instance} {n : Text} {ps : List ActualParam} {cs : Option (List Constraint)}
    (h : Occurs a (.mk (.parameterized n ps) cs)) : a = (n, ps) := by
  cases h; rfl

theorem box_written {a : Instance} {ty : AsnType} (h : TypeIn [boxed] ty) (ha : Occurs a ty) :
    a = ("P".toList, [.single "B".toList]) := by
  have key : ty = .mk .boolean none ∨ ty = .mk (.parameterized "P".toList [.single "B".toList]) none := by
    cases h with
    | type hM hd =>
      cases List.mem_singleton.mp hM
      rcases box_definitions hd with h | h | h
      · cases h
      · cases h; exact .inl rfl
      · cases h; exact .inr rfl
    | value hM hd | object hM hd | fields hM hd | set hM hd =>
      cases List.mem_singleton.mp hM
      rcases box_definitions hd with h | h | h
      · cases h
      · cases h
      · cases h
  rcases key with rfl | rfl
  · cases ha
  · exact occurs_applied ha

theorem box_stops {b : Instance} : ¬ Unfolds [boxed] ("P".toList, [.single "B".toList]) b := by
  rintro ⟨M, hM, d, e, ty, hd, he, hx, hb⟩
  cases List.mem_singleton.mp hM
  rcases box_definitions hd with h | h | h
  · subst h
    cases he
    rw [box_expanded] at hx
    cases hx
    cases hb with
    | component hm ho => cases List.mem_singleton.mp hm; cases ho
  · subst h; cases he
  · subst h; cases he

/-- In this schema resolving ends. -/
example : ∃ n₀, ∀ n, n₀ ≤ n → (∃ r, ResolvesModules n {} [boxed] r) ∧
    ∀ r, ResolvesModules n {} [boxed] r → r ≠ .diverge := by
  refine C127_ends_partial [boxed] ?_ ⟨?_, ?_, ?_⟩ ?_
  · intro M hM N hN k d e _ _
    rw [List.mem_singleton.mp hM, List.mem_singleton.mp hN]
  · intro a ha M hM d e hd he
    cases List.mem_singleton.mp hM
    have : a = ("P".toList, [.single "B".toList]) := by
      clear hd
      induction ha with
      | written h ho => exact box_written h ho
      | unfolded _ hu ih => subst ih; exact absurd hu box_stops
    subst this
    rcases box_definitions hd with h | h | h
    · subst h
      cases he
      rw [box_expanded]
      nofun
    · subst h; cases he
    · subst h; cases he
  · intro M hM k cls s p fs hd
    cases List.mem_singleton.mp hM
    rcases box_definitions hd with h | h | h
    · cases h
    · cases h
    · cases h
  · intro M hM k cls root add p fs hd
    cases List.mem_singleton.mp hM
    rcases box_definitions hd with h | h | h
    · cases h
    · cases h
    · cases h
  · rintro ⟨f, ⟨ty, hty, ho⟩, hf⟩
    have h0 := hf 0
    rw [box_written hty ho] at h0
    exact box_stops h0

/-- And in one with a recursive type and no parameters. -/
example : ∃ n₀, ∀ n, n₀ ≤ n → (∃ r, ResolvesModules n {} [treeModule] r) ∧
    ∀ r, ResolvesModules n {} [treeModule] r → r ≠ .diverge := by
  have plain : ∀ M ∈ [treeModule], ∀ k d, (k, d) ∈ M.definitions →
      d.params = none ∧ ∃ ty, d.kind = .type ty := by
    intro M hM k d hd
    cases List.mem_singleton.mp hM
    rcases List.mem_cons.mp hd with h | h
    · cases h; exact ⟨rfl, _, rfl⟩
    · cases List.mem_singleton.mp h; exact ⟨rfl, _, rfl⟩
  refine C127_without_parameters_partial [treeModule] ?_ ⟨?_, ?_, ?_⟩ fun M hM k d hd => (plain M hM k d hd).1
  · intro M hM N hN k d e _ _
    rw [List.mem_singleton.mp hM, List.mem_singleton.mp hN]
  · intro a _ M hM d e hd he
    rw [(plain M hM _ d hd).1] at he
    cases he
  · intro M hM k cls s p fs hd
    obtain ⟨_, ty, h⟩ := plain M hM k _ hd
    cases h
  · intro M hM k cls root add p fs hd
    obtain ⟨_, ty, h⟩ := plain M hM k _ hd
    cases h

end Hampi.Compiler.Props
