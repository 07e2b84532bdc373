import Verif.Lemmas.TripsModules
import Verif.Props.Ends
import Verif.Props.TokenizerBack
/-!
# C141: when the compiler panics

`Trips` (Spec/Trips.lean) lists the reasons for a panic while modules are resolved and code is generated for them.
-/
namespace Hampi.Compiler.Props
open _root_.Hampi.Compiler.Spec

/-- **C141 (partial).** Resolving modules panics only for one of the reasons in `Trips`, whatever order the definitions and
modules are taken in. Missing: those. -/
theorem C141_resolving_partial {n : Nat} {ms : List Module} {r : Out Err Resolver} (h : ResolvesModules n {} ms r)
    (hp : r = .panic) : Trips n ms :=
  Classical.byContradiction fun ht => (resolvesModules_calmly ht h).1 hp

/-- **C141 (partial).** Nor does generating the code panic for any other reason: not one of them is in what the resolver has
found, but in what is written. Missing: those. -/
theorem C141_generating_partial {n : Nat} {ms : List Module} {R : Resolver} (h : ResolvesModules n {} ms (.ok R))
    {sp : Spelling} (hp : generate sp R = .panic) : Trips n ms :=
  Classical.byContradiction fun ht => generate_quiet ((resolvesModules_calmly ht h).2 R rfl) sp hp

theorem readArgs_panics {u : Unicode} {n : Nat} : ∀ {args : List Arg} {ms : List Module}, readArgs u n ms args = .panic →
    ∃ a ∈ args, readArg u n a = .panic
  | [], _, h => by cases h
  | a :: as, ms, h => by
    rw [readArgs] at h
    cases ha : readArg u n a with
    | panic => exact ⟨a, List.mem_cons_self, ha⟩
    | ok pms =>
      rw [ha] at h
      obtain ⟨b, hb, h⟩ := readArgs_panics (show readArgs u n _ as = .panic from h)
      exact ⟨b, List.mem_cons_of_mem _ hb, h⟩
    | err e => rw [ha] at h; cases h
    | diverge => rw [ha] at h; cases h

/-- **C141 (partial).** The program panics only if a file is not UTF-8, or the tokenizer panics on its text (C52 says when), or
the text ends in the middle of one of three kinds of type, or for one of the reasons in `Trips`. Missing: those. -/
theorem C141_program_partial {u : Unicode} {sp : Spelling} {n : Nat} {args : List Arg} (h : Runs u sp n args .panic) :
    .binary ∈ args ∨
    (∃ cs, .text cs ∈ args ∧ tokenize u cs = .panic) ∨
    (∃ cs ts t, .text cs ∈ args ∧ tokenize u cs = .ok ts ∧ (ts.filter fun t => !t.is .comment).getLast? = some t ∧
      (t.text = "OCTET".toList ∨ t.text = "CHARACTER".toList ∨ t.type = .lessThan)) ∨
    ∃ ms, readArgs u n [] args = .ok ms ∧ Trips n ms := by
  unfold Runs at h
  cases hr : readArgs u n [] args with
  | ok ms =>
    rw [hr] at h
    obtain ⟨s, hs, h⟩ := h
    refine .inr (.inr (.inr ⟨ms, rfl, ?_⟩))
    cases s with
    | panic => exact C141_resolving_partial hs rfl
    | ok R =>
      refine C141_generating_partial hs (sp := sp) ?_
      have h : Out.panic = (generate sp R).orCompile := h
      cases hg : generate sp R with
      | panic => rfl
      | _ => rw [hg] at h; cases h
    | err e => cases h
    | diverge => cases h
  | err e => rw [hr] at h; cases h
  | diverge => rw [hr] at h; cases h
  | panic =>
    obtain ⟨a, ha, hp⟩ := readArgs_panics hr
    cases a with
    | missing => cases hp
    | binary => exact .inl ha
    | text cs =>
      unfold readArg at hp
      dsimp only at hp
      cases ht : tokenize u cs with
      | panic => exact .inr (.inl ⟨cs, ha, ht⟩)
      | ok ts =>
        rw [ht] at hp
        have hp : (parse n ts).orCompile = .panic := hp
        have hp : parse n ts = .panic := by
          cases hq : parse n ts with
          | panic => rfl
          | _ => rw [hq] at hp; cases hp
        obtain ⟨t, h1, h2⟩ := C87_no_panic_partial hp
        exact .inr (.inr (.inl ⟨cs, ts, t, ha, ht, h1, h2⟩))
      | err e => rw [ht] at hp; cases hp
      | diverge => rw [ht] at hp; cases hp

/-! ## Texts the compiler panics on -/

/-- The only definition of the only module. -/
def loneDefinition : Out MainErr (List ParsedModule) → Option (Text × Text × Assignment)
  | .ok [⟨m, [], [(k, ⟨_, a, none⟩)]⟩] => some (m, k, a)
  | _ => none

/-- Resolving the type panics, or gives a type for which generating does. -/
def badType (ty : AsnType) : Bool :=
  match resolveType 40 {} ty with
  | .panic => true
  | .ok (.base (.enumerated _ _ _ [] _)) => true
  | .ok (.choice [] none) => true
  | .ok (.choice [] (some [])) => true
  | _ => false

/-- The type is an INTEGER and the value no number. -/
def badValue (ty : AsnType) (v : Text) : Bool :=
  match resolveType 40 {} ty with
  | .ok (.base (.integer ..)) => (parseI128 v).isNone
  | _ => false

/-- The text is that of a module with one such definition that mentions nothing. -/
def stumbles (text : String) : Bool :=
  match loneDefinition (readArg ascii 40 (.text text.toList)) with
  | some (_, _, .type ty) => ty.refs.isEmpty && badType ty
  | some (_, _, .value ty v) => ty.refs.isEmpty && badValue ty v
  | _ => false

theorem loneDefinition_some {x : Out MainErr (List ParsedModule)} {m k : Text} {a : Assignment}
    (h : loneDefinition x = some (m, k, a)) : ∃ i, x = .ok [⟨m, [], [(k, ⟨i, a, none⟩)]⟩] := by
  unfold loneDefinition at h
  split at h
  · cases h; exact ⟨_, rfl⟩
  · cases h

theorem sorted_one {x : Text} {order : List Text} (h : Sorted [(x, [])] order) : order = [x] := by
  have hr : (graphOf [(x, [])]).ready = [x] := by simp [graphOf, Graph.insert, Graph.ready]
  have hr' : ((graphOf [(x, [])]).remove [x]).ready = [] := by simp [graphOf, Graph.insert, Graph.ready, Graph.remove]
  unfold Sorted at h
  cases h with
  | done hz => rw [hr] at hz; cases hz
  | round hp hne hr2 =>
    rw [hr, List.perm_singleton] at hp
    subst hp
    cases hr2 with
    | done h => rfl
    | round hp hne hr => exact absurd hr' hne

theorem resolveType_stays {R : Resolver} {n m : Nat} (h : n ≤ m) {ty : AsnType} {x : Out Err RType} (hx : x ≠ .diverge)
    (hr : resolveType n R ty = x) : resolveType m R ty = x := by
  induction h with
  | refl => exact hr
  | step _ ih =>
    rcases resolveType_mono R _ ty with h | h
    · exact absurd (ih ▸ h) hx
    · rw [← h]; exact ih

/-- What the program gives for a text that is read as a module with one definition that mentions nothing. -/
theorem lone_runs {sp : Spelling} {n : Nat} {text : List Char} {m k i : Text} {a : Assignment} (hn : 40 ≤ n)
    (hr : readArg ascii 40 (.text text) = .ok [⟨m, [], [(k, ⟨i, a, none⟩)]⟩]) (hk : a.refs = [])
    (ha : (∃ ty, a = .type ty) ∨ ∃ ty v, a = .value ty v) :
    (∃ r, Runs ascii sp n [.text text] r) ∧ ∀ r, Runs ascii sp n [.text text] r →
      r = (((resolveDefinition n {} a).bind fun x => .ok { ({} : Resolver) with resolved := [(k, x)] }).bind (generate sp)).orCompile := by
  have hread : readArg ascii n (.text text) = .ok [⟨m, [], [(k, ⟨i, a, none⟩)]⟩] := by
    unfold readArg at hr ⊢
    dsimp only at hr ⊢
    cases ht : tokenize ascii text with
    | ok ts =>
      rw [ht] at hr
      have hr : (parse 40 ts).orCompile = .ok _ := hr
      show (parse n ts).orCompile = .ok _
      rw [C85_result_is_stable hn (fun hd => by rw [hd] at hr; cases hr)]
      exact hr
    | _ => rw [ht] at hr; cases hr
  have hargs : readArgs ascii n [] [.text text] =
      .ok [ParsedModule.toModule ascii n ⟨m, [], [(k, ⟨i, a, none⟩)]⟩] := by
    rw [readArgs, hread]
    rfl
  unfold Runs
  rw [hargs]
  refine ⟨?_, ?_⟩
  · obtain ⟨s, hs⟩ := resolvesModules_exists n [ParsedModule.toModule ascii n ⟨m, [], [(k, ⟨i, a, none⟩)]⟩] {}
    exact ⟨_, s, hs, rfl⟩
  · rintro r ⟨s, hs, rfl⟩
    have : s = (resolveDefinition n {} a).bind fun x => .ok { ({} : Resolver) with resolved := [(k, x)] } := by
      unfold ResolvesModules at hs
      rw [if_pos (show importsFound _ = true from rfl)] at hs
      obtain ⟨order, ho, hs⟩ := hs
      have := sorted_one (show Sorted [(m, [])] order from ho)
      subst this
      rw [ResolvesOrder] at hs
      have hg : getModule [ParsedModule.toModule ascii n ⟨m, [], [(k, ⟨i, a, none⟩)]⟩] m =
          some (ParsedModule.toModule ascii n ⟨m, [], [(k, ⟨i, a, none⟩)]⟩) := by
        simp [getModule, ParsedModule.toModule]
      rw [hg] at hs
      obtain ⟨r1, h1, h2⟩ := hs
      have hc : addClasses {} [(k, (⟨a, none⟩ : Definition))] = {} := by
        rcases ha with ⟨ty, rfl⟩ | ⟨ty, v, rfl⟩ <;> rfl
      have hm : mapOut (readDefinition {} (ParsedModule.toModule ascii n ⟨m, [], [(k, ⟨i, a, none⟩)]⟩)) [(k, ⟨a, none⟩)] =
          .ok [(k, ⟨a, none⟩)] := by
        rcases ha with ⟨ty, rfl⟩ | ⟨ty, v, rfl⟩ <;> rfl
      have h1 : match mapOut (readDefinition (addClasses {} [(k, (⟨a, none⟩ : Definition))])
            (ParsedModule.toModule ascii n ⟨m, [], [(k, ⟨i, a, none⟩)]⟩)) [(k, ⟨a, none⟩)] with
          | .ok defs => ∃ order, Sorted (needsOf [] defs) order ∧
              r1 = resolveInOrder n defs (addClasses {} [(k, (⟨a, none⟩ : Definition))]) order
          | .err e => r1 = .err e
          | .panic => r1 = .panic
          | .diverge => r1 = .diverge := h1
      rw [hc, hm] at h1
      obtain ⟨order, ho, h1⟩ := h1
      have := sorted_one (x := k) (order := order) (by
        rw [show needsOf [] [(k, (⟨a, none⟩ : Definition))] = [(k, a.refs.filter fun r => (get ([] : List (Text × Text)) r).isNone)]
          from rfl, hk] at ho
        exact ho)
      subst this
      have h3 : r1 = (resolveDefinition n {} a).bind fun x => .ok { ({} : Resolver) with resolved := [(k, x)] } := by
        rw [h1, resolveInOrder, resolveOne]
        have hgd : get [(k, (⟨a, none⟩ : Definition))] k = some ⟨a, none⟩ := by simp [get]
        rw [hgd]
        rcases ha with ⟨ty, rfl⟩ | ⟨ty, v, rfl⟩
        · show ((resolveDefinition n {} (.type ty)).bind _).bind _ = _
          cases resolveDefinition n {} (.type ty) <;> rfl
        · show ((resolveDefinition n {} (.value ty v)).bind _).bind _ = _
          cases resolveDefinition n {} (.value ty v) <;> rfl
      cases hd : resolveDefinition n {} a with
      | ok x => rw [hd] at h3; subst h3; exact h2
      | err e => rw [hd] at h3; subst h3; exact h2
      | panic => rw [hd] at h3; subst h3; exact h2
      | diverge => rw [hd] at h3; subst h3; exact h2
    rw [this]

theorem stumbles_panics {sp : Spelling} {n : Nat} {text : String} (h : stumbles text = true) (hn : 40 ≤ n) :
    (∃ r, Runs ascii sp n [.text text.toList] r) ∧ ∀ r, Runs ascii sp n [.text text.toList] r → r = .panic := by
  unfold stumbles at h
  split at h
  · rename_i m k ty hl
    obtain ⟨i, hr⟩ := loneDefinition_some hl
    rw [Bool.and_eq_true, List.isEmpty_iff] at h
    obtain ⟨h1, h2⟩ := lone_runs (sp := sp) hn hr h.1 (.inl ⟨ty, rfl⟩)
    refine ⟨h1, fun r hr => ?_⟩
    rw [h2 r hr, resolveDefinition]
    have hb := h.2
    unfold badType at hb
    cases ht : resolveType 40 {} ty with
    | panic => rw [resolveType_stays (x := .panic) hn nofun ht]; rfl
    | err e => rw [ht] at hb; cases hb
    | diverge => rw [ht] at hb; cases hb
    | ok t =>
      rw [resolveType_stays (x := .ok t) hn nofun ht]
      rw [ht] at hb
      split at hb
      · rename_i h; cases h
      · rename_i h; cases h; rfl
      · rename_i h; cases h; rfl
      · rename_i h; cases h; rfl
      · cases hb
  · rename_i m k ty v hl
    obtain ⟨i, hr⟩ := loneDefinition_some hl
    rw [Bool.and_eq_true, List.isEmpty_iff] at h
    obtain ⟨h1, h2⟩ := lone_runs (sp := sp) hn hr h.1 (.inr ⟨ty, v, rfl⟩)
    refine ⟨h1, fun r hr => ?_⟩
    rw [h2 r hr, resolveDefinition]
    have hb := h.2
    unfold badValue at hb
    cases ht : resolveType 40 {} ty with
    | panic => rw [ht] at hb; cases hb
    | err e => rw [ht] at hb; cases hb
    | diverge => rw [ht] at hb; cases hb
    | ok t =>
      rw [resolveType_stays (x := .ok t) hn nofun ht]
      rw [ht] at hb
      split at hb
      · rename_i h
        cases h
        obtain ⟨n, rfl⟩ : ∃ n', n = n' + 1 := ⟨n - 1, by omega⟩
        rw [Option.isNone_iff_eq_none] at hb
        show (((Out.bind (resolveValue (n + 1) {} v _) _).bind _).bind _).orCompile = _
        rw [resolveValue]
        simp only [get, hb]
        rfl
      · cases hb
  · cases h

/-- Files of one definition. -/
def stumblingTexts : List String := [
  "M DEFINITIONS ::= BEGIN T ::= ENUMERATED { a(0), b(1) } END",
  "M DEFINITIONS ::= BEGIN T ::= ENUMERATED { a, ..., b(170141183460469231731687303715884105728) } END",
  "M DEFINITIONS ::= BEGIN T ::= CHOICE { ... } END",
  "M DEFINITIONS ::= BEGIN T ::= BIT STRING { a(256) } END",
  "M DEFINITIONS ::= BEGIN T ::= INTEGER (INTEGER) END",
  "M DEFINITIONS ::= BEGIN T ::= INTEGER (1..5 ^ 7) END",
  "M DEFINITIONS ::= BEGIN T ::= INTEGER (0..170141183460469231731687303715884105727) END",
  "M DEFINITIONS ::= BEGIN x INTEGER ::= y END"]

set_option maxRecDepth 100000 in
theorem stumblingTexts_stumble : stumblingTexts.all stumbles = true := by decide +kernel

/-- The last token of the text is the keyword END. -/
def endsWell (text : String) : Bool :=
  match tokenize ascii text.toList with
  | .ok ts =>
    match (ts.filter fun t => !t.is .comment).getLast? with
    | some t => decide (t.text = "END".toList ∧ t.type = .keyword)
    | none => false
  | _ => false

set_option maxRecDepth 100000 in
theorem stumblingTexts_end : stumblingTexts.all endsWell = true := by decide +kernel

/-- **C141 (violated).** The compiler panics on each of these files, whatever order it takes definitions in: an ENUMERATED with
numbers, or with a large number after the extension marker, a CHOICE with nothing but an extension marker, a named bit above
255, INTEGER included in a constraint, an intersection that leaves nothing, an upper bound of 2^127-1, and a value that is the
name of nothing. Those of the first, third and fourth kind are correct ASN.1, as is the one with the large bound. -/
theorem C141_panics_violated (sp : Spelling) {text : String} (h : text ∈ stumblingTexts) {n : Nat} (hn : 40 ≤ n) :
    (∃ r, Runs ascii sp n [.text text.toList] r) ∧ ∀ r, Runs ascii sp n [.text text.toList] r → r = .panic :=
  stumbles_panics (List.all_eq_true.mp stumblingTexts_stumble text h) hn

/-- Resolved or not, the reason is in the file. -/
example (sp : Spelling) {text : String} (h : text ∈ stumblingTexts) :
    ∃ ms, readArgs ascii 40 [] [.text text.toList] = .ok ms ∧ Trips 40 ms := by
  obtain ⟨⟨r, hr⟩, hp⟩ := C141_panics_violated sp h (Nat.le_refl 40)
  cases hp r hr
  rcases C141_program_partial hr with h1 | ⟨cs, h1, h2⟩ | ⟨cs, ts, t, h1, h2, h3, h4⟩ | h1
  · simp at h1
  · exfalso
    have h1 : cs = text.toList := by simpa using h1
    subst h1
    have := List.all_eq_true.mp stumblingTexts_stumble text h
    have hq : readArg ascii 40 (.text text.toList) = .panic := by
      unfold readArg
      dsimp only
      rw [h2]
      rfl
    unfold stumbles at this
    rw [hq] at this
    cases this
  · exfalso
    have h1 : cs = text.toList := by simpa using h1
    subst h1
    have := List.all_eq_true.mp stumblingTexts_end text h
    unfold endsWell at this
    rw [h2] at this
    dsimp only at this
    rw [h3] at this
    have this : t.text = "END".toList ∧ t.type = .keyword := by simpa using this
    rcases h4 with h | h | h
    · rw [this.1] at h; exact absurd h (by decide)
    · rw [this.1] at h; exact absurd h (by decide)
    · rw [this.2] at h; cases h
  · exact h1

example : "M DEFINITIONS ::= BEGIN T ::= ENUMERATED { a(0), b(1) } END" ∈ stumblingTexts := .head _

/-! ## A schema without any of the reasons -/

/-- `T ::= SEQUENCE { a INTEGER (0..255), b BOOLEAN OPTIONAL }`. -/
def steadyModule : Module :=
  plainModule "M".toList [] [("T".toList, .type (.mk (.sequence
    [.mk "a".toList (.mk (.integer none) (some [.subtype (.mk [[.range "0".toList true "255".toList true]] none)])) false none,
     .mk "b".toList (.mk .boolean none) true none] [] false) none))]

theorem steady_definitions {M : Module} {k : Text} {d : Definition} (hM : M ∈ [steadyModule]) (h : (k, d) ∈ M.definitions) :
    d = ⟨.type (.mk (.sequence
      [.mk "a".toList (.mk (.integer none) (some [.subtype (.mk [[.range "0".toList true "255".toList true]] none)])) false none,
       .mk "b".toList (.mk .boolean none) true none] [] false) none), none⟩ := by
  cases List.mem_singleton.mp hM
  exact congrArg Prod.snd (List.mem_singleton.mp h)

theorem steady_no_class {fs : List (Text × ClassField)} : ¬ IsClass [steadyModule] fs := by
  rintro ⟨M, hM, c, d, h, hd⟩
  rw [steady_definitions hM h] at hd
  cases hd

theorem steady_no_object {o : ObjectValue} : ¬ ObjectIn [steadyModule] o := by
  intro h
  cases h with
  | object _ _ h => exact steady_no_class h
  | fields hM h => cases steady_definitions hM h
  | set _ _ h => exact steady_no_class h

theorem steady_no_value {v : Text} : ¬ ValueIn [steadyModule] v := by
  intro h
  cases h with
  | value hM h => cases steady_definitions hM h
  | field h => exact steady_no_object h

/-- The types in it. -/
theorem steady_types {ty : AsnType} (h : Appears [steadyModule] ty) :
    ty = .mk (.sequence
      [.mk "a".toList (.mk (.integer none) (some [.subtype (.mk [[.range "0".toList true "255".toList true]] none)])) false none,
       .mk "b".toList (.mk .boolean none) true none] [] false) none ∨
    ty = .mk (.integer none) (some [.subtype (.mk [[.range "0".toList true "255".toList true]] none)]) ∨
    ty = .mk .boolean none := by
  induction h with
  | written h =>
    cases h with
    | type hM h => cases steady_definitions hM h; exact .inl rfl
    | value hM h => cases steady_definitions hM h
    | object _ _ h => exact absurd h steady_no_class
    | fields hM h => cases steady_definitions hM h
    | set _ _ h => exact absurd h steady_no_class
  | part h hp ih =>
    rcases ih with rfl | rfl | rfl
    · cases hp with
      | component h =>
        rcases List.mem_cons.mp h with h | h
        · cases h; exact .inr (.inl rfl)
        · cases List.mem_singleton.mp h; exact .inr (.inr rfl)
    · cases hp
    · cases hp
  | expansion h _ _ _ _ ih => rcases ih with h | h | h <;> cases h

set_option maxRecDepth 10000 in
/-- None of the reasons is there, so the compiler does not panic on it. -/
theorem steady_example (n : Nat) : ¬ Trips n [steadyModule] := by
  have hb : ∀ {kind cs c}, Appears [steadyModule] (.mk kind cs) →
      (cs.getD []).head? = some c ∨ (∃ ty, kind = .sequenceOf (some c) ty) →
      c = .subtype (.mk [[.range "0".toList true "255".toList true]] none) := by
    intro kind cs c h hc
    rcases steady_types h with h | h | h <;> cases h <;> rcases hc with hc | ⟨ty, hc⟩ <;> cases hc
    rfl
  intro h
  cases h with
  | expansion h => rcases steady_types h with h | h | h <;> cases h
  | object _ _ h => exact steady_no_class h
  | set _ _ h => exact steady_no_class h
  | bound h hc ht hv hu =>
    cases hb h hc
    have h0 : parseI128 "0".toList = some 0 := by decide +kernel
    have h1 : parseI128 "255".toList = some 255 := by decide +kernel
    simp only [boundsOfConstraint, boundsOfSet, boundsOfUnion, boundsOfIntersection, boundsOfElements, List.append_nil,
      List.mem_cons, List.not_mem_nil, or_false] at ht
    rcases ht with rfl | rfl
    · rw [h0] at hv; cases hv; unfold Huge at hu; omega
    · rw [h1] at hv; cases hv; unfold Huge at hu; omega
  | included h hc ht _ => cases hb h hc; cases ht
  | value h => exact steady_no_value h
  | crossed h hc => rcases steady_types h with h | h | h <;> cases h; cases hc
  | numbered h => rcases steady_types h with h | h | h <;> cases h
  | noValues h => rcases steady_types h with h | h | h <;> cases h
  | addition h => rcases steady_types h with h | h | h <;> cases h
  | bit h => rcases steady_types h with h | h | h <;> cases h
  | noAlternatives h => rcases steady_types h with h | h | h <;> cases h
  | @refused _ _ _ _ _ p _ _ R m e h hp hR he _ =>
    rcases steady_types h with h | h | h <;> cases h
    match m with
    | 0 => cases he
    | m + 1 =>
      rcases List.mem_cons.mp hp with hp | hp
      · cases hp
        have hv : ∀ env, resolveInteger env (.mk (.integer none)
            (some [.subtype (.mk [[.range "0".toList true "255".toList true]] none)])) =
            resolveInteger (fun _ => none) (.mk (.integer none)
            (some [.subtype (.mk [[.range "0".toList true "255".toList true]] none)])) := fun env => rfl
        rw [resolveType, resolveBase, hv] at he
        · cases he
        all_goals nofun
      · cases List.mem_singleton.mp hp
        cases he
  | unknown h => exact steady_no_value h
  | keyless _ _ _ h => exact steady_no_class h

example (n : Nat) (sp : Spelling) {r : Out Err Resolver} (h : ResolvesModules n {} [steadyModule] r) :
    r.bind (generate sp) ≠ .panic := by
  intro hp
  cases r with
  | panic => exact steady_example n (C141_resolving_partial h rfl)
  | ok R => exact steady_example n (C141_generating_partial h hp)
  | err e => cases hp
  | diverge => cases hp

end Hampi.Compiler.Props
