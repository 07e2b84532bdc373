import Verif.Lemmas.Persist
import Verif.Props.Ends
/-! # C142, C143: the compiler with more nested calls, and when it ends -/
namespace Hampi.Compiler.Props
open _root_.Hampi.Compiler.Spec
open Hampi.Compiler.Out (Le)

/-! ## C142 -/

theorem generate_follows {sp : Spelling} {s s' : Out Err Resolver} (h : Follows Resolver.Le s s') :
    Le (s.bind (generate sp)).orCompile (s'.bind (generate sp)).orCompile := by
  cases h with
  | «open» => exact .bot _
  | ok h => exact .inr (by simp only [Out.bind, generate, h.resolved])
  | err e => exact .refl _
  | panic => exact .refl _

/-- **C142.** When the program comes to a result with calls nested at most `n` deep, it can come to the same result when
they may nest deeper. -/
theorem C142_deeper {u : Unicode} {sp : Spelling} {n m : Nat} (hnm : n ≤ m) {args : List Arg} {r : Out MainErr (List Item)}
    (h : Runs u sp n args r) (hr : r ≠ .diverge) : Runs u sp m args r := by
  have hf := readArgs_follows (u := u) hnm args (ms := []) (ms' := []) .nil
  unfold Runs at h ⊢
  generalize readArgs u n [] args = q at hf h
  generalize readArgs u m [] args = q' at hf
  cases hf with
  | «open» => exact absurd h hr
  | err e => exact h
  | panic => exact h
  | ok hm =>
    obtain ⟨s, hs, rfl⟩ := h
    obtain ⟨s', hs', hf⟩ := (resolvesModules_follows hnm hm (R := {}) (R' := {}) ⟨rfl, rfl, .nil⟩).1 s hs
    refine ⟨s', hs', ?_⟩
    rcases generate_follows (sp := sp) hf with h | h
    · exact absurd h hr
    · exact h

/-- **C142.** And it comes to no other: what it can come to when calls may nest deeper it can come to as well, unless it
can fail to end within the smaller depth. -/
theorem C142_no_other {u : Unicode} {sp : Spelling} {n m : Nat} (hnm : n ≤ m) {args : List Arg} {r : Out MainErr (List Item)}
    (h : Runs u sp m args r) : Runs u sp n args r ∨ Runs u sp n args .diverge := by
  have hf := readArgs_follows (u := u) hnm args (ms := []) (ms' := []) .nil
  unfold Runs at h ⊢
  generalize readArgs u n [] args = q at hf
  generalize readArgs u m [] args = q' at hf h
  cases hf with
  | «open» => exact .inr rfl
  | err e => exact .inl h
  | panic => exact .inl h
  | ok hm =>
    obtain ⟨s', hs', rfl⟩ := h
    obtain ⟨s, hs, hf⟩ := (resolvesModules_follows hnm hm (R := {}) (R' := {}) ⟨rfl, rfl, .nil⟩).2 s' hs'
    rcases generate_follows (sp := sp) hf with h | h
    · exact .inr ⟨s, hs, h.symm⟩
    · exact .inl ⟨s, hs, h.symm⟩

/-! ## C143 -/

/-- The program can go on without end: no depth of nested calls is enough. -/
def GoesOn (u : Unicode) (sp : Spelling) (args : List Arg) : Prop := ∀ n, Runs u sp n args .diverge

theorem bind_ends {ε α β : Type} {m : Out ε α} {f : α → Out ε β} (h : m ≠ .diverge) (hf : ∀ a, f a ≠ .diverge) :
    m.bind f ≠ .diverge := by
  cases m with
  | ok a => exact hf a
  | diverge => exact absurd rfl h
  | err e => exact nofun
  | panic => exact nofun

theorem genBase_ends (sp : Spelling) (name : Text) (b : RBase) : genBase sp name b ≠ .diverge := by
  refine bind_ends ?_ fun _ => nofun
  unfold RBase.attrs
  split
  · exact nofun
  · split
    · exact nofun
    · exact nofun
  all_goals exact nofun

theorem withIdent_ends (sp : Spelling) (ty : RType) (input : Text) {gen : Text → Gen → Out Err (Item × Gen)}
    (hg : ∀ nm g, gen nm g ≠ .diverge) (g : Gen) : withIdent sp ty input gen g ≠ .diverge := by
  unfold withIdent
  split
  · exact nofun
  · exact bind_ends (genBase_ends sp _ _) fun _ => nofun
  · exact bind_ends (hg _ _) fun _ => nofun

mutual

theorem genItem_ends (sp : Spelling) (name : Text) : (ty : RType) → (g : Gen) → genItem sp name ty g ≠ .diverge
  | .base b, g => by
    rw [genItem]
    exact bind_ends (genBase_ends sp _ b) fun _ => nofun
  | .reference r, g => by rw [genItem]; exact nofun
  | .set _ types, g => by rw [genItem]; exact nofun
  | .sequenceOf ty size, g => by
    rw [genItem]
    exact bind_ends (withIdent_ends sp ty _ (fun nm g => genItem_ends sp nm ty g) g) fun _ => nofun
  | .sequence ext cs, g => by
    rw [genItem]
    exact bind_ends (genFields_ends sp name 0 cs g) fun _ => nofun
  | .choice root none, g => by
    rw [genItem]
    refine bind_ends (genVariants_ends sp name false 0 root g) fun p => ?_
    split <;> exact nofun
  | .choice root (some adds), g => by
    rw [genItem]
    refine bind_ends (genVariants_ends sp name false 0 root g) fun p =>
      bind_ends (genVariants_ends sp name true 0 adds p.2) fun q => ?_
    split <;> exact nofun

theorem genFields_ends (sp : Spelling) (name : Text) : (n : Nat) → (cs : List RSeqComponent) → (g : Gen) →
    genFields sp name n cs g ≠ .diverge
  | n, [], g => by rw [genFields]; exact nofun
  | n, .mk id ty optional keyField :: cs, g => by
    rw [genFields]
    exact bind_ends (withIdent_ends sp ty _ (fun nm g => genItem_ends sp nm ty g) g) fun p =>
      bind_ends (genFields_ends sp name _ cs p.2) fun _ => nofun

theorem genVariants_ends (sp : Spelling) (name : Text) (extended : Bool) : (i : Nat) → (cs : List RComponent) → (g : Gen) →
    genVariants sp name extended i cs g ≠ .diverge
  | i, [], g => by rw [genVariants]; exact nofun
  | i, .mk id ty :: cs, g => by
    rw [genVariants]
    exact bind_ends (withIdent_ends sp ty _ (fun nm g => genItem_ends sp nm ty g) g) fun p =>
      bind_ends (genVariants_ends sp name extended (i + 1) cs p.2) fun q => nofun

end

theorem generate_ends (sp : Spelling) (R : Resolver) : generate sp R ≠ .diverge := by
  have hall : ∀ (l : List (Text × RType)) (g : Gen), genAll sp l g ≠ .diverge := by
    intro l
    induction l with
    | nil => exact fun g => by rw [genAll]; exact nofun
    | cons p l ih =>
      intro g
      obtain ⟨k, t⟩ := p
      rw [genAll]
      exact bind_ends (genItem_ends sp k t g) fun p => bind_ends (ih p.2) fun _ => nofun
  unfold generate
  exact bind_ends (hall _ _) fun _ => nofun

/-- The tokenizer and the parser end on the text. -/
def ReadEnds (u : Unicode) : Arg → Prop
  | .text cs => ∀ ts, tokenize u cs = .ok ts → ¬ Hangs ts
  | _ => True

theorem readArg_ends {u : Unicode} {a : Arg} (h : ReadEnds u a) : ∃ m₀, ∀ m, m₀ ≤ m → readArg u m a ≠ .diverge := by
  cases a with
  | missing => exact ⟨0, fun _ _ => nofun⟩
  | binary => exact ⟨0, fun _ _ => nofun⟩
  | text cs =>
    unfold readArg
    dsimp only
    cases ht : tokenize u cs with
    | ok ts =>
      obtain ⟨m₀, hm⟩ := Classical.not_forall.mp (h ts ht)
      refine ⟨m₀, fun m hle => ?_⟩
      show (parse m ts).orCompile ≠ .diverge
      rw [C85_result_is_stable hle hm]
      cases hp : parse m₀ ts with
      | diverge => exact absurd hp hm
      | _ => exact nofun
    | err e => exact ⟨0, fun _ _ => nofun⟩
    | panic => exact ⟨0, fun _ _ => nofun⟩
    | diverge => exact absurd ht (C51_terminates u cs)

theorem readArgs_ends {u : Unicode} {args : List Arg} (h : ∀ a ∈ args, ReadEnds u a) :
    ∃ m₀, ∀ m, m₀ ≤ m → ∀ ms, readArgs u m ms args ≠ .diverge := by
  induction args with
  | nil => exact ⟨0, fun _ _ _ => nofun⟩
  | cons a as ih =>
    obtain ⟨m₁, h1⟩ := ih fun b hb => h b (List.mem_cons_of_mem _ hb)
    obtain ⟨m₂, h2⟩ := readArg_ends (h a List.mem_cons_self)
    exact ⟨max m₁ m₂, fun m hm ms => bind_ends (h2 m (by omega)) fun _ => h1 m (by omega) _⟩

theorem goesOn_modules {u : Unicode} {sp : Spelling} {args : List Arg} (h : GoesOn u sp args) (hr : ∀ a ∈ args, ReadEnds u a) :
    ∃ m₀, ∀ m, m₀ ≤ m → ∃ ms, readArgs u m [] args = .ok ms ∧
      (¬ DistinctDefinitions ms ∨ ¬ ReadingEnds ms ∨ Endless ms) := by
  obtain ⟨m₀, hm₀⟩ := readArgs_ends hr
  refine ⟨m₀, fun m hm => ?_⟩
  have hd := h m
  unfold Runs at hd
  cases hq : readArgs u m [] args with
  | diverge => exact absurd hq (hm₀ m hm [])
  | err e => rw [hq] at hd; cases hd
  | panic => rw [hq] at hd; cases hd
  | ok ms =>
    refine ⟨ms, rfl, Classical.byContradiction fun hn => ?_⟩
    simp only [not_or, Classical.not_not] at hn
    obtain ⟨n₀, hn₀⟩ := C127_ends_partial ms hn.1 hn.2.1 hn.2.2
    have hx := h (max m n₀)
    have hf := readArgs_follows (u := u) (Nat.le_max_left m n₀) args (ms := []) (ms' := []) .nil
    rw [hq] at hf
    unfold Runs at hx
    generalize readArgs u (max m n₀) [] args = q at hf hx
    cases hf with
    | ok hle =>
      obtain ⟨s, hs, he⟩ := hx
      have hsd : s = .diverge := by
        cases s with
        | diverge => rfl
        | err e => cases he
        | panic => cases he
        | ok R =>
          have he : Out.diverge = (generate sp R).orCompile := he
          cases hg : generate sp R with
          | diverge => exact absurd hg (generate_ends sp R)
          | _ => rw [hg] at he; cases he
      subst hsd
      obtain ⟨s', hs', hf⟩ := (resolvesModules_follows (Nat.le_refl (max m n₀)) hle (R := {}) (R' := {})
        ⟨rfl, rfl, .nil⟩).2 _ hs
      cases hf
      exact (hn₀ _ (Nat.le_max_right m n₀)).2 _ hs' rfl

/-- **C143 (partial).** The program goes on without end only if the parser does, at a position in one of the texts where one of five
loops takes no token for ever (`SpinsAt`), or if, in the modules it has read, a name is defined twice, reading an instance
of a parameterized type or an object does not end, or there is an endless sequence of such instances. In particular the
tokenizer, the two topological sorts and the generator always end. Missing, because false: those
(`C86_termination_violated`, `C72_endless_recursion_violated`, `C127_self_application_violated`). -/
theorem C143_ends_partial {u : Unicode} {sp : Spelling} {args : List Arg} (h : GoesOn u sp args) :
    (∃ cs ts s, .text cs ∈ args ∧ tokenize u cs = .ok ts ∧ s <:+ ts.filter (fun t => !t.is .comment) ∧ SpinsAt s) ∨
    ∃ m₀, ∀ m, m₀ ≤ m → ∃ ms, readArgs u m [] args = .ok ms ∧
      (¬ DistinctDefinitions ms ∨ ¬ ReadingEnds ms ∨ Endless ms) := by
  by_cases hr : ∀ a ∈ args, ReadEnds u a
  · exact .inr (goesOn_modules h hr)
  · obtain ⟨a, ha⟩ := Classical.not_forall.mp hr
    obtain ⟨hmem, ha⟩ := Classical.not_imp.mp ha
    cases a with
    | missing => exact absurd trivial ha
    | binary => exact absurd trivial ha
    | text cs =>
      obtain ⟨ts, hts⟩ := Classical.not_forall.mp ha
      obtain ⟨ht, hts⟩ := Classical.not_imp.mp hts
      obtain ⟨s, h1, h2⟩ := C86_hangs_only_where_stuck_partial (Classical.not_not.mp hts)
      exact .inl ⟨cs, ts, s, hmem, ht, h1, h2⟩

/-- The modules the program has are those of the texts. -/
theorem readArgs_from {u : Unicode} {n : Nat} {files : List (List Char × List ParsedModule)} {S : List ParsedModule}
    (hf : ∀ f ∈ files, readArg u n (.text f.1) = .ok f.2) (hS : ∀ f ∈ files, ∀ p ∈ f.2, p ∈ S) {ms ms' : List Module}
    (hms : ∀ M ∈ ms, ∃ p ∈ S, M = p.toModule u n) (h : readArgs u n ms (files.map fun f => .text f.1) = .ok ms') :
    ∀ M ∈ ms', ∃ p ∈ S, M = p.toModule u n := by
  induction files generalizing ms with
  | nil => cases h; exact hms
  | cons f fs ih =>
    rw [List.map_cons, readArgs, hf f List.mem_cons_self] at h
    refine ih (fun g hg => hf g (List.mem_cons_of_mem _ hg)) (fun g hg => hS g (List.mem_cons_of_mem _ hg)) ?_ h
    unfold addModules
    have : ∀ p ∈ f.2.reverse, p ∈ S := fun p hp => hS f List.mem_cons_self p (List.mem_reverse.mp hp)
    generalize f.2.reverse = l at this
    clear h ih hS hf
    induction l generalizing ms with
    | nil => exact hms
    | cons p l ih =>
      rw [List.foldl_cons]
      refine ih ?_ fun q hq => this q (List.mem_cons_of_mem _ hq)
      intro M hM
      rcases List.mem_cons.mp hM with rfl | hM
      · exact ⟨p, this p List.mem_cons_self, rfl⟩
      · exact hms M (List.mem_filter.mp hM).1

/-- **C143 (partial).** On files in the supported notation that define types and values only, without parameters, and no name in
two modules, the program ends. Missing: schemas with parameters, classes or objects, for which see `C143_ends_partial`. -/
theorem C143_types_and_values_partial {u : Unicode} {sp : Spelling} {files : List (List Char × List ParsedModule)}
    (hf : ∀ f ∈ files, Spells u f.1 f.2)
    (hk : ∀ p ∈ files.flatMap (·.2), ∀ d ∈ p.definitions,
      d.2.params = none ∧ ((∃ ty, d.2.kind = .type ty) ∨ ∃ ty v, d.2.kind = .value ty v))
    (hd : ∀ p ∈ files.flatMap (·.2), ∀ q ∈ files.flatMap (·.2), ∀ k d e, (k, d) ∈ p.definitions → (k, e) ∈ q.definitions →
      p.name = q.name) :
    ∃ n₀, ∀ n, n₀ ≤ n → ∀ r, Runs u sp n (files.map fun f => .text f.1) r → r ≠ .diverge := by
  have hread : ∃ n₁, ∀ n, n₁ ≤ n → ∀ f ∈ files, readArg u n (.text f.1) = .ok f.2 := by
    clear hk hd
    induction files with
    | nil => exact ⟨0, fun _ _ _ h => by cases h⟩
    | cons f fs ih =>
      obtain ⟨a, ha⟩ := ih fun g hg => hf g (List.mem_cons_of_mem _ hg)
      obtain ⟨b, hb⟩ := spells_read (hf f List.mem_cons_self)
      refine ⟨max a b, fun n hn g hg => ?_⟩
      rcases List.mem_cons.mp hg with rfl | hg
      · exact hb n (by omega)
      · exact ha n (by omega) g hg
  obtain ⟨n₁, hn₁⟩ := hread
  by_cases hg : GoesOn u sp (files.map fun f => .text f.1)
  · exfalso
    obtain ⟨m₀, hm₀⟩ := goesOn_modules hg (by
      intro a ha
      obtain ⟨f, hf', rfl⟩ := List.mem_map.mp ha
      intro ts ht hh
      have := hn₁ n₁ (Nat.le_refl _) f hf'
      unfold readArg at this
      dsimp only at this
      rw [ht] at this
      have this : (parse n₁ ts).orCompile = _ := this
      rw [hh n₁] at this
      cases this)
    obtain ⟨ms, hms, hbad⟩ := hm₀ (max m₀ n₁) (by omega)
    have hfrom := readArgs_from (hn₁ (max m₀ n₁) (by omega)) (S := files.flatMap (·.2))
      (fun f hf p hp => List.mem_flatMap.mpr ⟨f, hf, hp⟩) (fun M hM => by cases hM) hms
    have hdef : ∀ M ∈ ms, ∀ k d, (k, d) ∈ M.definitions → d.params = none ∧
        ((∃ ty, d.kind = .type ty) ∨ ∃ ty v, d.kind = .value ty v) := by
      intro M hM k d h
      obtain ⟨p, hp, rfl⟩ := hfrom M hM
      obtain ⟨e, he, h⟩ := List.mem_map.mp h
      cases h
      have := hk p hp e he
      exact ⟨by show e.2.params.map _ = none; rw [this.1]; rfl, this.2⟩
    rcases hbad with h | h | ⟨f, _, h⟩
    · refine h fun M hM N hN k d e h1 h2 => ?_
      obtain ⟨p, hp, rfl⟩ := hfrom M hM
      obtain ⟨q, hq, rfl⟩ := hfrom N hN
      obtain ⟨x, hx, h1⟩ := List.mem_map.mp h1
      obtain ⟨y, hy, h2⟩ := List.mem_map.mp h2
      obtain ⟨x1, x2⟩ := x
      obtain ⟨y1, y2⟩ := y
      cases h1
      cases h2
      exact hd p hp q hq _ _ _ hx hy
    · refine h ⟨?_, ?_, ?_⟩
      · intro a _ M hM d e h1 h2
        rw [(hdef M hM _ d h1).1] at h2
        cases h2
      · intro M hM k cls s p fs h1
        rcases (hdef M hM _ _ h1).2 with ⟨ty, h⟩ | ⟨ty, v, h⟩ <;> cases h
      · intro M hM k cls root add p fs h1
        rcases (hdef M hM _ _ h1).2 with ⟨ty, h⟩ | ⟨ty, v, h⟩ <;> cases h
    · obtain ⟨M, hM, d, e, ty, h1, h2, _⟩ := h 0
      rw [(hdef M hM _ d h1).1] at h2
      cases h2
  · obtain ⟨n, hn⟩ := Classical.not_forall.mp hg
    refine ⟨n, fun m hm r hr he => hn ?_⟩
    subst he
    rcases C142_no_other hm hr with h | h <;> exact h

/-- **C143 (violated).** There is a file in the supported notation on which the program never ends (see C127). -/
theorem C143_violated (sp : Spelling) : Spells ascii selfText [selfParsed] ∧ GoesOn ascii sp [.text selfText] := by
  refine ⟨self_spells, fun n => ?_⟩
  obtain ⟨⟨r, hr⟩, h⟩ := (C127_self_application_violated sp).2 n
  cases h r hr
  exact hr

/-! A file to which they apply. -/

theorem ends_example (sp : Spelling) : ∃ n₀, ∀ n, n₀ ≤ n → ∀ r, Runs ascii sp n [.text file1] r → r ≠ .diverge := by
  refine C143_types_and_values_partial (files := [(file1, [parsed1])]) ?_ ?_ ?_
  · intro f hf
    cases List.mem_singleton.mp hf
    exact file1_spells
  · intro p hp d hd
    cases List.mem_singleton.mp (show p ∈ [parsed1] from hp)
    cases List.mem_singleton.mp hd
    exact ⟨rfl, .inl ⟨_, rfl⟩⟩
  · intro p hp q hq k d e _ _
    cases List.mem_singleton.mp (show p ∈ [parsed1] from hp)
    cases List.mem_singleton.mp (show q ∈ [parsed1] from hq)
    rfl

-- What it gives for it, it gives at any greater depth.
example (sp : Spelling) : ∃ n₀ r, r ≠ .diverge ∧ ∀ m, n₀ ≤ m → Runs ascii sp m [.text file1] r := by
  have hex : ∀ n, ∃ r, Runs ascii sp n [.text file1] r := by
    intro n
    unfold Runs
    cases readArgs ascii n [] [.text file1] with
    | ok ms => obtain ⟨s, hs⟩ := resolvesModules_exists n ms {}; exact ⟨_, s, hs, rfl⟩
    | err e => exact ⟨_, rfl⟩
    | panic => exact ⟨_, rfl⟩
    | diverge => exact ⟨_, rfl⟩
  obtain ⟨n₀, h0⟩ := ends_example sp
  obtain ⟨r, hr⟩ := hex n₀
  exact ⟨n₀, r, h0 n₀ (Nat.le_refl _) r hr, fun m hm => C142_deeper hm hr (h0 n₀ (Nat.le_refl _) r hr)⟩

-- The file of `C143_violated` is no such file: its instances of `P` lead to one another without end, or have several definitions.
example (sp : Spelling) : (∃ cs ts s, .text cs ∈ [Arg.text selfText] ∧ tokenize ascii cs = .ok ts ∧
      s <:+ ts.filter (fun t => !t.is .comment) ∧ SpinsAt s) ∨
    ∃ m₀, ∀ m, m₀ ≤ m → ∃ ms, readArgs ascii m [] [.text selfText] = .ok ms ∧
      (¬ DistinctDefinitions ms ∨ ¬ ReadingEnds ms ∨ Endless ms) := C143_ends_partial (C143_violated sp).2

end Hampi.Compiler.Props
