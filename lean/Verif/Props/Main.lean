import Verif.Lemmas.FileOrder
import Verif.Lemmas.Bare
import Verif.Lemmas.Render
import Verif.Lemmas.Refine
import Verif.Props.Pipeline
/-!
# The program (C97, C98, C99)

`Runs u sp n args r`: given these files, the program may end with `r`, if its calls and loops nest no deeper
than `n`. `Spells u text ms` (Spec/Text.lean): the text is a way to write the modules `ms`.
-/
namespace Hampi.Compiler.Props
open Hampi.Compiler.Spec

/-- The modules that the files spell, all together; `n` is the depth allowed where an instance of a parameterized
type or an object is read. -/
def spelled (u : Unicode) (n : Nat) (files : List (List Char × List ParsedModule)) : List Module :=
  (files.flatMap (·.2)).map (·.toModule u n)

theorem text_items (u : Unicode) (sp : Spelling) (files : List (List Char × List ParsedModule))
    (hf : ∀ f ∈ files, Spells u f.1 f.2) (n₁ : Nat) (ms : List Module) (hread : ReadAs (spelled u n₁ files) ms)
    (hs : ProperSchema ms) :
    ∃ n₀, ∀ n, n₀ ≤ n → (∃ r, Runs u sp n (files.map fun f => .text f.1) r) ∧
      ∀ r, Runs u sp n (files.map fun f => .text f.1) r → ∃ items, r = .ok items ∧
        (∃ file, All2 Renders items file) ∧
        ∀ M ∈ ms, ∀ x ty lax t, (x, ⟨.type ty, none⟩) ∈ M.definitions → Describes lax ms (.module M) ty t →
          Stands items (typeIdent x) t ∧ (DistinctNames items → ∀ w, Stands items (typeIdent x) w → w = t) := by
  obtain ⟨n1, h1⟩ := readArgs_reads hf
  obtain ⟨n2, hn2⟩ := resolve_schema hs hread
  refine ⟨max (max n1 n2) n₁, fun n hn => ?_⟩
  have hnames : ((files.flatMap (·.2)).map ParsedModule.name ++ ([] : List Module).map Module.name).Nodup := by
    have := hs.modules
    rw [(read_names hread).1, spelled, List.map_map] at this
    rw [List.map_nil, List.append_nil]
    exact this
  obtain ⟨ms₀, h2, h3⟩ := h1 n (by omega) [] hnames
  rw [List.append_nil] at h3
  have hnd : (ms₀.map Module.name).Nodup := by
    refine ((h3.map Module.name).nodup_iff).mpr ?_
    rw [List.map_map]
    rwa [List.map_nil, List.append_nil] at hnames
  have hle : All2 Module.Le (spelled u n₁ files) (spelled u n files) := by
    unfold spelled
    generalize files.flatMap (·.2) = l
    induction l with
    | nil => exact .nil
    | cons p l ih => exact .cons (toModule_le (by omega) u p) ih
  unfold Runs
  rw [h2]
  dsimp only
  refine ⟨(resolvesModules_exists n ms₀ {}).elim fun r hr => ⟨_, r, hr, rfl⟩, ?_⟩
  rintro r ⟨s, hr, rfl⟩
  obtain ⟨r₁, hr₁, hrefined⟩ := resolvesModules_refined hle (R := {}) (R' := {}) ⟨rfl, rfl, .nil⟩
    (resolvesModules_perm h3 hnd hr)
  obtain ⟨R, rfl, hready, hk⟩ := hn2 n (by omega) r₁ hr₁
  obtain ⟨R', rfl, hR⟩ := hrefined R rfl
  obtain ⟨items, hi⟩ := generate_schema hs hready hk sp
  have hi' : generate sp R' = .ok items := by rw [← hi, generate, generate, hR.resolved]
  refine ⟨items, by simp only [Out.bind, hi', Out.orCompile],
    generate_renders (schema_means hs hready hk) hi, fun M hM x ty lax t hx ht => ?_⟩
  obtain ⟨rt, hg, hm, -⟩ := hready M hM x _ hx
  have hm := hm lax t ht
  refine ⟨(means_stands (fun r ty hr => generate_gives hi hr) hm).1 _ (generate_gives hi hg), fun hd w hw => ?_⟩
  exact means_unique ((C62_generated_types sp R (resolvesModules_closed (readAs_distinct hread hs.distinct) hr₁) items hi
    hd x rt hg w).mp hw) hm

/-- **C97.** Given files whose texts spell a schema in which every definition has a meaning, one or several modules
in each, the program generates Rust: for every type of every module a type with the codec that the schema means by
it, whatever the order of the hash tables. `ms` are the modules with their objects read. -/
theorem C97_text_to_rust (u : Unicode) (sp : Spelling) (files : List (List Char × List ParsedModule))
    (hf : ∀ f ∈ files, Spells u f.1 f.2) (n₁ : Nat) (ms : List Module) (hread : ReadAs (spelled u n₁ files) ms)
    (hs : ProperSchema ms) :
    ∃ n₀, ∀ n, n₀ ≤ n → (∃ r, Runs u sp n (files.map fun f => .text f.1) r) ∧
      ∀ r, Runs u sp n (files.map fun f => .text f.1) r → ∃ items, r = .ok items ∧
        ∀ M ∈ ms, ∀ x ty lax t, (x, ⟨.type ty, none⟩) ∈ M.definitions → Describes lax ms (.module M) ty t →
          Stands items (typeIdent x) t ∧ (DistinctNames items → ∀ w, Stands items (typeIdent x) w → w = t) := by
  obtain ⟨n₀, h⟩ := text_items u sp files hf n₁ ms hread hs
  refine ⟨n₀, fun n hn => ⟨(h n hn).1, fun r hr => ?_⟩⟩
  obtain ⟨items, h1, _, h3⟩ := (h n hn).2 r hr
  exact ⟨items, h1, h3⟩

/-! ## An example: two files -/

/-- A module with the type `T ::= INTEGER (0..7)`. -/
def file1 : List Char := "M DEFINITIONS ::= BEGIN T ::= INTEGER (0..7) END\n".toList

/-- A module that uses it. -/
def file2 : List Char :=
  "N DEFINITIONS ::= BEGIN IMPORTS T FROM M;\n  S ::= SEQUENCE { a T OPTIONAL } -- c --\nEND\n".toList

@[inherit_doc file1]
def parsed1 : ParsedModule :=
  ⟨"M".toList, [], [("T".toList, ⟨"T".toList, .type (.mk (.integer none)
    (some [.subtype (.mk [[.range "0".toList true "7".toList true]] none)])), none⟩)]⟩

@[inherit_doc file2]
def parsed2 : ParsedModule :=
  ⟨"N".toList, [("T".toList, "M".toList)], [("S".toList, ⟨"S".toList, .type (.mk (.sequence
    [.mk "a".toList (.mk (.reference "T".toList) (some [])) true none] [] false) (some [])), none⟩)]⟩

/-- The tokens of `file1`, whatever their places, are a way to write the module. -/
theorem file1_note (ts : List Token) (h : ts.map Token.bare = [(.identifier, "M".toList), (.keyword, "DEFINITIONS".toList), (.assignment, "::=".toList),
    (.keyword, "BEGIN".toList), (.identifier, "T".toList), (.assignment, "::=".toList), (.keyword, "INTEGER".toList),
    (.roundBegin, "(".toList), (.numberInt, "0".toList), (.rangeSeparator, "..".toList), (.numberInt, "7".toList),
    (.roundEnd, ")".toList), (.keyword, "END".toList)]) :
    ModulesNote [parsed1] ts := by
  obtain ⟨t1, ts, rfl, a1, b1, h⟩ := bare_cons h
  obtain ⟨t2, ts, rfl, a2, b2, h⟩ := bare_cons h
  obtain ⟨t3, ts, rfl, a3, b3, h⟩ := bare_cons h
  obtain ⟨t4, ts, rfl, a4, b4, h⟩ := bare_cons h
  obtain ⟨t5, ts, rfl, a5, b5, h⟩ := bare_cons h
  obtain ⟨t6, ts, rfl, a6, b6, h⟩ := bare_cons h
  obtain ⟨t7, ts, rfl, a7, b7, h⟩ := bare_cons h
  obtain ⟨t8, ts, rfl, a8, b8, h⟩ := bare_cons h
  obtain ⟨t9, ts, rfl, a9, b9, h⟩ := bare_cons h
  obtain ⟨t10, ts, rfl, a10, b10, h⟩ := bare_cons h
  obtain ⟨t11, ts, rfl, a11, b11, h⟩ := bare_cons h
  obtain ⟨t12, ts, rfl, a12, b12, h⟩ := bare_cons h
  obtain ⟨t13, ts, rfl, a13, b13, h⟩ := bare_cons h
  rw [List.map_eq_nil_iff] at h
  subst h
  have range : ConstraintNote (.subtype (.mk [[.range "0".toList true "7".toList true]] none)) [t8, t9, t10, t11, t12] :=
    .subtype (.closed (ts := [t9, t10, t11]) a8
      (.one (.one (.range (ts := [_]) (us := []) (vs := []) (ws := [_]) (.value ⟨b9, .inr (.inl a9)⟩) .closed a10
        .closed (.value ⟨b11, .inr (.inl a11)⟩)))) a12)
  refine .one (.mk (os := []) (gs := []) (is := []) (l := []) (ts := [t5, t6, t7, t8, t9, t10, t11, t12])
    (ds := [⟨"T".toList, .type _, none⟩])
    (upper a1 b1 ⟨_, _, rfl, rfl⟩ (by decide)) .none ⟨a2, b2⟩ .none a3 ⟨a4, b4⟩ .none
    (.cons (ts := [t5, t6, t7, t8, t9, t10, t11, t12]) (us := [])
      (.type (upper a5 b5 ⟨_, _, rfl, rfl⟩ (by decide)) a6
        (.type (ts := [t7]) (.simple (.integer ⟨a7, b7⟩)) (.cons (us := []) range .nil))) .nil) ⟨a13, b13⟩
    ⟨.refl _, .nil⟩ ⟨.refl _, by simp⟩)

set_option maxRecDepth 8000 in
theorem file1_spells : Spells ascii file1 [parsed1] := spells_of (by decide +kernel) (by decide) file1_note

set_option maxRecDepth 8000 in
theorem file2_spells : Spells ascii file2 [parsed2] := by
  refine spells_of (l := [(.identifier, "N".toList), (.keyword, "DEFINITIONS".toList), (.assignment, "::=".toList),
    (.keyword, "BEGIN".toList), (.keyword, "IMPORTS".toList), (.identifier, "T".toList), (.keyword, "FROM".toList),
    (.identifier, "M".toList), (.semiColon, ";".toList), (.identifier, "S".toList), (.assignment, "::=".toList),
    (.keyword, "SEQUENCE".toList), (.curlyBegin, "{".toList), (.identifier, "a".toList), (.identifier, "T".toList),
    (.keyword, "OPTIONAL".toList), (.curlyEnd, "}".toList), (.keyword, "END".toList)])
    (by decide +kernel) (by decide) fun ts h => ?_
  obtain ⟨t1, ts, rfl, a1, b1, h⟩ := bare_cons h
  obtain ⟨t2, ts, rfl, a2, b2, h⟩ := bare_cons h
  obtain ⟨t3, ts, rfl, a3, b3, h⟩ := bare_cons h
  obtain ⟨t4, ts, rfl, a4, b4, h⟩ := bare_cons h
  obtain ⟨t5, ts, rfl, a5, b5, h⟩ := bare_cons h
  obtain ⟨t6, ts, rfl, a6, b6, h⟩ := bare_cons h
  obtain ⟨t7, ts, rfl, a7, b7, h⟩ := bare_cons h
  obtain ⟨t8, ts, rfl, a8, b8, h⟩ := bare_cons h
  obtain ⟨t9, ts, rfl, a9, b9, h⟩ := bare_cons h
  obtain ⟨t10, ts, rfl, a10, b10, h⟩ := bare_cons h
  obtain ⟨t11, ts, rfl, a11, b11, h⟩ := bare_cons h
  obtain ⟨t12, ts, rfl, a12, b12, h⟩ := bare_cons h
  obtain ⟨t13, ts, rfl, a13, b13, h⟩ := bare_cons h
  obtain ⟨t14, ts, rfl, a14, b14, h⟩ := bare_cons h
  obtain ⟨t15, ts, rfl, a15, b15, h⟩ := bare_cons h
  obtain ⟨t16, ts, rfl, a16, b16, h⟩ := bare_cons h
  obtain ⟨t17, ts, rfl, a17, b17, h⟩ := bare_cons h
  obtain ⟨t18, ts, rfl, a18, b18, h⟩ := bare_cons h
  rw [List.map_eq_nil_iff] at h
  subst h
  have seq : TypeNote (.mk (.sequence [.mk "a".toList (.mk (.reference "T".toList) (some [])) true none] [] false)
      (some [])) [t12, t13, t14, t15, t16, t17] := by
    refine TypeNote.type (us := []) (.sequence (j := 0) (ts := [t14, t15, t16]) ⟨a12, b12⟩ a13 ?_ a17) .nil
    exact .component (by decide) (.optional (ts := [t15]) ⟨a14, b14, _, _, rfl, rfl⟩
      (.type (ts := [_]) (us := []) (.simple (.reference (upper a15 b15 ⟨_, _, rfl, rfl⟩ (by decide)))) .nil)
      ⟨a16, b16⟩) .done
  refine .one (.mk (os := []) (gs := []) (is := [t5, t6, t7, t8, t9]) (l := [("T".toList, "M".toList)])
    (ts := [t10, t11, t12, t13, t14, t15, t16, t17]) (ds := [⟨"S".toList, .type _, none⟩])
    (upper a1 b1 ⟨_, _, rfl, rfl⟩ (by decide)) .none ⟨a2, b2⟩ .none a3 ⟨a4, b4⟩
    (.some (ts := [t6, t7, t8]) ⟨a5, b5⟩ (.one (.mk (ns := [_]) (ts := [t6]) (os := []) (.one ⟨t6, rfl, a6, b6⟩) ⟨a7, b7⟩
      (upper a8 b8 ⟨_, _, rfl, rfl⟩ (by decide)) .none)) a9)
    (.cons (ts := [t10, t11, t12, t13, t14, t15, t16, t17]) (us := [])
      (.type (upper a10 b10 ⟨_, _, rfl, rfl⟩ (by decide)) a11 seq) .nil) ⟨a18, b18⟩
    ⟨.refl _, by simp⟩ ⟨.refl _, by simp⟩)

/-- The two files. -/
def exampleFiles : List (List Char × List ParsedModule) := [(file1, [parsed1]), (file2, [parsed2])]

theorem t_described {lax : Bool} : Describes lax (spelled ascii 0 exampleFiles) (.module (parsed1.toModule ascii 0)) (.mk (.integer none)
    (some [.subtype (.mk [[.range "0".toList true "7".toList true]] none)])) (.integer .u8 (some 0) (some 7) false) :=
  .boundedInteger (ns := noNames) (fun _ _ h => nomatch h) (bounded_range noNames_proper
    (.inl (digit ⟨by decide, by decide⟩ (by decide))) (.inl (digit ⟨by decide, by decide⟩ (by decide)))
    (by decide) (by decide) (by decide)) (.unsigned (by decide) (by decide) rfl (by decide) (.inl rfl))

theorem s_described {lax : Bool} : Describes lax (spelled ascii 0 exampleFiles) (.module (parsed2.toModule ascii 0)) (.mk (.sequence
    [.mk "a".toList (.mk (.reference "T".toList) (some [])) true none] [] false) (some []))
    (.sequence false 1 (.optional 0 (.integer .u8 (some 0) (some 7) false) .nil)) :=
  .sequence (.inr rfl) (.optional (.reference (.inl (.inr rfl)) (.imported (N := parsed1.toModule ascii 0) ⟨List.mem_cons_self,
    List.mem_cons_self, List.mem_cons_self⟩) t_described) .nil)

theorem example_proper : ProperSchema (spelled ascii 0 exampleFiles) where
  modules := by decide
  definitions := by
    intro M hM
    simp only [spelled, exampleFiles, List.flatMap_cons, List.flatMap_nil, List.append_nil, List.cons_append,
      List.nil_append, List.map_cons, List.map_nil, List.mem_cons, List.not_mem_nil, or_false] at hM
    rcases hM with rfl | rfl <;> decide
  distinct := by
    intro M hM N hN k d e h1 h2
    simp only [spelled, exampleFiles, List.flatMap_cons, List.flatMap_nil, List.append_nil, List.cons_append,
      List.nil_append, List.map_cons, List.map_nil, List.mem_cons, List.not_mem_nil, or_false] at hM hN
    rcases hM with rfl | rfl <;> rcases hN with rfl | rfl <;> first | rfl | skip
    all_goals
      exfalso
      have e1 := congrArg Prod.fst (List.eq_of_mem_singleton h1)
      have e2 := congrArg Prod.fst (List.eq_of_mem_singleton h2)
      have := e1.symm.trans e2
      revert this
      decide
  names := by
    intro M hM
    simp only [spelled, exampleFiles, List.flatMap_cons, List.flatMap_nil, List.append_nil, List.cons_append,
      List.nil_append, List.map_cons, List.map_nil, List.mem_cons, List.not_mem_nil, or_false] at hM
    rcases hM with rfl | rfl
    · exact word_names (by decide)
    · exact word_names (by decide)
  imports := by
    intro M hM
    simp only [spelled, exampleFiles, List.flatMap_cons, List.flatMap_nil, List.append_nil, List.cons_append,
      List.nil_append, List.map_cons, List.map_nil, List.mem_cons, List.not_mem_nil, or_false] at hM
    rcases hM with rfl | rfl
    · exact fun i hi => nomatch hi
    · exact fun i hi => ⟨⟨parsed1.toModule ascii 0, List.mem_cons_self, by revert i; decide⟩, by revert i; decide⟩
  order := ⟨fun x => if x = "N".toList then 1 else 0, by
    intro M hM
    simp only [spelled, exampleFiles, List.flatMap_cons, List.flatMap_nil, List.append_nil, List.cons_append,
      List.nil_append, List.map_cons, List.map_nil, List.mem_cons, List.not_mem_nil, or_false] at hM
    rcases hM with rfl | rfl
    · exact fun i hi => nomatch hi
    · decide⟩
  acyclic := by
    intro M hM
    simp only [spelled, exampleFiles, List.flatMap_cons, List.flatMap_nil, List.append_nil, List.cons_append,
      List.nil_append, List.map_cons, List.map_nil, List.mem_cons, List.not_mem_nil, or_false] at hM
    rcases hM with rfl | rfl <;> exact ⟨fun _ => 0, by decide⟩
  proper := by
    intro M hM d hd
    simp only [spelled, exampleFiles, List.flatMap_cons, List.flatMap_nil, List.append_nil, List.cons_append,
      List.nil_append, List.map_cons, List.map_nil, List.mem_cons, List.not_mem_nil, or_false] at hM
    rcases hM with rfl | rfl
    · cases List.eq_of_mem_singleton hd
      exact .type t_described
    · cases List.eq_of_mem_singleton hd
      exact .type s_described

theorem example_read : ReadAs (spelled ascii 0 exampleFiles) (spelled ascii 0 exampleFiles) :=
  .cons ⟨rfl, rfl, .cons (.other (fun _ _ h => nomatch h) (fun _ _ _ h => nomatch h)) .nil⟩
    (.cons ⟨rfl, rfl, .cons (.other (fun _ _ h => nomatch h) (fun _ _ _ h => nomatch h)) .nil⟩ .nil)

/-- The theorem applies to these two files. -/
example := C97_text_to_rust ascii plainSpelling exampleFiles
  (by
    intro f hf
    rcases List.mem_cons.mp hf with rfl | hf
    · exact file1_spells
    · cases List.eq_of_mem_singleton hf
      exact file2_spells)
  0 _ example_read example_proper

/-! ## C98 -/

/-- **C98**, for files whose modules all have different names: the program does the same in whatever order the
files are given. (Missing: files with modules of the same name, see `C98_replaced_violated`.) -/
theorem C98_file_order_partial (u : Unicode) (sp : Spelling) (n : Nat) (files files' : List (Arg × List ParsedModule))
    (hf : ∀ f ∈ files, readArg u n f.1 = .ok f.2) (hn : ((files.flatMap (·.2)).map ParsedModule.name).Nodup)
    (hp : files.Perm files') (r : Out MainErr (List Item)) :
    Runs u sp n (files.map (·.1)) r ↔ Runs u sp n (files'.map (·.1)) r := by
  have hperm : (files.flatMap (·.2)).Perm (files'.flatMap (·.2)) := hp.flatMap_right _
  have hn' := (hperm.map ParsedModule.name).nodup_iff.mp hn
  obtain ⟨ms, h1, h2⟩ := readArgs_read hf (ms := []) (by simpa using hn)
  obtain ⟨ms', h3, h4⟩ := readArgs_read (files := files') (u := u) (n := n)
    (fun f h => hf f (hp.mem_iff.mpr h)) (ms := []) (by simpa using hn')
  rw [List.append_nil] at h2 h4
  have hms : ms.Perm ms' := h2.trans ((hperm.map _).trans h4.symm)
  have hnd : (ms.map Module.name).Nodup := by
    refine (h2.map Module.name).nodup_iff.mpr ?_
    rw [List.map_map]
    exact hn
  have hnd' := (hms.map Module.name).nodup_iff.mp hnd
  unfold Runs
  rw [h1, h3]
  exact ⟨fun ⟨s, a, b⟩ => ⟨s, resolvesModules_perm hms hnd a, b⟩,
    fun ⟨s, a, b⟩ => ⟨s, resolvesModules_perm hms.symm hnd' a, b⟩⟩

/-- C98, violated: a file is ignored when all its modules have the names of modules in the next file. Nothing is
reported. -/
theorem C98_replaced_violated (u : Unicode) (sp : Spelling) (n : Nat) (a b : Arg) (rest : List Arg)
    (ps qs : List ParsedModule) (ha : readArg u n a = .ok ps) (hb : readArg u n b = .ok qs)
    (h : ∀ p ∈ ps, ∃ q ∈ qs, q.name = p.name) (r : Out MainErr (List Item)) :
    Runs u sp n (a :: b :: rest) r ↔ Runs u sp n (b :: rest) r := by
  have : readArgs u n [] (a :: b :: rest) = readArgs u n [] (b :: rest) := by
    rw [readArgs, ha, readArgs, hb]
    simp only [Out.bind]
    rw [readArgs, hb]
    simp only [Out.bind]
    rw [addModules_twice u n [] h]
  unfold Runs
  rw [this]

/-- The module of `file1` with another `T`. -/
def file3 : List Char := "M DEFINITIONS ::= BEGIN T ::= BOOLEAN END\n".toList

@[inherit_doc file3]
def parsed3 : ParsedModule :=
  ⟨"M".toList, [], [("T".toList, ⟨"T".toList, .type (.mk .boolean (some [])), none⟩)]⟩

set_option maxRecDepth 8000 in
theorem file3_spells : Spells ascii file3 [parsed3] := by
  refine spells_of (l := [(.identifier, "M".toList), (.keyword, "DEFINITIONS".toList), (.assignment, "::=".toList),
    (.keyword, "BEGIN".toList), (.identifier, "T".toList), (.assignment, "::=".toList), (.keyword, "BOOLEAN".toList),
    (.keyword, "END".toList)]) (by decide +kernel) (by decide) fun ts h => ?_
  obtain ⟨t1, ts, rfl, a1, b1, h⟩ := bare_cons h
  obtain ⟨t2, ts, rfl, a2, b2, h⟩ := bare_cons h
  obtain ⟨t3, ts, rfl, a3, b3, h⟩ := bare_cons h
  obtain ⟨t4, ts, rfl, a4, b4, h⟩ := bare_cons h
  obtain ⟨t5, ts, rfl, a5, b5, h⟩ := bare_cons h
  obtain ⟨t6, ts, rfl, a6, b6, h⟩ := bare_cons h
  obtain ⟨t7, ts, rfl, a7, b7, h⟩ := bare_cons h
  obtain ⟨t8, ts, rfl, a8, b8, h⟩ := bare_cons h
  rw [List.map_eq_nil_iff] at h
  subst h
  exact .one (.mk (os := []) (gs := []) (is := []) (l := []) (ts := [t5, t6, t7])
    (ds := [⟨"T".toList, .type _, none⟩])
    (upper a1 b1 ⟨_, _, rfl, rfl⟩ (by decide)) .none ⟨a2, b2⟩ .none a3 ⟨a4, b4⟩ .none
    (.cons (ts := [t5, t6, t7]) (us := [])
      (.type (upper a5 b5 ⟨_, _, rfl, rfl⟩ (by decide)) a6
        (.type (ts := [t7]) (us := []) (.simple (.boolean ⟨a7, b7⟩)) .nil)) .nil) ⟨a8, b8⟩
    ⟨.refl _, .nil⟩ ⟨.refl _, by simp⟩)

/-- `file1` and `file2` may be given in either order. -/
example : ∃ n₀, ∀ n, n₀ ≤ n → ∀ r, Runs ascii plainSpelling n [.text file1, .text file2] r ↔
    Runs ascii plainSpelling n [.text file2, .text file1] r := by
  obtain ⟨n1, h1⟩ := spells_read file1_spells
  obtain ⟨n2, h2⟩ := spells_read file2_spells
  refine ⟨max n1 n2, fun n hn r => C98_file_order_partial ascii plainSpelling n
    [(.text file1, [parsed1]), (.text file2, [parsed2])] [(.text file2, [parsed2]), (.text file1, [parsed1])] ?_
    (by decide) (List.Perm.swap _ _ _) r⟩
  intro f hf
  rcases List.mem_cons.mp hf with rfl | hf
  · exact h1 n (by omega)
  · cases List.eq_of_mem_singleton hf
    exact h2 n (by omega)

/-- `file1` is ignored before `file3`, and `file3` before `file1`. -/
example : ∃ n₀, ∀ n, n₀ ≤ n → ∀ r,
    (Runs ascii plainSpelling n [.text file1, .text file3] r ↔ Runs ascii plainSpelling n [.text file3] r) ∧
    (Runs ascii plainSpelling n [.text file3, .text file1] r ↔ Runs ascii plainSpelling n [.text file1] r) := by
  obtain ⟨n1, h1⟩ := spells_read file1_spells
  obtain ⟨n2, h2⟩ := spells_read file3_spells
  exact ⟨max n1 n2, fun n hn r =>
    ⟨C98_replaced_violated ascii plainSpelling n _ _ [] _ _ (h1 n (by omega)) (h2 n (by omega)) (by decide) r,
     C98_replaced_violated ascii plainSpelling n _ _ [] _ _ (h2 n (by omega)) (h1 n (by omega)) (by decide) r⟩⟩

/-! ## C99 -/

theorem readArgs_ok {u : Unicode} {n : Nat} {args : List Arg} {ms ms' : List Module}
    (h : readArgs u n ms args = .ok ms') : ∀ a ∈ args, ∃ pms, readArg u n a = .ok pms := by
  induction args generalizing ms with
  | nil => exact fun a ha => absurd ha List.not_mem_nil
  | cons a args ih =>
    rw [readArgs, Out.bind_ok] at h
    obtain ⟨pms, h1, h2⟩ := h
    intro b hb
    rcases List.mem_cons.mp hb with rfl | hb
    · exact ⟨pms, h1⟩
    · exact ih h2 b hb

/-- **C99.** The program generates something only if every file is there, is a text, and was tokenized and parsed
to its end. -/
theorem C99_all_files_read (u : Unicode) (sp : Spelling) (n : Nat) (args : List Arg) (items : List Item)
    (h : Runs u sp n args (.ok items)) (a : Arg) (ha : a ∈ args) :
    ∃ cs ts pms, a = .text cs ∧ tokenize u cs = .ok ts ∧ parse n ts = .ok pms := by
  unfold Runs at h
  split at h
  · rename_i ms hms
    obtain ⟨pms, hp⟩ := readArgs_ok hms a ha
    cases a with
    | missing => cases hp
    | binary => cases hp
    | text cs =>
      rw [readArg, Out.bind_ok] at hp
      obtain ⟨ts, h1, h2⟩ := hp
      refine ⟨cs, ts, pms, rfl, ?_, ?_⟩
      · revert h1
        cases tokenize u cs with
        | ok a => exact fun h => by cases h; rfl
        | err e => exact fun h => nomatch h
        | panic => exact fun h => nomatch h
        | diverge => exact fun h => nomatch h
      · revert h2
        cases parse n ts with
        | ok a => exact fun h => by cases h; rfl
        | err e => exact fun h => nomatch h
        | panic => exact fun h => nomatch h
        | diverge => exact fun h => nomatch h
  all_goals cases h

/-- The first file that cannot be read decides how the program ends: if it is missing, or the tokenizer or the
parser reports an error, that is the error returned. -/
theorem C99_first_error (u : Unicode) (sp : Spelling) (n : Nat) (good : List Arg) (a : Arg) (rest : List Arg)
    (hg : ∀ b ∈ good, ∃ pms, readArg u n b = .ok pms) (e : MainErr) (ha : readArg u n a = .err e)
    (r : Out MainErr (List Item)) : Runs u sp n (good ++ a :: rest) r ↔ r = .err e := by
  have : ∀ ms, readArgs u n ms (good ++ a :: rest) = .err e := by
    induction good with
    | nil => intro ms; rw [List.nil_append, readArgs, ha]; rfl
    | cons b good ih =>
      intro ms
      obtain ⟨pms, hb⟩ := hg b List.mem_cons_self
      rw [List.cons_append, readArgs, hb]
      exact ih (fun c hc => hg c (List.mem_cons_of_mem _ hc)) _
  unfold Runs
  rw [this]

/-- C99, violated: on a file that is not UTF-8 the program panics instead of returning an error. -/
theorem C99_binary_violated (u : Unicode) (sp : Spelling) (n : Nat) (good : List Arg) (rest : List Arg)
    (hg : ∀ b ∈ good, ∃ pms, readArg u n b = .ok pms) (r : Out MainErr (List Item)) :
    Runs u sp n (good ++ .binary :: rest) r ↔ r = .panic := by
  have : ∀ ms, readArgs u n ms (good ++ .binary :: rest) = .panic := by
    induction good with
    | nil => intro ms; rfl
    | cons b good ih =>
      intro ms
      obtain ⟨pms, hb⟩ := hg b List.mem_cons_self
      rw [List.cons_append, readArgs, hb]
      exact ih (fun c hc => hg c (List.mem_cons_of_mem _ hc)) _
  unfold Runs
  rw [this]

/-- A missing file after a good one, and one that is not UTF-8. -/
example : ∃ n₀, ∀ n, n₀ ≤ n → ∀ r,
    (Runs ascii plainSpelling n [.text file1, .missing, .text file2] r ↔ r = .err .open) ∧
    (Runs ascii plainSpelling n [.text file1, .binary] r ↔ r = .panic) := by
  obtain ⟨n1, h1⟩ := spells_read file1_spells
  refine ⟨n1, fun n hn r => ⟨C99_first_error ascii plainSpelling n [.text file1] .missing [.text file2] ?_ _ rfl r,
    C99_binary_violated ascii plainSpelling n [.text file1] [] ?_ r⟩⟩ <;>
  · intro b hb
    cases List.eq_of_mem_singleton hb
    exact ⟨_, h1 n hn⟩

end Hampi.Compiler.Props
