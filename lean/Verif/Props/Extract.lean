import Verif.Extract.Model
import Verif.Spec.Extract
import Verif.Props.Main
/-!
# C126: the ASN.1 taken out of a specification is what the specification marks
-/
namespace Hampi.Extract

open Hampi.Compiler (Unicode Token LineColumn ParsedModule)
open Hampi.Compiler.Spec (Spells)
open Hampi.Spec (Tiles Blank)
open Hampi.Extract.Spec

theorem isStart_iff (p : Text) : isStart p = true ↔ Opens p := by
  unfold isStart matchesLine Opens
  rw [Bool.or_eq_true, beq_iff_eq, beq_iff_eq]
  exact Iff.rfl

theorem isEnd_iff (p : Text) : isEnd p = true ↔ Closes p := by
  unfold isEnd matchesLine Closes
  rw [Bool.or_eq_true, beq_iff_eq, beq_iff_eq]
  exact Iff.rfl

theorem opens_not_closes {p : Text} (h : Opens p) : ¬ Closes p := by
  rintro (h' | h') <;> rcases h with h | h <;> rw [h] at h' <;> revert h' <;> decide +kernel

/-- Outside a passage nothing is collected. -/
theorem collect_prose {prose : List Text} (h : ∀ p ∈ prose, ¬ Opens p) (rest : List Text) :
    collect false (prose ++ rest) = collect false rest := by
  induction prose with
  | nil => rfl
  | cons p ps ih =>
    have hs : isStart p = false := Bool.eq_false_iff.mpr fun e => h p (by simp) ((isStart_iff p).mp e)
    simp only [List.cons_append, collect, hs, Bool.false_eq_true, if_false, ite_self]
    exact ih fun q hq => h q (List.mem_cons_of_mem _ hq)

/-- Inside a passage everything is. -/
theorem collect_body {body : List Text} (h : ∀ p ∈ body, ¬ Closes p) (rest : List Text) :
    collect true (body ++ rest) = body.map (· ++ ['\n']) ++ collect true rest := by
  induction body with
  | nil => rfl
  | cons p ps ih =>
    have hs : isEnd p = false := Bool.eq_false_iff.mpr fun e => h p (by simp) ((isEnd_iff p).mp e)
    simp only [List.cons_append, collect, hs, Bool.false_eq_true, if_false, ite_self, if_true, List.map_cons,
      List.cons.injEq, true_and]
    exact ih fun q hq => h q (List.mem_cons_of_mem _ hq)

theorem collect_start {s : Text} (h : Opens s) (rest : List Text) :
    collect false (s :: rest) = (s ++ ['\n']) :: collect true rest := by
  have h1 := (isStart_iff s).mpr h
  have h2 : isEnd s = false := Bool.eq_false_iff.mpr fun e => opens_not_closes h ((isEnd_iff s).mp e)
  simp [collect, h1, h2]

theorem collect_end {e : Text} (h : Closes e) (rest : List Text) :
    collect true (e :: rest) = (e ++ ['\n']) :: collect false rest := by
  simp [collect, (isEnd_iff e).mpr h]

theorem collect_passages {document : List Text} {passages : List (List Text)} (h : Passages document passages) :
    collect false document = passages.flatten.map (· ++ ['\n']) := by
  induction h with
  | @none prose h => rw [← List.append_nil prose, collect_prose h]; rfl
  | closed h hs hb he _ ih =>
    rw [List.append_assoc, collect_prose h, List.cons_append, List.cons_append, List.append_assoc, collect_start hs,
      collect_body hb, List.cons_append, collect_end he, List.nil_append, ih]
    simp
  | @unclosed _ body _ h hs hb =>
    rw [collect_prose h, collect_start hs, ← List.append_nil body, collect_body hb]
    simp [collect]

theorem firstOpen (document : List Text) : (∀ p ∈ document, ¬ Opens p) ∨
    ∃ prose s rest, document = prose ++ s :: rest ∧ (∀ p ∈ prose, ¬ Opens p) ∧ Opens s := by
  induction document with
  | nil => exact .inl nofun
  | cons p ps ih =>
    by_cases hp : Opens p
    · exact .inr ⟨[], p, ps, rfl, nofun, hp⟩
    · rcases ih with ih | ⟨prose, s, rest, rfl, h1, h2⟩
      · left
        intro q hq
        rcases List.mem_cons.mp hq with rfl | hq
        · exact hp
        · exact ih q hq
      · refine .inr ⟨p :: prose, s, rest, rfl, ?_, h2⟩
        intro q hq
        rcases List.mem_cons.mp hq with rfl | hq
        · exact hp
        · exact h1 q hq

theorem firstClose (document : List Text) : (∀ p ∈ document, ¬ Closes p) ∨
    ∃ body e rest, document = body ++ e :: rest ∧ (∀ p ∈ body, ¬ Closes p) ∧ Closes e := by
  induction document with
  | nil => exact .inl nofun
  | cons p ps ih =>
    by_cases hp : Closes p
    · exact .inr ⟨[], p, ps, rfl, nofun, hp⟩
    · rcases ih with ih | ⟨body, e, rest, rfl, h1, h2⟩
      · left
        intro q hq
        rcases List.mem_cons.mp hq with rfl | hq
        · exact hp
        · exact ih q hq
      · refine .inr ⟨p :: body, e, rest, rfl, ?_, h2⟩
        intro q hq
        rcases List.mem_cons.mp hq with rfl | hq
        · exact hp
        · exact h1 q hq

/-- Every document has passages. -/
theorem passages_exist (document : List Text) : ∃ passages, Passages document passages := by
  generalize hn : document.length = n
  induction n using Nat.strongRecOn generalizing document with
  | _ n ih =>
    rcases firstOpen document with h | ⟨prose, s, rest, rfl, h1, h2⟩
    · exact ⟨[], .none h⟩
    · rcases firstClose rest with h | ⟨body, e, rest, rfl, h3, h4⟩
      · exact ⟨_, .unclosed h1 h2 h⟩
      · obtain ⟨qs, hq⟩ := ih rest.length (by rw [← hn]; simp; omega) rest rfl
        have := Passages.closed h1 h2 h3 h4 hq
        exact ⟨_, by simpa using this⟩

theorem split_unique {P : Text → Prop} {a a' r r' : List Text} {x x' : Text} (ha : ∀ p ∈ a, ¬ P p) (hx : P x)
    (ha' : ∀ p ∈ a', ¬ P p) (hx' : P x') (h : a ++ x :: r = a' ++ x' :: r') : a = a' ∧ x = x' ∧ r = r' := by
  induction a generalizing a' with
  | nil =>
    cases a' with
    | nil => cases h; exact ⟨rfl, rfl, rfl⟩
    | cons b bs => cases h; exact absurd hx (ha' _ (by simp))
  | cons b bs ih =>
    cases a' with
    | nil => cases h; exact absurd hx' (ha _ (by simp))
    | cons c cs =>
      rw [List.cons_append, List.cons_append, List.cons.injEq] at h
      obtain ⟨h1, h2, h3⟩ := ih (fun p hp => ha p (List.mem_cons_of_mem _ hp))
        (fun p hp => ha' p (List.mem_cons_of_mem _ hp)) h.2
      exact ⟨by rw [h.1, h1], h2, h3⟩

/-- And only one list of them. -/
theorem passages_unique {document : List Text} {passages passages' : List (List Text)}
    (h : Passages document passages) (h' : Passages document passages') : passages = passages' := by
  induction h generalizing passages' with
  | none h =>
    cases h' with
    | none => rfl
    | closed _ hs => exact absurd hs (h _ (by simp))
    | unclosed _ hs => exact absurd hs (h _ (by simp))
  | @closed prose body rest s e qs h1 h2 h3 h4 _ ih =>
    generalize hd : prose ++ (s :: body ++ [e]) ++ rest = document at h'
    cases h' with
    | none h => subst hd; exact absurd h2 (h _ (by simp))
    | @closed prose' body' rest' s' e' qs' k1 k2 k3 k4 k5 =>
      have hd : prose ++ s :: (body ++ e :: rest) = prose' ++ s' :: (body' ++ e' :: rest') := by simpa using hd
      obtain ⟨rfl, rfl, hd'⟩ := split_unique h1 h2 k1 k2 hd
      obtain ⟨rfl, rfl, rfl⟩ := split_unique h3 h4 k3 k4 hd'
      rw [ih k5]
    | @unclosed prose' body' s' k1 k2 k3 =>
      have hd : prose ++ s :: (body ++ e :: rest) = prose' ++ s' :: body' := by simpa using hd
      obtain ⟨rfl, rfl, rfl⟩ := split_unique h1 h2 k1 k2 hd
      exact absurd h4 (k3 _ (by simp))
  | @unclosed prose body s h1 h2 h3 =>
    generalize hd : prose ++ s :: body = document at h'
    cases h' with
    | none h => subst hd; exact absurd h2 (h _ (by simp))
    | @closed prose' body' rest' s' e' qs' k1 k2 k3 k4 k5 =>
      have hd : prose ++ s :: body = prose' ++ s' :: (body' ++ e' :: rest') := by simpa using hd
      obtain ⟨rfl, rfl, rfl⟩ := split_unique h1 h2 k1 k2 hd
      exact absurd k4 (h3 _ (by simp))
    | @unclosed prose' body' s' k1 k2 k3 =>
      obtain ⟨rfl, rfl, rfl⟩ := split_unique h1 h2 k1 k2 hd
      rfl

/-- The four lines before the passages. -/
def heading (argv : List Text) : Text :=
  "--\n".toList ++ "-- Generated using : ".toList ++ joined argv ++ "\n".toList ++ "-- DO NOT EDIT BY HAND\n".toList ++
    "--\n".toList

theorem output_eq (argv : List Text) {document : List Text} {passages : List (List Text)}
    (hq : Passages document passages) : output argv document = heading argv ++ lines passages.flatten := by
  have h : (preclude argv).flatten = heading argv := by
    have : "\n".toList = ['\n'] := by decide +kernel
    simp only [preclude, heading, this, List.flatten_cons, List.flatten_nil, List.append_assoc, List.append_nil]
  rw [output, h, collect_passages hq, lines, List.flatMap]

/-- **C126.** Run on a document that can be read, the script writes to the path given as its third argument the
heading and then exactly the passages of the document, in order, a line for each paragraph; and a document has its
passages in one way only. -/
theorem C126_passages (documents : Text → Option (List Text)) (prog spec flag asn : Text) (more : List Text)
    (document : List Text) (hd : documents spec = some document) :
    ∃ passages, Passages document passages ∧ (∀ passages', Passages document passages' → passages' = passages) ∧
      script documents (prog :: spec :: flag :: asn :: more) =
        .writes asn (heading (prog :: spec :: flag :: asn :: more) ++ lines passages.flatten) := by
  obtain ⟨qs, hq⟩ := passages_exist document
  refine ⟨qs, hq, fun _ h => passages_unique h hq, ?_⟩
  simp only [script, hd]
  rw [output_eq _ hq]

/-! ## The compiler on the extracted text -/

theorem tiles_before {u : Unicode} {before before' text : List Char} {ts : List Token}
    (h : Tiles u (fun _ _ => True) before text ts) : Tiles u (fun _ _ => True) before' text ts := by
  induction h generalizing before' with
  | done h => exact .done h
  | token h1 h2 h3 h4 _ _ ih => exact .token h1 h2 h3 h4 trivial ih

/-- A line of comment before a text changes nothing. -/
theorem spells_comment {u : Unicode} {text : List Char} {ms : List ParsedModule} (h : Spells u text ms)
    {body : List Char} (h1 : '\n' ∉ body) (h2 : ¬ ['-', '-'] <:+: body) :
    Spells u (('-' :: '-' :: body) ++ '\n' :: text) ms := by
  obtain ⟨ts, ht, hm⟩ := h
  refine ⟨⟨.comment, ⟨1, 0⟩, ⟨1, 0⟩, '-' :: '-' :: body⟩ :: ts, ?_, ?_⟩
  · refine .token (gap := []) (raw := '-' :: '-' :: body) (rest := '\n' :: text) nofun (by simp)
      ⟨body, rfl, .inr (.inl ⟨h1, h2, rfl⟩)⟩ rfl trivial ?_
    exact .blank (by simp [Blank]) (tiles_before ht)
  · intro ts' h'
    cases h' with
    | cons hc hr =>
      rename_i t' ts'
      have : t'.type = .comment := hc.1.symm
      rw [List.filter_cons, if_neg (by simp [Token.is, this])]
      exact hm ts' hr

theorem infix_after {a b : List Char} (ha : '-' ∉ a) (h : ['-', '-'] <:+: a ++ b) : ['-', '-'] <:+: b := by
  induction a with
  | nil => exact h
  | cons c cs ih =>
    rcases List.infix_cons_iff.mp h with h | h
    · obtain ⟨t, ht⟩ := h
      injection ht with h1 _
      exact absurd (by rw [h1]; exact List.mem_cons_self) ha
    · exact ih (fun hm => ha (List.mem_cons_of_mem _ hm)) h

/-- **C126.** When the passages of a specification, as the lines of a file, are a way to write modules, so is the file the
script writes, and the compiler reads these modules from it; provided that the command line that is written into
the heading has no two hyphens in a row and no line break. -/
theorem C126_compiles_partial (u : Unicode) (argv document : List Text) {passages : List (List Text)} {ms : List ParsedModule}
    (hp : Passages document passages) (hs : Spells u (lines passages.flatten) ms)
    (h1 : '\n' ∉ joined argv) (h2 : ¬ ['-', '-'] <:+: joined argv) :
    Spells u (output argv document) ms ∧
      ∃ n₀, ∀ n, n₀ ≤ n → Compiler.readArg u n (.text (output argv document)) = .ok ms := by
  have key : Spells u (output argv document) ms := by
    have e : output argv document = ('-' :: '-' :: []) ++ '\n' ::
        (('-' :: '-' :: (" Generated using : ".toList ++ joined argv)) ++ '\n' ::
          (('-' :: '-' :: " DO NOT EDIT BY HAND".toList) ++ '\n' :: (('-' :: '-' :: []) ++ '\n' ::
            lines passages.flatten))) := by
      have e1 : "--\n".toList = ['-', '-', '\n'] := by decide +kernel
      have e2 : "-- Generated using : ".toList = '-' :: '-' :: " Generated using : ".toList := by decide +kernel
      have e3 : "\n".toList = ['\n'] := by decide +kernel
      have e4 : "-- DO NOT EDIT BY HAND\n".toList = '-' :: '-' :: (" DO NOT EDIT BY HAND".toList ++ ['\n']) := by
        decide +kernel
      rw [output_eq argv hp, heading, e1, e2, e3, e4]
      simp only [List.append_assoc, List.cons_append, List.nil_append]
    rw [e]
    refine spells_comment (spells_comment (spells_comment (spells_comment hs ?_ ?_) ?_ ?_) ?_ ?_) ?_ ?_
    · simp
    · intro h; exact absurd (List.infix_nil.mp h) (by simp)
    · decide +kernel
    · exact fun h => absurd (List.infix_nil.mp (infix_after (a := " DO NOT EDIT BY HAND".toList) (by decide +kernel) (by rwa [List.append_nil]))) (by simp)
    · intro h
      rcases List.mem_append.mp h with h | h
      · exact absurd h (by decide +kernel)
      · exact h1 h
    · exact fun h => h2 (infix_after (by decide +kernel) h)
    · simp
    · intro h; exact absurd (List.infix_nil.mp h) (by simp)
  exact ⟨key, Compiler.spells_read key⟩

/-- A specification with a module: the text of the file `file1` of C97 as a paragraph between markers, and prose
around it. -/
def document1 : List Text :=
  ["1 Scope".toList, "-- ASN1START".toList, "M DEFINITIONS ::= BEGIN T ::= INTEGER (0..7) END".toList,
    "-- ASN1STOP".toList, "It's all.".toList]

theorem document1_passages : Passages document1 [["-- ASN1START".toList,
    "M DEFINITIONS ::= BEGIN T ::= INTEGER (0..7) END".toList, "-- ASN1STOP".toList]] :=
  .closed (prose := ["1 Scope".toList]) (body := ["M DEFINITIONS ::= BEGIN T ::= INTEGER (0..7) END".toList])
    (rest := ["It's all.".toList]) (by unfold Opens; decide +kernel) (.inl rfl) (by unfold Closes; decide +kernel)
    (.inl rfl) (.none (by unfold Opens; decide +kernel))

example (documents : Text → Option (List Text)) (h : documents "a.docx".toList = some document1) :
    script documents ["parse_spec.py".toList, "a.docx".toList, "-o".toList, "a.asn".toList] = .writes "a.asn".toList
      ("--\n-- Generated using : parse_spec.py a.docx -o a.asn\n-- DO NOT EDIT BY HAND\n--\n-- ASN1START\nM DEFINITIONS ::= BEGIN T ::= INTEGER (0..7) END\n-- ASN1STOP\n".toList) := by
  obtain ⟨qs, h1, h2, h3⟩ := C126_passages documents "parse_spec.py".toList "a.docx".toList "-o".toList "a.asn".toList []
    document1 h
  rw [h3, ← h2 _ document1_passages]
  exact congrArg _ (by decide +kernel)

set_option maxRecDepth 8000 in
theorem document1_spells : Spells Compiler.ascii (lines (["-- ASN1START".toList,
    "M DEFINITIONS ::= BEGIN T ::= INTEGER (0..7) END".toList, "-- ASN1STOP".toList])) [Compiler.Props.parsed1] :=
  Compiler.Props.spells_of (by decide +kernel) (by decide) Compiler.Props.file1_note

/-- The compiler reads the module from what the script writes. -/
example : ∃ n₀, ∀ n, n₀ ≤ n → Compiler.readArg Compiler.ascii n (.text (output ["parse_spec.py".toList, "a.docx".toList,
    "-o".toList, "a.asn".toList] document1)) = .ok [Compiler.Props.parsed1] :=
  (C126_compiles_partial Compiler.ascii _ document1 document1_passages document1_spells (by decide +kernel)
    (by decide +kernel)).2

/-! ## What goes wrong -/

/-- The first token of a text that is accepted. -/
theorem taken {u : Unicode} {type : Compiler.TokenType} {raw cs : List Char} (hs : Hampi.Spec.Shape u type raw cs)
    (hraw : raw ≠ []) (hcs : cs ≠ []) (hn : cs ≠ ['\n']) {line column : Nat} {ts : List Token}
    (h : Compiler.tokenizeFrom u (raw ++ cs) line column = .ok ts) :
    ∃ t ts' l k, ts = t :: ts' ∧ t.type = type ∧ Compiler.tokenizeFrom u cs l k = .ok ts' := by
  obtain ⟨s, t, h1, h2, h3, h4⟩ := Compiler.takes_shape u hs (.inl hcs) (fun c => hn c.2.1) line column
  have hp := List.length_pos_iff.mpr hcs
  have hq := List.length_pos_iff.mpr hraw
  rw [Compiler.tokenizeFrom_next h1 (by omega) (by rw [h2, List.length_append]; omega), h2, List.drop_left, h3] at h
  cases ht : Compiler.tokenizeFrom u cs s.line s.column with
  | ok ts' => rw [ht] at h; cases h; exact ⟨t, ts', _, _, rfl, h4, ht⟩
  | err e => rw [ht] at h; cases h
  | panic => rw [ht] at h; cases h
  | diverge => rw [ht] at h; cases h

/-- **C126, violated.** A file name with two hyphens in a row ends the comment in the heading: no specification
extracted from such a file can be compiled. -/
theorem C126_hyphens_violated (u : Unicode) (document : List Text) (n : Nat) (ms : List ParsedModule) :
    Compiler.readArg u n (.text (output ["parse_spec.py".toList, "38331--g50.docx".toList, "-o".toList, "rrc.asn".toList]
      document)) ≠ .ok ms := by
  obtain ⟨qs, hq⟩ := passages_exist document
  rw [output_eq _ hq]
  generalize lines qs.flatten = text
  have e1 : "--\n".toList = ['-', '-'] ++ ['\n'] := by decide +kernel
  have e2 : "-- Generated using : ".toList ++
      joined ["parse_spec.py".toList, "38331--g50.docx".toList, "-o".toList, "rrc.asn".toList] =
      ('-' :: '-' :: (" Generated using : parse_spec.py 38331".toList ++ ['-', '-'])) ++
        ('g' :: '5' :: '0' :: '.' :: "docx -o rrc.asn".toList) := by
    decide +kernel
  have hr : heading ["parse_spec.py".toList, "38331--g50.docx".toList, "-o".toList, "rrc.asn".toList] ++ text =
      ['-', '-'] ++ (['\n'] ++ (('-' :: '-' :: (" Generated using : parse_spec.py 38331".toList ++ ['-', '-'])) ++
        ('g' :: '5' :: '0' :: '.' :: ("docx -o rrc.asn".toList ++ "\n".toList ++ "-- DO NOT EDIT BY HAND\n".toList ++
          "--\n".toList ++ text)))) := by
    rw [heading, List.append_assoc "--\n".toList, e2, e1]
    simp only [List.append_assoc, List.cons_append, List.nil_append]
  rw [hr]
  generalize "docx -o rrc.asn".toList ++ "\n".toList ++ "-- DO NOT EDIT BY HAND\n".toList ++ "--\n".toList ++ text = rest
  intro h
  rw [Compiler.readArg] at h
  cases ht : Compiler.tokenize u (['-', '-'] ++ (['\n'] ++ (('-' :: '-' ::
      (" Generated using : parse_spec.py 38331".toList ++ ['-', '-'])) ++ ('g' :: '5' :: '0' :: '.' :: rest)))) with
  | err e => rw [ht] at h; cases h
  | panic => rw [ht] at h; cases h
  | diverge => rw [ht] at h; cases h
  | ok ts =>
    rw [ht] at h
    obtain ⟨t1, ts1, l1, k1, rfl, c1, h1⟩ := taken (type := .comment) ⟨[], rfl, .inr (.inl ⟨by simp, by simp, rfl⟩)⟩
      (by simp) (by simp) (by simp) ht
    obtain ⟨l2, k2, hb⟩ := Compiler.tokenizeFrom_blanks u ['\n']
      (('-' :: '-' :: (" Generated using : parse_spec.py 38331".toList ++ ['-', '-'])) ++ ('g' :: '5' :: '0' :: '.' :: rest))
      (by simp [Blank]) (by simp) l1 k1
    rw [hb] at h1
    obtain ⟨t2, ts2, l3, k3, rfl, c2, h2⟩ := taken (type := .comment)
      ⟨_, rfl, .inl ⟨_, rfl, by decide +kernel, by decide +kernel⟩⟩ (by simp) (by simp) (by simp) h1
    have h3 : Compiler.step u ('g' :: '5' :: '0' :: '.' :: rest) l3 k3 =
        .ok ⟨3, some ⟨.identifier, ⟨l3, k3⟩, ⟨l3, k3 + 3⟩, ['g', '5', '0']⟩, l3, k3 + 3⟩ := by rfl
    rw [Compiler.tokenizeFrom_next h3 (by simp) (by simp)] at h2
    obtain ⟨t3, ts3, rfl, c3, x3⟩ : ∃ t ts', ts2 = t :: ts' ∧ t.type = .identifier ∧ t.text = ['g', '5', '0'] := by
      revert h2
      cases Compiler.tokenizeFrom u (List.drop 3 ('g' :: '5' :: '0' :: '.' :: rest)) l3 (k3 + 3) with
      | ok ts' => intro h2; cases h2; exact ⟨_, _, rfl, rfl, rfl⟩
      | err e => exact nofun
      | panic => exact nofun
      | diverge => exact nofun
    have hf : ((t1 :: t2 :: t3 :: ts3).filter fun t => !t.is .comment) = t3 :: ts3.filter fun t => !t.is .comment := by
      simp [Token.is, c1, c2, c3]
    rw [Compiler.Out.orTokenize, Compiler.Out.bind, Compiler.parse, hf] at h
    have hn : t3.isTypeRef = false := by
      rw [Token.isTypeRef, x3, show Compiler.startsWith Char.isUpper ['g', '5', '0'] = false by decide, Bool.and_false]
    cases n with
    | zero => cases h
    | succ n =>
      simp [Compiler.modulesLoop, Compiler.parseModule, Compiler.parseModuleName, hn, Compiler.Out.bind,
        Compiler.Out.orCompile] at h

/-- **C126, violated.** A passage whose first line has a blank after the marker is left out. -/
theorem C126_start_violated (argv body : List Text) (h : ∀ p ∈ body, ¬ Opens p) :
    output argv ("-- ASN1START ".toList :: body ++ ["-- ASN1STOP".toList]) = heading argv := by
  refine (output_eq argv (passages := []) (.none fun p hp => ?_)).trans (List.append_nil _)
  rcases List.mem_append.mp hp with hp | hp
  · rcases List.mem_cons.mp hp with rfl | hp
    · unfold Opens; decide +kernel
    · exact h p hp
  · rw [List.mem_singleton.mp hp]
    unfold Opens; decide +kernel

/-- **C126, violated.** After a passage whose last line has a blank after the marker, the prose that follows is
taken for ASN.1. -/
theorem C126_stop_violated (argv body prose : List Text) (h : ∀ p ∈ body, ¬ Closes p) (h' : ∀ p ∈ prose, ¬ Closes p) :
    output argv ("-- ASN1START".toList :: body ++ ["-- ASN1STOP ".toList] ++ prose) =
      heading argv ++ lines ("-- ASN1START".toList :: body ++ ["-- ASN1STOP ".toList] ++ prose) := by
  refine (output_eq argv (passages := [_]) (.unclosed (prose := []) (body := body ++ ["-- ASN1STOP ".toList] ++ prose)
    nofun (.inl rfl) ?_)).trans ?_
  · intro p hp
    rcases List.mem_append.mp hp with hp | hp
    · rcases List.mem_append.mp hp with hp | hp
      · exact h p hp
      · rw [List.mem_singleton.mp hp]
        unfold Closes; decide +kernel
    · exact h' p hp
  · rw [List.flatten_cons, List.flatten_nil, List.append_nil]; rfl

end Hampi.Extract
