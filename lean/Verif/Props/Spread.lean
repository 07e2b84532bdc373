import Verif.Props.Reorder
import Verif.Props.Extract
/-!
# C135: how the modules are spread over files

`Spells u text ms` (Spec/Text.lean): the text is a way to write the modules `ms`. `Runs u sp n args r`: given these
files, the program may end with `r`.
-/
namespace Hampi.Compiler.Props
open Hampi.Compiler.Spec
open Hampi.Spec (Tiles Same Shape NotNext WordChar Blank)

/-- **C135 (partial).** What the program does with files depends on the modules that they spell, not on how these are
spread over the files, nor on their order. Missing, because false: modules of the same name, and modules that end with
a class without a syntax. -/
theorem C135_files_partial (u : Unicode) (sp : Spelling) (files files' : List (List Char × List ParsedModule))
    (hf : ∀ f ∈ files, Spells u f.1 f.2) (hf' : ∀ f ∈ files', Spells u f.1 f.2)
    (hp : (files.flatMap (·.2)).Perm (files'.flatMap (·.2)))
    (hn : ((files.flatMap (·.2)).map ParsedModule.name).Nodup) :
    ∃ n₀, ∀ n, n₀ ≤ n → ∀ r,
      Runs u sp n (files.map fun f => .text f.1) r ↔ Runs u sp n (files'.map fun f => .text f.1) r := by
  obtain ⟨n1, h1⟩ := readArgs_reads hf
  obtain ⟨n2, h2⟩ := readArgs_reads hf'
  refine ⟨max n1 n2, fun n hle r => ?_⟩
  have hn' := (hp.map ParsedModule.name).nodup_iff.mp hn
  obtain ⟨ms, e1, p1⟩ := h1 n (by omega) [] (by simpa using hn)
  obtain ⟨ms', e2, p2⟩ := h2 n (by omega) [] (by simpa using hn')
  rw [List.append_nil] at p1 p2
  have hms : ms.Perm ms' := p1.trans ((hp.map _).trans p2.symm)
  have hnd : (ms.map Module.name).Nodup := by
    refine (p1.map Module.name).nodup_iff.mpr ?_
    rw [List.map_map]
    exact hn
  have hnd' := (hms.map Module.name).nodup_iff.mp hnd
  unfold Runs
  rw [e1, e2]
  exact ⟨fun ⟨s, a, b⟩ => ⟨s, resolvesModules_perm hms hnd a, b⟩,
    fun ⟨s, a, b⟩ => ⟨s, resolvesModules_perm hms.symm hnd' a, b⟩⟩

/-! ## One text after the other -/

theorem notNext_append {p : Char → Prop} {rest : List Char} (h : NotNext p rest) (hne : rest ≠ []) (more : List Char) :
    NotNext p (rest ++ more) := by
  cases rest with
  | nil => exact absurd rfl hne
  | cons c cs => exact h

theorem shape_append {u : Unicode} {ty : TokenType} {raw rest : List Char} (h : Shape u ty raw rest) (hne : rest ≠ [])
    (more : List Char) : Shape u ty raw (rest ++ more) := by
  cases ty <;> simp only [Shape] at h ⊢ <;> try exact h
  case numberInt =>
    obtain ⟨s, d, h1, h2, h3, h4⟩ := h
    refine ⟨s, d, h1, ?_, h3, notNext_append h4 hne more⟩
    rcases h2 with ⟨a, b⟩ | hb
    · refine .inl ⟨a, ?_⟩
      rw [← List.append_assoc]
      exact notNext_append b (by simp [hne]) more
    · exact .inr hb
  case comment =>
    obtain ⟨b, h1, h2 | h2 | h2⟩ := h
    · exact ⟨b, h1, .inl h2⟩
    · refine ⟨b, h1, .inr (.inl ⟨h2.1, h2.2.1, ?_⟩)⟩
      cases rest with
      | nil => exact absurd rfl hne
      | cons c cs => exact h2.2.2
    · exact absurd h2.1 hne
  case squareBegin => exact ⟨h.1, notNext_append h.2 hne more⟩
  case squareEnd => exact ⟨h.1, notNext_append h.2 hne more⟩
  case rangeSeparator => exact ⟨h.1, notNext_append h.2 hne more⟩
  case dot => exact ⟨h.1, notNext_append h.2 hne more⟩
  case colon => exact ⟨h.1, notNext_append h.2 hne more⟩
  case identifier => exact ⟨h.1, h.2.1, notNext_append h.2.2.1 hne more, h.2.2.2⟩
  case keyword => exact ⟨h.1, h.2.1, notNext_append h.2.2.1 hne more, h.2.2.2⟩
  case andIdentifier =>
    obtain ⟨w, h1, h2, h3⟩ := h
    exact ⟨w, h1, h2, notNext_append h3 hne more⟩
  case atComponentIdList =>
    obtain ⟨w, h1, h2, h3, h4, h5⟩ := h
    exact ⟨w, h1, h2, h3, h4, notNext_append h5 hne more⟩
  case tString =>
    obtain ⟨m, h1, h2, h3⟩ := h
    exact ⟨m, h1, h2, notNext_append h3 hne more⟩

theorem wordChar_newline : ¬ WordChar '\n' := by
  simp only [WordChar]
  decide

theorem getLast_append {l l' : List Char} (h : l' ≠ []) : (l ++ l').getLast? = l'.getLast? := by
  rw [List.getLast?_append, List.getLast?_eq_some_getLast h, Option.some_or]

theorem mem_of_getLast {l : List Char} {c : Char} (h : l.getLast? = some c) : c ∈ l :=
  List.mem_of_getLast? h

/-- Only a comment can end with a newline. -/
theorem shape_newline {u : Unicode} {ty : TokenType} {raw : List Char} (h : Shape u ty raw []) (hl : raw.getLast? = some '\n') :
    ty = .comment ∧ ∃ b, raw = '-' :: '-' :: (b ++ ['\n']) ∧ '\n' ∉ b ∧ ¬ ['-', '-'] <:+: b := by
  have hm := mem_of_getLast hl
  cases ty <;> simp only [Shape] at h
  case comment =>
    refine ⟨rfl, ?_⟩
    obtain ⟨b, rfl, ⟨b', rfl, -⟩ | ⟨-, -, h2⟩ | ⟨-, h2, h3⟩⟩ := h
    · have : ('-' :: '-' :: (b' ++ ['-', '-'])).getLast? = some '-' := by
        rw [show '-' :: '-' :: (b' ++ ['-', '-']) = ('-' :: '-' :: (b' ++ ['-'])) ++ ['-'] by simp]
        exact List.getLast?_concat
      rw [this] at hl
      cases hl
    · cases h2
    · rcases List.eq_nil_or_concat b with rfl | ⟨b', c, rfl⟩
      · simp at hl
      · rw [List.concat_eq_append] at hl h2 h3 ⊢
        rw [← List.cons_append, ← List.cons_append, List.getLast?_concat] at hl
        cases hl
        rw [List.dropLast_concat] at h3
        exact ⟨b', rfl, h3, fun h => h2 (h.trans ⟨[], ['\n'], by simp⟩)⟩
  all_goals exfalso
  case numberInt =>
    obtain ⟨s, d, rfl, h2, h3, -⟩ := h
    rcases List.mem_append.mp hm with h | h
    · rcases h2 with ⟨rfl, -⟩ | ⟨rfl, -⟩ <;> simp at h
    · exact absurd (h3 _ h) (by rw [u.newline]; decide)
  case identifier => exact wordChar_newline (h.1.2.1 _ hm)
  case keyword => exact wordChar_newline (h.1.2.1 _ hm)
  case andIdentifier =>
    obtain ⟨w, rfl, h2, -⟩ := h
    rcases List.mem_cons.mp hm with h | h
    · cases h
    · exact wordChar_newline (h2.2.1 _ h)
  case atComponentIdList =>
    obtain ⟨w, rfl, h2, -⟩ := h
    rcases List.mem_cons.mp hm with h | h
    · cases h
    · rcases h2 _ h with h | h
      · exact wordChar_newline h
      · cases h
  case tString =>
    obtain ⟨m, rfl, -⟩ := h
    rw [List.getLast?_concat] at hl
    cases hl
  case bitString =>
    obtain ⟨m, c, rfl, h2, -⟩ := h
    rw [show '\'' :: m ++ ['\'', c] = ('\'' :: m ++ ['\'']) ++ [c] by simp, List.getLast?_concat] at hl
    cases hl
    rcases h2 with h | h <;> cases h
  case hexString =>
    obtain ⟨m, c, rfl, h2, -⟩ := h
    rw [show '\'' :: m ++ ['\'', c] = ('\'' :: m ++ ['\'']) ++ [c] by simp, List.getLast?_concat] at hl
    cases hl
    rcases h2 with h | h <;> cases h
  all_goals simp [h] at hm

theorem tiles_gap {u : Unicode} {text : List Char} {ts : List Token} (h : Tiles u (fun _ _ => True) [] text ts)
    {gap : List Char} (hg : ∀ c ∈ gap, Blank c) (before : List Char) : Tiles u (fun _ _ => True) before (gap ++ text) ts := by
  induction gap generalizing before with
  | nil => exact Hampi.Extract.tiles_before h
  | cons c cs ih => exact .blank (hg c List.mem_cons_self) (ih (fun d hd => hg d (List.mem_cons_of_mem _ hd)) _)

/-- The same token, or both are comments. -/
def AlikeOrComments (t t' : Token) : Prop := t' = t ∨ t.type = .comment ∧ t'.type = .comment

theorem tiles_append {u : Unicode} {before text text' : List Char} {ts ts' : List Token}
    (h : Tiles u (fun _ _ => True) before text ts) (hl : text = [] ∨ text.getLast? = some '\n')
    (h' : Tiles u (fun _ _ => True) [] text' ts') :
    ∃ ts₁, All2 AlikeOrComments ts ts₁ ∧ Tiles u (fun _ _ => True) before (text ++ text') (ts₁ ++ ts') := by
  induction h with
  | done hg => exact ⟨[], .nil, tiles_gap h' hg _⟩
  | @token before gap raw rest t ts h1 h2 h3 h4 _ h6 ih =>
    by_cases hr : rest = []
    · subst hr
      rw [List.append_nil] at hl ⊢
      have hl' : raw.getLast? = some '\n' := by
        rcases hl with hl | hl
        · exact absurd (List.append_eq_nil_iff.mp hl).2 h2
        · rwa [getLast_append h2] at hl
      obtain ⟨hc, b, rfl, hb1, hb2⟩ := shape_newline h3 hl'
      obtain rfl : ts = [] := by
        clear ih
        generalize he : ([] : List Char) = rest at h6
        cases h6 with
        | done _ => rfl
        | token _ hn _ _ _ _ => simp_all
      refine ⟨[{ t with text := '-' :: '-' :: b }], .cons (.inr ⟨hc, hc⟩) .nil, ?_⟩
      rw [show gap ++ '-' :: '-' :: (b ++ ['\n']) ++ text' = gap ++ ('-' :: '-' :: b) ++ ('\n' :: text') by simp]
      refine .token (t := { t with text := '-' :: '-' :: b }) (ts := ts') h1 (by simp) ?_ ?_ trivial ?_
      · show Shape u t.type _ _
        rw [hc]
        exact ⟨b, rfl, .inr (.inl ⟨hb1, hb2, rfl⟩)⟩
      · show Hampi.Spec.Kept t.type _ _
        rw [hc]
        rfl
      · exact tiles_gap h' (gap := ['\n']) (by simp [Blank]) _
    · obtain ⟨ts₁, ha, ht⟩ := ih (by
        right
        rcases hl with hl | hl
        · exact absurd (List.append_eq_nil_iff.mp hl).2 hr
        · rwa [getLast_append hr] at hl)
      refine ⟨t :: ts₁, .cons (.inl rfl) ha, ?_⟩
      rw [List.append_assoc]
      exact .token h1 h2 (shape_append h3 hr _) h4 trivial ht

theorem all2_split {α β : Type} {P : α → β → Prop} {a b : List α} {l : List β} (h : All2 P (a ++ b) l) :
    ∃ l₁ l₂, l = l₁ ++ l₂ ∧ All2 P a l₁ ∧ All2 P b l₂ := by
  induction a generalizing l with
  | nil => exact ⟨[], l, rfl, .nil, h⟩
  | cons x a ih =>
    cases h with
    | cons hx hr =>
      obtain ⟨l₁, l₂, rfl, h1, h2⟩ := ih hr
      exact ⟨_ :: l₁, l₂, rfl, .cons hx h1, h2⟩

theorem same_kept {ts ts₁ ts₂ : List Token} (h : All2 AlikeOrComments ts ts₁) (h' : All2 Same ts₁ ts₂) :
    ∃ ts₃, All2 Same ts ts₃ ∧ (ts₃.filter fun t => !t.is .comment) = ts₂.filter fun t => !t.is .comment := by
  induction h generalizing ts₂ with
  | nil =>
    cases h'
    exact ⟨[], .nil, rfl⟩
  | @cons t t₁ ts ts₁ ha _ ih =>
    cases h' with
    | @cons _ t₂ _ ts₂ hs hr =>
      obtain ⟨ts₃, h1, h2⟩ := ih hr
      rcases ha with rfl | ⟨hc, hc'⟩
      · exact ⟨t₂ :: ts₃, .cons hs h1, by simp only [List.filter_cons, h2]⟩
      · have hc2 : t₂.type = .comment := hs.1.symm.trans hc'
        refine ⟨t :: ts₃, .cons ⟨rfl, by rw [hc]; exact .inl rfl⟩ h1, ?_⟩
        rw [List.filter_cons_of_neg (by simp [Token.is, hc]), List.filter_cons_of_neg (by simp [Token.is, hc2]), h2]

theorem modulesNote_append {ms ms' : List ParsedModule} {ts ts' : Tokens} (h : ModulesNote ms ts) (h' : ModulesNote ms' ts') :
    ModulesNote (ms ++ ms') (ts ++ ts') := by
  induction h with
  | one h => exact .more h h'
  | more h _ ih => rw [List.append_assoc]; exact .more h ih

/-- **C135.** A text that ends with a newline, and another after it: together they spell the modules of both. -/
theorem C135_joined_text (u : Unicode) (text text' : List Char) (ms ms' : List ParsedModule) (h : Spells u text ms)
    (h' : Spells u text' ms') (hl : text.getLast? = some '\n') : Spells u (text ++ text') (ms ++ ms') := by
  obtain ⟨ts, ht, hm⟩ := h
  obtain ⟨ts', ht', hm'⟩ := h'
  obtain ⟨ts₁, ha, hj⟩ := tiles_append ht (.inr hl) ht'
  refine ⟨ts₁ ++ ts', hj, fun z hz => ?_⟩
  obtain ⟨z₁, z₂, rfl, h1, h2⟩ := all2_split hz
  obtain ⟨z₃, h3, h4⟩ := same_kept ha h1
  rw [List.filter_append, ← h4]
  exact modulesNote_append (hm _ h3) (hm' _ h2)

/-- **C135 (partial).** So two files can be joined to one, or one divided in two, among any other files. -/
theorem C135_joined_partial (u : Unicode) (sp : Spelling) (text text' : List Char) (ms ms' : List ParsedModule)
    (h : Spells u text ms) (h' : Spells u text' ms') (hl : text.getLast? = some '\n')
    (others : List (List Char × List ParsedModule)) (ho : ∀ f ∈ others, Spells u f.1 f.2)
    (hn : ((ms ++ ms' ++ others.flatMap (·.2)).map ParsedModule.name).Nodup) :
    ∃ n₀, ∀ n, n₀ ≤ n → ∀ r,
      Runs u sp n (.text (text ++ text') :: others.map fun f => .text f.1) r ↔
        Runs u sp n (.text text :: .text text' :: others.map fun f => .text f.1) r := by
  refine C135_files_partial u sp ((text ++ text', ms ++ ms') :: others) ((text, ms) :: (text', ms') :: others) ?_ ?_ ?_ ?_
  · intro f hf
    rcases List.mem_cons.mp hf with rfl | hf
    · exact C135_joined_text u text text' ms ms' h h' hl
    · exact ho f hf
  · intro f hf
    rcases List.mem_cons.mp hf with rfl | hf
    · exact h
    rcases List.mem_cons.mp hf with rfl | hf
    · exact h'
    · exact ho f hf
  · simp only [List.flatMap_cons, List.append_assoc]
    exact .refl _
  · simpa only [List.flatMap_cons] using hn

/-! ## Where it matters -/

/-- **C135 (violated).** Of two modules of one name the last counts when they are in two files, and the first when they
are in one. -/
theorem C135_same_name_violated (u : Unicode) (sp : Spelling) (text text' : List Char) (m m' : ParsedModule)
    (h : Spells u text [m]) (h' : Spells u text' [m']) (hl : text.getLast? = some '\n') (hn : m.name = m'.name) :
    ∃ n₀, ∀ n, n₀ ≤ n → ∀ r,
      (Runs u sp n [.text text, .text text'] r ↔ Runs u sp n [.text text'] r) ∧
      (Runs u sp n [.text (text ++ text')] r ↔ Runs u sp n [.text text] r) := by
  obtain ⟨n1, h1⟩ := spells_read h
  obtain ⟨n2, h2⟩ := spells_read h'
  obtain ⟨n3, h3⟩ := spells_read (C135_joined_text u text text' [m] [m'] h h' hl)
  refine ⟨max (max n1 n2) n3, fun n hle r => ⟨?_, ?_⟩⟩
  · exact C98_replaced_violated u sp n (.text text) (.text text') [] [m] [m'] (h1 n (by omega)) (h2 n (by omega))
      (fun p hp => ⟨m', List.mem_singleton.mpr rfl, by rw [List.mem_singleton.mp hp, hn]⟩) r
  · have : readArgs u n [] [.text (text ++ text')] = readArgs u n [] [.text text] := by
      rw [readArgs, readArgs, h3 n (by omega), h1 n (by omega)]
      simp only [Out.bind]
      rw [show addModules u n [] ([m] ++ [m']) = addModules u n [] [m] by
        simp [addModules, addModule, toModule_name, hn]]
    rw [Runs, Runs, this]

/-- `M DEFINITIONS ::= BEGIN C ::= CLASS { &id INTEGER } END`. -/
def classFile : List Char := "M DEFINITIONS ::= BEGIN C ::= CLASS { &id INTEGER } END\n".toList

/-- `N DEFINITIONS ::= BEGIN T ::= NULL END`. -/
def nullFile : List Char := "N DEFINITIONS ::= BEGIN T ::= NULL END\n".toList

/-- The file is read, to some modules, with loops nested `k` deep. -/
def readsWith (u : Unicode) (k : Nat) (text : List Char) : Bool :=
  match tokenize u text with
  | .ok ts => match parse k ts with
    | .ok _ => true
    | _ => false
  | _ => false

/-- The words of the file are refused by the parser. -/
def refusesWith (u : Unicode) (k : Nat) (text : List Char) : Bool :=
  match tokenize u text with
  | .ok ts => match parse k ts with
    | .err _ => true
    | _ => false
  | _ => false

theorem readsWith_ok {u : Unicode} {k : Nat} {text : List Char} (h : readsWith u k text = true) :
    ∃ ms, ∀ n, k ≤ n → readArg u n (.text text) = .ok ms := by
  unfold readsWith at h
  cases ht : tokenize u text with
  | ok ts =>
    simp only [ht] at h
    cases hp : parse k ts with
    | ok ms =>
      refine ⟨ms, fun n hn => ?_⟩
      rw [readArg, ht]
      show (parse n ts).orCompile = _
      rw [C85_result_is_stable hn (by rw [hp]; nofun), hp]
      rfl
    | _ => simp [hp] at h
  | _ => simp [ht] at h

theorem refusesWith_err {u : Unicode} {k : Nat} {text : List Char} (h : refusesWith u k text = true) :
    ∃ e, ∀ n, k ≤ n → readArg u n (.text text) = .err e := by
  unfold refusesWith at h
  cases ht : tokenize u text with
  | ok ts =>
    simp only [ht] at h
    cases hp : parse k ts with
    | err e =>
      refine ⟨.compile e, fun n hn => ?_⟩
      rw [readArg, ht]
      show (parse n ts).orCompile = _
      rw [C85_result_is_stable hn (by rw [hp]; nofun), hp]
      rfl
    | _ => simp [hp] at h
  | _ => simp [ht] at h

/-- **C135 (violated).** A module that ends with a class without a syntax is read when another module follows in the
file, and refused when that module is in a file of its own. -/
theorem C135_class_violated (sp : Spelling) : ∃ n₀, ∀ n, n₀ ≤ n →
    (∃ ms, readArg ascii n (.text (classFile ++ nullFile)) = .ok ms) ∧
    (∃ ms, readArg ascii n (.text nullFile) = .ok ms) ∧
    ∃ e, ∀ r, Runs ascii sp n [.text classFile, .text nullFile] r ↔ r = .err e := by
  obtain ⟨ms, h1⟩ := readsWith_ok (u := ascii) (k := 20) (text := classFile ++ nullFile) (by decide +kernel)
  obtain ⟨ms', h2⟩ := readsWith_ok (u := ascii) (k := 20) (text := nullFile) (by decide +kernel)
  obtain ⟨e, h3⟩ := refusesWith_err (u := ascii) (k := 20) (text := classFile) (by decide +kernel)
  refine ⟨20, fun n hn => ⟨⟨ms, h1 n hn⟩, ⟨ms', h2 n hn⟩, e, fun r => ?_⟩⟩
  rw [Runs, readArgs, h3 n hn]
  rfl

/-! ## Examples -/

/-- The two files of the example for C97 in one, among others. -/
example (sp : Spelling) : ∃ n₀, ∀ n, n₀ ≤ n → ∀ r,
    Runs ascii sp n [.text (file1 ++ file2)] r ↔ Runs ascii sp n [.text file1, .text file2] r :=
  C135_joined_partial ascii sp file1 file2 [parsed1] [parsed2] file1_spells file2_spells (by decide) [] nofun (by decide)

/-- In the other order. -/
example (sp : Spelling) : ∃ n₀, ∀ n, n₀ ≤ n → ∀ r,
    Runs ascii sp n [.text (file2 ++ file1)] r ↔ Runs ascii sp n [.text file1, .text file2] r :=
  C135_files_partial ascii sp [(file2 ++ file1, [parsed2, parsed1])] [(file1, [parsed1]), (file2, [parsed2])]
    (fun _ hf => List.mem_singleton.mp hf ▸
      C135_joined_text ascii file2 file1 [parsed2] [parsed1] file2_spells file1_spells (by decide))
    (fun f hf => by
      rcases List.mem_cons.mp hf with rfl | hf
      · exact file1_spells
      · exact List.mem_singleton.mp hf ▸ file2_spells) (.swap _ _ _) (by decide)

/-- Two modules of one name. -/
example (sp : Spelling) : ∃ n₀, ∀ n, n₀ ≤ n → ∀ r,
    (Runs ascii sp n [.text file1, .text file3] r ↔ Runs ascii sp n [.text file3] r) ∧
      (Runs ascii sp n [.text (file1 ++ file3)] r ↔ Runs ascii sp n [.text file1] r) :=
  C135_same_name_violated ascii sp file1 file3 parsed1 parsed3 file1_spells file3_spells (by decide) rfl

end Hampi.Compiler.Props
