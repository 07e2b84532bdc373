import Verif.Lemmas.ParserReadsDefs
import Verif.Lemmas.ParserEnds
import Verif.Lemmas.ParserDefsMono
/-!
# The parser: C85 to C89

`parse n ts` is what the parser makes of the tokens `ts` when its calls and loops nest no deeper than
`n`; `diverge` is "not yet". The result of the parser is `r` when `parse n ts = r` from some `n` on, and
the parser hangs when `parse n ts = diverge` for every `n`.
-/
namespace Hampi.Compiler.Props
open _root_.Hampi.Compiler.Spec

/-- The parser ends with this result. -/
def Parses (ts : Tokens) (r : Out Err (List ParsedModule)) : Prop :=
  r ≠ .diverge ∧ ∃ n₀, ∀ n, n₀ ≤ n → parse n ts = r

/-- The parser never ends. -/
def Hangs (ts : Tokens) : Prop := ∀ n, parse n ts = .diverge

/-! ## Tokens for examples -/

/-- A reserved word. -/
def kw (s : String) : Token := ⟨.keyword, ⟨1, 1⟩, ⟨1, 1⟩, s.toList⟩
/-- A name. -/
def nm (s : String) : Token := ⟨.identifier, ⟨1, 1⟩, ⟨1, 1⟩, s.toList⟩
/-- Any other token. -/
def tk (type : TokenType) (s : String) : Token := ⟨type, ⟨1, 1⟩, ⟨1, 1⟩, s.toList⟩

theorem kw_word (s : String) : Word s (kw s) := ⟨rfl, rfl⟩

/-- `M DEFINITIONS ::= BEGIN`. -/
def header : Tokens := [nm "M", kw "DEFINITIONS", tk .assignment "::=", kw "BEGIN"]

/-- `M DEFINITIONS ::= BEGIN T ::=`, then `body`. -/
def typeIn (body : Tokens) : Tokens := header ++ nm "T" :: tk .assignment "::=" :: body

theorem upperM : UpperName "M".toList (nm "M") := ⟨rfl, rfl, ⟨_, _, rfl, rfl⟩, by decide⟩
theorem upperT : UpperName "T".toList (nm "T") := ⟨rfl, rfl, ⟨_, _, rfl, rfl⟩, by decide⟩

/-! ## C85 -/

/-- **C85.** When the tokens are a way to write the modules `ms` in the supported notation, with any
comments in between, the parser ends and its result is `ms`: every definition, component, constraint,
class, object set and import as it is written. -/
theorem C85_written_is_read {ms : List ParsedModule} {ts : Tokens}
    (h : ModulesNote ms (ts.filter fun t => !t.is .comment)) : Parses ts (.ok ms) :=
  ⟨nofun, parse_reads h rfl⟩

/-- C85: the same tokens are never a way to write two different lists of modules. -/
theorem C85_unambiguous {ms ms' : List ParsedModule} {ts : Tokens} (h : ModulesNote ms ts)
    (h' : ModulesNote ms' ts) : ms = ms' := by
  obtain ⟨n, hn⟩ := modules_reads h []
  obtain ⟨m, hm⟩ := modules_reads h' []
  have := (hn (max n m) (by omega)).symm.trans (hm (max n m) (by omega))
  simpa using this

/-- C85: a result reached within some depth stays the result at any greater depth. -/
theorem C85_result_is_stable {n m : Nat} {ts : Tokens} (hnm : n ≤ m) (h : parse n ts ≠ .diverge) :
    parse m ts = parse n ts := by
  induction hnm with
  | refl => rfl
  | @step m _ ih =>
    rcases parse_mono m ts with hd | he
    · rw [ih] at hd; exact absurd hd h
    · rw [← he, ih]

/-- `M DEFINITIONS ::= BEGIN -- c -- T ::= SEQUENCE { a INTEGER (0..7), b BOOLEAN OPTIONAL, ... } END`. -/
def exampleText : Tokens := header ++ tk .comment "-- c --" :: nm "T" :: tk .assignment "::=" ::
  [kw "SEQUENCE", tk .curlyBegin "{", nm "a", kw "INTEGER", tk .roundBegin "(", tk .numberInt "0",
   tk .rangeSeparator "..", tk .numberInt "7", tk .roundEnd ")", tk .comma ",", nm "b", kw "BOOLEAN",
   kw "OPTIONAL", tk .comma ",", tk .extension "...", tk .curlyEnd "}", kw "END"]

def exampleType : AsnType :=
  .mk (.sequence [
    .mk "a".toList (.mk (.integer none)
      (some [.subtype (.mk [[.range "0".toList true "7".toList true]] none)])) false none,
    .mk "b".toList (.mk .boolean (some [])) true none] [] true) (some [])

theorem lower (s : String) (h : ∃ c cs, s.toList = c :: cs ∧ c.isLower = true) :
    LowerName s.toList (nm s) := ⟨rfl, rfl, h⟩

theorem exampleType_note : TypeNote exampleType
    [kw "SEQUENCE", tk .curlyBegin "{", nm "a", kw "INTEGER", tk .roundBegin "(", tk .numberInt "0",
     tk .rangeSeparator "..", tk .numberInt "7", tk .roundEnd ")", tk .comma ",", nm "b", kw "BOOLEAN",
     kw "OPTIONAL", tk .comma ",", tk .extension "...", tk .curlyEnd "}"] := by
  have range : ConstraintNote (.subtype (.mk [[.range "0".toList true "7".toList true]] none))
      [tk .roundBegin "(", tk .numberInt "0", tk .rangeSeparator "..", tk .numberInt "7", tk .roundEnd ")"] :=
    .subtype (.closed (ts := [tk .numberInt "0", tk .rangeSeparator "..", tk .numberInt "7"]) rfl
      (.one (.one (.range (ts := [_]) (us := []) (vs := []) (ws := [_]) (.value ⟨rfl, .inr (.inl rfl)⟩) .closed rfl
        .closed (.value ⟨rfl, .inr (.inl rfl)⟩)))) rfl)
  have a : SeqCompNote (.mk "a".toList (.mk (.integer none)
      (some [.subtype (.mk [[.range "0".toList true "7".toList true]] none)])) false none)
      [nm "a", kw "INTEGER", tk .roundBegin "(", tk .numberInt "0", tk .rangeSeparator "..",
        tk .numberInt "7", tk .roundEnd ")"] :=
    .required (lower "a" ⟨_, _, rfl, rfl⟩)
      (.type (ts := [kw "INTEGER"]) (.simple (.integer (kw_word _))) (.cons (us := []) range .nil))
  have b : SeqCompNote (.mk "b".toList (.mk .boolean (some [])) true none)
      [nm "b", kw "BOOLEAN", kw "OPTIONAL"] :=
    .optional (ts := [kw "BOOLEAN"]) (lower "b" ⟨_, _, rfl, rfl⟩)
      (.type (ts := [_]) (us := []) (.simple (.boolean (kw_word _))) .nil) (kw_word _)
  refine TypeNote.type (us := []) (.sequence (b := tk .curlyBegin "{") (e := tk .curlyEnd "}") (j := 1)
    (ts := [nm "a", kw "INTEGER", tk .roundBegin "(", tk .numberInt "0", tk .rangeSeparator "..",
      tk .numberInt "7", tk .roundEnd ")", tk .comma ",", nm "b", kw "BOOLEAN", kw "OPTIONAL", tk .comma ",",
      tk .extension "..."]) (kw_word _) rfl ?_ rfl) .nil
  exact .component (by decide) a (.more rfl (.component (by decide) b (.more rfl (.marker (by decide) rfl .done))))

/-- The example is a way to write a module. -/
theorem example_note : ModulesNote [⟨"M".toList, [], [("T".toList, ⟨"T".toList, .type exampleType, none⟩)]⟩]
    (exampleText.filter fun t => !t.is .comment) := by
  refine .one (.mk (os := []) (gs := []) (is := []) (l := []) (ds := [⟨"T".toList, .type exampleType, none⟩])
    upperM .none (kw_word "DEFINITIONS") .none rfl (kw_word "BEGIN") .none
    (.cons (us := []) (.type (i := nm "T") (a := tk .assignment "::=") upperT rfl exampleType_note) .nil) (kw_word "END")
    ⟨.refl _, .nil⟩ ⟨.refl _, ?_⟩)
  simp

example : Parses exampleText
    (.ok [⟨"M".toList, [], [("T".toList, ⟨"T".toList, .type exampleType, none⟩)]⟩]) :=
  C85_written_is_read example_note

/-! ## From types to modules -/

theorem header_noComments (ts : Tokens) :
    (header ++ ts).filter (fun t => !t.is .comment) = header ++ ts.filter fun t => !t.is .comment := by
  rw [List.filter_append]; rfl

theorem parseModule_header (n : Nat) (ts : Tokens) (h : ∀ t ∈ ts.head?, t.isKeyword "IMPORTS" = false)
    (hne : ts ≠ []) : parseModule n (header ++ ts) =
      (definitionsLoop n [] ts).bind fun d => .ok (⟨"M".toList, [], d.1⟩, d.2) := by
  obtain ⟨t, us, rfl⟩ : ∃ t us, ts = t :: us := by
    cases ts with
    | nil => exact absurd rfl hne
    | cons t us => exact ⟨_, _, rfl⟩
  have ht := h t (by simp)
  have h1 : (nm "M").isTypeRef = true := upperM.isTypeRef
  have h2 : parseImports n (t :: us) = .ok ([], t :: us) := by simp [parseImports, skip, ht, Out.bind]
  have h3 : parseTags (tk .assignment "::=" :: kw "BEGIN" :: t :: us) =
      .ok ((), tk .assignment "::=" :: kw "BEGIN" :: t :: us) := rfl
  have h4 : parseMaybeOid n (kw "DEFINITIONS" :: tk .assignment "::=" :: kw "BEGIN" :: t :: us) =
      .ok (none, kw "DEFINITIONS" :: tk .assignment "::=" :: kw "BEGIN" :: t :: us) := rfl
  have h5 : Token.is .assignment (tk .assignment "::=") = true := rfl
  simp only [header, List.cons_append, List.nil_append, parseModule, parseModuleName, h1, if_true, h4, h5, Out.bind,
    need, (kw_word "DEFINITIONS").isKeyword, (kw_word "BEGIN").isKeyword, h3, h2]
  rfl

theorem parseDefinition_type (n : Nat) (body : Tokens) :
    parseDefinition n (nm "T" :: tk .assignment "::=" :: body) =
      match parseType n body with
      | .ok r => .ok (⟨"T".toList, .type r.1, none⟩, r.2)
      | .err _ => (parseClassAssignment n (nm "T" :: tk .assignment "::=" :: body)).attempt.bind fun
        | some r => .ok r
        | none => .err .parse
      | .panic => .panic
      | .diverge => .diverge := by
  have h1 : (nm "T").isTypeRef = true := upperT.isTypeRef
  have h2 : (nm "T").isValueRef = false := upperT.not_isValueRef
  have h3 : (tk .assignment "::=").isClassRef = false := not_isClassRef (by simp [tk])
  have hT : parseTypeAssignment n (nm "T" :: tk .assignment "::=" :: body) =
      (parseType n body).bind fun r => .ok (⟨"T".toList, .type r.1, none⟩, r.2) := by
    simp only [parseTypeAssignment, need, h1, if_true, Out.bind, parseParams]
    simp [Token.is, tk, Out.attempt, nm]
  simp only [parseDefinition, h1, h2, if_true, Bool.false_eq_true, if_false, parseTypeish, hT]
  cases parseType n body with
  | ok r => rfl
  | panic => rfl
  | diverge => rfl
  | err e =>
    simp only [Out.bind, Out.attempt]
    have ho : parseObjectSetAssignment n (nm "T" :: tk .assignment "::=" :: body) = .err .unexpectedToken := by
      simp [parseObjectSetAssignment, need, h1, h3, Out.bind]
    rw [ho]
    cases parseClassAssignment n (nm "T" :: tk .assignment "::=" :: body) <;> rfl

theorem definitionsLoop_T (n : Nat) (acc : List (Text × ParsedDef)) (body : Tokens) :
    definitionsLoop (n + 1) acc (nm "T" :: body) =
      (parseDefinition n (nm "T" :: body)).bind fun d => definitionsLoop n (put acc d.1.id d.1) d.2 := by
  have : (nm "T").isKeyword "END" = false := not_isKeyword (by simp [nm])
  simp [definitionsLoop, skip, this, Out.bind]

theorem parse_typeIn (n : Nat) (body : Tokens) (hb : ∀ t ∈ body, t.type ≠ .comment) :
    parse (n + 2) (typeIn body) =
      (parseDefinition n (nm "T" :: tk .assignment "::=" :: body)).bind fun d =>
        (definitionsLoop n [(d.1.id, d.1)] d.2).bind fun ds =>
          if ds.2.isEmpty then .ok [⟨"M".toList, [], ds.1⟩]
          else modulesLoop (n + 1) [⟨"M".toList, [], ds.1⟩] ds.2 := by
  have hf : (nm "T" :: tk .assignment "::=" :: body).filter (fun t => !t.is .comment) =
      nm "T" :: tk .assignment "::=" :: body := by
    rw [List.filter_eq_self]
    intro t ht
    simp only [List.mem_cons] at ht
    rcases ht with rfl | rfl | ht
    · rfl
    · rfl
    · simp [Token.is, hb t ht]
  have hn : ∀ t ∈ (nm "T" :: tk .assignment "::=" :: body).head?, t.isKeyword "IMPORTS" = false := by
    intro t ht
    simp at ht
    subst ht
    exact not_isKeyword (by simp [nm])
  rw [parse, typeIn, header_noComments, hf, modulesLoop, parseModule_header _ _ hn (by simp),
    definitionsLoop_T]
  cases parseDefinition n (nm "T" :: tk .assignment "::=" :: body) with
  | ok d =>
    simp only [Out.bind, put]
    cases definitionsLoop n [(d.1.id, d.1)] d.2 <;> simp
  | err => rfl
  | panic => rfl
  | diverge => rfl

/-- A type that is never read to its end makes the parser hang. -/
theorem hangs_of_type {body : Tokens} (hb : ∀ t ∈ body, t.type ≠ .comment)
    (h : ∀ n, parseType n body = .diverge) : Hangs (typeIn body) := by
  have h2 : ∀ n, parse (n + 2) (typeIn body) = .diverge := by
    intro n
    rw [parse_typeIn n body hb, parseDefinition_type, h n]
    rfl
  intro n
  rcases parse_mono n (typeIn body) with h | h
  · exact h
  · rcases parse_mono (n + 1) (typeIn body) with h' | h'
    · rw [h, h']
    · rw [h, h', h2]

theorem ends_of_eventually {ts : Tokens} {r : Out Err (List ParsedModule)} (hr : r ≠ .diverge)
    (h : Ev fun n => parse (n + 2) ts = r) : Parses ts r :=
  ⟨hr, Ev.step (Ev.step h)⟩

theorem panics_of_type {body : Tokens} (hb : ∀ t ∈ body, t.type ≠ .comment)
    (h : Ev fun n => parseType n body = .panic) : Parses (typeIn body) .panic := by
  refine ends_of_eventually nofun (h.imp fun n hn => ?_)
  rw [parse_typeIn n body hb, parseDefinition_type, hn]
  rfl

/-- A type that is read is in the result. -/
theorem reads_of_type {body : Tokens} {ty : AsnType} (hb : ∀ t ∈ body, t.type ≠ .comment)
    (h : Ev fun n => parseType n (body ++ [kw "END"]) = .ok (ty, [kw "END"])) :
    Parses (typeIn (body ++ [kw "END"]))
      (.ok [⟨"M".toList, [], [("T".toList, ⟨"T".toList, .type ty, none⟩)]⟩]) := by
  refine ends_of_eventually nofun (Ev.step (h.imp' fun n hn => ?_))
  rw [parse_typeIn _ _ (by
    intro t ht
    rcases List.mem_append.mp ht with ht | ht
    · exact hb t ht
    · cases List.mem_singleton.mp ht; simp [kw]), parseDefinition_type, hn]
  simp [Out.bind, definitionsLoop, skip, (kw_word "END").isKeyword]

/-- A type that is refused makes the parser fail, unless it is a class. -/
theorem fails_of_type {t : Token} {body : Tokens} (ht : t.isKeyword "CLASS" = false)
    (hb : ∀ t ∈ body, t.type ≠ .comment) (hc : t.type ≠ .comment)
    (h : Ev fun n => ∃ e, parseType n (t :: body) = .err e) : Parses (typeIn (t :: body)) (.err .parse) := by
  refine ends_of_eventually nofun (h.imp fun n hn => ?_)
  obtain ⟨e, hn⟩ := hn
  have hca : ∃ e, parseClassAssignment n (nm "T" :: tk .assignment "::=" :: t :: body) = .err e := by
    have h1 : (nm "T").isClassRef = true := by decide
    refine ⟨.unexpectedToken, ?_⟩
    simp only [parseClassAssignment, need, h1, if_true, Out.bind]
    simp [Token.is, tk, parseClass, need, ht, Out.bind]
  obtain ⟨e', hca⟩ := hca
  rw [parse_typeIn _ _ (by
    intro u hu
    rcases List.mem_cons.mp hu with rfl | hu
    · exact hc
    · exact hb u hu), parseDefinition_type, hn]
  simp [hca, Out.attempt, Out.bind]

/-! ## C86 -/

/-- A token with which no component of a SEQUENCE or CHOICE starts or ends. -/
def Stray (z : Token) : Prop :=
  z.type ≠ .identifier ∧ z.type ≠ .comma ∧ z.type ≠ .extension ∧ z.type ≠ .curlyEnd ∧
    z.type ≠ .additionGroupsBegin

/-- When the result is `r` from some depth on, it is `r` or not there yet at every depth. -/
theorem below {α : Type} {f : Nat → Out Err α} (mono : ∀ n, Out.Le (f n) (f (n + 1))) {r : Out Err α}
    (h : Ev fun n => f n = r) (n : Nat) : f n = .diverge ∨ f n = r := by
  obtain ⟨n₀, h⟩ := h
  by_cases hn : n₀ ≤ n
  · exact .inr (h n hn)
  · have : ∀ k n, n + k = n₀ → f n = .diverge ∨ f n = r := by
      intro k
      induction k with
      | zero => exact fun n hk => .inr (h n (by omega))
      | succ k ih =>
        intro n hk
        rcases mono n with h | h
        · exact .inl h
        · rw [h]; exact ih (n + 1) (by omega)
    exact this (n₀ - n) n (by omega)

/-- A position where no component is read but the list of components does not end either. -/
def Stuck (z : Token) (us : Tokens) : Prop :=
  (z.type ≠ .comma ∧ z.type ≠ .extension ∧ z.type ≠ .curlyEnd ∧ z.type ≠ .additionGroupsBegin) ∧
    ((∃ e, Ev fun n => parseSeqComponent n (z :: us) = .err e) ∨
      Ev fun n => parseSeqComponent n (z :: us) = .ok (none, z :: us))

theorem seqLoop_stuck {z us} (h : Stuck z us) : ∀ n root adds m,
    seqLoop n root adds m (z :: us) = .diverge := by
  intro n
  induction n using Nat.strongRecOn with
  | _ n ih =>
    intro root adds m
    cases n with
    | zero => rw [seqLoop]
    | succ n =>
      rw [seqLoop]
      have hrest : seqAfter n root adds m (z :: us) = .diverge := by
        cases n with
        | zero => rw [seqAfter]
        | succ n =>
          rw [seqAfter]
          simp [skip, Token.is, h.1, parseMarker, Out.bind, ih n (by omega)]
      have h' : (expect (Token.is .additionGroupsBegin) (z :: us)) = .ok false := by
        simp [expect, Token.is, h.1]
      rcases h.2 with ⟨e, he⟩ | he
      · rcases below (fun n => (monoAt n).seqComponent _) he n with he | he
        · rw [he]; rfl
        · rw [he]; simp [Out.attempt, Out.bind, h', hrest]
      · rcases below (fun n => (monoAt n).seqComponent _) he n with he | he
        · rw [he]; rfl
        · rw [he]; simp [Out.attempt, Out.bind, h', hrest]

theorem stray_stuck {z} (h : Stray z) (us : Tokens) : Stuck z us := by
  refine ⟨h.2, .inr (Ev.step (Ev.step (Ev.all fun n => ?_)))⟩
  simp [parseSeqComponent, parseComponent, need, not_isValueRef h.1, Out.bind, Out.attempt]

/-- A component whose type is not read. -/
theorem untyped_stuck {x i b} (hi : LowerName x i) (hb : ¬ TypeStart b) (us : Tokens) : Stuck i (b :: us) := by
  refine ⟨by simp [hi.type], .inr (Ev.step (Ev.step (Ev.step (Ev.all fun n => ?_))))⟩
  unfold TypeStart at hb
  simp only [parseSeqComponent, parseComponent, need, hi.isValueRef, if_true, Out.bind, parseType]
  rw [if_neg hb]
  rfl

/-- A component whose default is not read. -/
theorem default_stuck {x i ty ts d v} (hi : LowerName x i) (hty : TypeNote ty ts) (hd : Word "DEFAULT" d)
    (hv : v.type = .keyword) (us : Tokens) : Stuck i (ts ++ d :: v :: us) := by
  have hdo : d.isKeyword "OPTIONAL" = false := by simp [Token.isKeyword, hd.text]
  have h1 : parsePresence (d :: v :: us) = .err .unexpectedToken := by
    simp [parsePresence, skip, hdo, hd.isKeyword, Out.bind, parseValue, Token.isSimpleValue, Token.is, hv]
  have hn := type_reads hty (d :: v :: us) (by intro t ht; simp at ht; subst ht; simp [hd.type])
  refine ⟨by simp [hi.type], .inl ⟨.unexpectedToken, Ev.step (Ev.step (hn.imp fun n hn => ?_))⟩⟩
  simp [parseSeqComponent, parseComponent, need, hi.isValueRef, Out.bind, hn, Out.attempt, h1]

/-- What diverges from some depth on diverges. -/
theorem diverges {α : Type} {f : Nat → Out Err α} (mono : ∀ n, Out.Le (f n) (f (n + 1)))
    (h : Ev fun n => f n = .diverge) (n : Nat) : f n = .diverge := (below mono h n).elim id id

theorem sequence_diverges {k b z : Token} {us} (hk : Word "SEQUENCE" k) (hb : b.type = .curlyBegin) (h : Stuck z us)
    (n : Nat) : parseType n (k :: b :: z :: us) = .diverge := by
  refine diverges (fun n => (monoAt n).type _) (Ev.step (Ev.step (Ev.step (Ev.all fun n => ?_)))) n
  have h1 := hk.start (by decide)
  have h2 : parseSeqOrSeqOf (n + 1) (k :: b :: z :: us) = .diverge := by
    simp [parseSeqOrSeqOf, need, expect, hk.isKeyword, Token.is, hb, Out.bind, seqLoop_stuck h]
  have h3 : parseKind (n + 2) k (b :: z :: us) = .diverge := by
    simp [parseKind, hk.text, isStringType, h2]
  unfold TypeStart at h1
  rw [parseType, if_pos h1, h3]
  rfl

/-- A CHOICE at a stray token. -/
theorem choiceLoop_stray {z} (h : Stray z) (us : Tokens) : ∀ n root groups bare m,
    choiceLoop n root groups bare m (z :: us) = .diverge := by
  intro n
  induction n using Nat.strongRecOn with
  | _ n ih =>
    intro root groups bare m
    cases n with
    | zero => rw [choiceLoop]
    | succ n =>
      rw [choiceLoop]
      have hc : parseComponent n (z :: us) = .diverge ∨ parseComponent n (z :: us) = .err .unexpectedToken := by
        cases n with
        | zero => exact .inl (by rw [parseComponent])
        | succ n => exact .inr (by simp [parseComponent, need, not_isValueRef h.1, Out.bind])
      rcases hc with hc | hc
      · rw [hc]; rfl
      · have hrest : ∀ r b, choiceAfter n r groups b m (z :: us) = .diverge := by
          intro r b
          cases n with
          | zero => rw [choiceAfter]
          | succ n =>
            rw [choiceAfter]
            simp [skip, expect, Token.is, h.2, parseMarker, Out.bind, ih n (by omega)]
        rw [hc]
        simp [Out.attempt, Out.bind, expect, Token.is, h.2, hrest]

theorem choice_diverges {k b z : Token} (hk : Word "CHOICE" k) (hb : b.type = .curlyBegin) (h : Stray z) (us : Tokens)
    (n : Nat) : parseType n (k :: b :: z :: us) = .diverge := by
  refine diverges (fun n => (monoAt n).type _) (Ev.step (Ev.step (Ev.step (Ev.all fun n => ?_)))) n
  have h1 := hk.start (by decide)
  have h2 : parseChoice (n + 1) (k :: b :: z :: us) = .diverge := by
    simp [parseChoice, need, hk.isKeyword, Token.is, hb, Out.bind, choiceLoop_stray h]
  have h3 : parseKind (n + 2) k (b :: z :: us) = .diverge := by
    simp [parseKind, hk.text, isStringType, h2]
  unfold TypeStart at h1
  rw [parseType, if_pos h1, h3]
  rfl

/-- Actual parameters at a reserved word. -/
theorem params_stray {z : Token} (h : z.type = .keyword) (us : Tokens) : ∀ n ps,
    actualParamsLoop n ps (z :: us) = .diverge := by
  intro n
  induction n with
  | zero => exact fun _ => rfl
  | succ n ih =>
    intro ps
    simp [actualParamsLoop, parseSetParam, parseSingleParam, skip, Token.is, h, Out.bind, ih]

theorem params_diverge {x i b z} (hi : UpperName x i) (hb : b.type = .curlyBegin) (hz : z.type = .keyword)
    (us : Tokens) (n : Nat) : parseType n (i :: b :: z :: us) = .diverge := by
  refine diverges (fun n => (monoAt n).type _) (Ev.step (Ev.step (Ev.all fun n => ?_))) n
  have h1 := hi.start
  unfold TypeStart at h1
  rw [parseType, if_pos h1, kind_reference hi]
  simp [parseReference, parseClassField, parseReferenceName, Token.is, hb, parseMaybeParams, parseActualParams, need,
    params_stray hz, Out.bind]

/-- **C86 (violated).** The parser never ends on legal modules that use one of these:
* `SEQUENCE { COMPONENTS OF ...`, or any other SEQUENCE or CHOICE with something other than a component
  at the beginning;
* a SEQUENCE with a tagged component, `a [0] INTEGER`;
* a SEQUENCE with a component of type BOOLEAN and a default, `a BOOLEAN DEFAULT TRUE`;
* a parameterized type with a type of one word as its actual parameter, `List {INTEGER}`;
* a SET with a component whose type starts with a reserved word, `SET { a INTEGER }`. -/
theorem C86_termination_violated :
    (∀ k b z us, Word "SEQUENCE" k ∨ Word "CHOICE" k → b.type = .curlyBegin → Stray z →
      (∀ t ∈ k :: b :: z :: us, t.type ≠ .comment) → Hangs (typeIn (k :: b :: z :: us))) ∧
    (∀ k b x i s us, Word "SEQUENCE" k → b.type = .curlyBegin → LowerName x i → s.type = .squareBegin →
      s.text = ['['] → (∀ t ∈ k :: b :: i :: s :: us, t.type ≠ .comment) →
      Hangs (typeIn (k :: b :: i :: s :: us))) ∧
    (∀ k b x i ty ts d v us, Word "SEQUENCE" k → b.type = .curlyBegin → LowerName x i → TypeNote ty ts →
      Word "DEFAULT" d → Word "TRUE" v ∨ Word "FALSE" v →
      (∀ t ∈ k :: b :: i :: (ts ++ d :: v :: us), t.type ≠ .comment) →
      Hangs (typeIn (k :: b :: i :: (ts ++ d :: v :: us)))) ∧
    (∀ x i b z us, UpperName x i → b.type = .curlyBegin → z.type = .keyword →
      (∀ t ∈ i :: b :: z :: us, t.type ≠ .comment) → Hangs (typeIn (i :: b :: z :: us))) ∧
    (∀ k b x i z us, Word "SET" k → b.type = .curlyBegin → LowerName x i → z.type = .keyword →
      (∀ t ∈ k :: b :: i :: z :: us, t.type ≠ .comment) → Hangs (typeIn (k :: b :: i :: z :: us))) := by
  refine ⟨?_, ?_, ?_, ?_, ?_⟩
  · intro k b z us hk hb hz hc
    rcases hk with hk | hk
    · exact hangs_of_type hc (sequence_diverges hk hb (stray_stuck hz us))
    · exact hangs_of_type hc (choice_diverges hk hb hz us)
  · intro k b x i s us hk hb hi hs hst hc
    refine hangs_of_type hc (sequence_diverges hk hb (untyped_stuck hi ?_ us))
    have h1 := not_isTypeRef (t := s) (by simp [hs])
    have h2 := not_isClassRef (t := s) (by simp [hs])
    have h3 : s.isBuiltin = false := by simp only [Token.isBuiltin, hst]; decide
    simp [TypeStart, h1, h2, h3]
  · intro k b x i ty ts d v us hk hb hi hty hd hv hc
    refine hangs_of_type hc (sequence_diverges hk hb (default_stuck hi hty hd ?_ us))
    rcases hv with h | h <;> exact h.type
  · intro x i b z us hi hb hz hc
    exact hangs_of_type hc (params_diverge hi hb hz us)
  · intro k b x i z us hk hb hi hz hc
    refine hangs_of_type hc fun n => diverges (fun n => (monoAt n).type _)
      (Ev.step (Ev.step (Ev.step (Ev.all fun n => ?_)))) n
    have h1 := hk.start (by decide)
    unfold TypeStart at h1
    rw [parseType, if_pos h1]
    simp [parseKind, hk.text, isStringType, parseReference, parseClassField, parseReferenceName, Token.is, hb,
      parseMaybeParams, parseActualParams, need, actualParamsLoop, parseSetParam, parseSingleParam, skip, hi.type, hz,
      params_stray hz, Out.bind]

/-- `T ::= SET { a INTEGER } END`. -/
example : Hangs (typeIn [kw "SET", tk .curlyBegin "{", nm "a", kw "INTEGER", tk .curlyEnd "}", kw "END"]) :=
  C86_termination_violated.2.2.2.2 _ _ "a".toList _ _ _ (kw_word _) rfl (lower "a" ⟨_, _, rfl, rfl⟩) rfl
    (by simp [kw, nm, tk])

/-- `T ::= SEQUENCE { COMPONENTS OF Base } END`. -/
example : Hangs (typeIn [kw "SEQUENCE", tk .curlyBegin "{", kw "COMPONENTS", kw "OF", nm "Base",
    tk .curlyEnd "}", kw "END"]) :=
  C86_termination_violated.1 _ _ _ _ (.inl (kw_word _)) rfl (by simp [Stray, kw]) (by simp [kw, nm, tk])

/-- `T ::= SEQUENCE { flag BOOLEAN DEFAULT TRUE } END`. -/
example : Hangs (typeIn ([kw "SEQUENCE", tk .curlyBegin "{", nm "flag"] ++ ([kw "BOOLEAN"] ++
    [kw "DEFAULT", kw "TRUE", tk .curlyEnd "}", kw "END"]))) :=
  C86_termination_violated.2.2.1 _ _ "flag".toList _ (.mk .boolean (some [])) [kw "BOOLEAN"] _ _ _ (kw_word _) rfl
    (lower "flag" ⟨_, _, rfl, rfl⟩) (.type (ts := [_]) (us := []) (.simple (.boolean (kw_word _))) .nil)
    (kw_word _) (.inl (kw_word _)) (by simp [kw, nm, tk])

/-- **C86 (partial).** The parser ends on every module in the supported notation. Missing: other
modules, on which it may hang. -/
theorem C86_termination_partial {ms : List ParsedModule} {ts : Tokens}
    (h : ModulesNote ms (ts.filter fun t => !t.is .comment)) : ¬ Hangs ts := by
  obtain ⟨_, n, hn⟩ := C85_written_is_read h
  exact fun hh => by have := hn n (Nat.le_refl _); rw [hh n] at this; cases this

/-- **C86 (partial).** Whatever the file is, the parser hangs only if there is a position in it where one of
five loops takes no token for ever (`SpinsAt`): in a SEQUENCE, CHOICE or addition group of a CHOICE a
token that ends nothing and at which no component can be read, in a list of actual parameters a token
that is no parameter, in an object set a token that is no element. Missing: that there is no such
position in a legal module, which is false (`C86_termination_violated`). -/
theorem C86_hangs_only_where_stuck_partial {ts : Tokens} (h : Hangs ts) :
    ∃ s, s <:+ ts.filter (fun t => !t.is .comment) ∧ SpinsAt s := by
  rcases parse_ends ts with ⟨r, hr, n, hn⟩ | h'
  · exact absurd ((hn n (Nat.le_refl _)).symm.trans (h n)) hr
  · exact h'

/-- `T ::= SEQUENCE { COMPONENTS OF Base } END` meets the hypothesis. -/
example : ∃ s, s <:+ (typeIn [kw "SEQUENCE", tk .curlyBegin "{", kw "COMPONENTS", kw "OF", nm "Base",
    tk .curlyEnd "}", kw "END"]).filter (fun t => !t.is .comment) ∧ SpinsAt s :=
  C86_hangs_only_where_stuck_partial
    (C86_termination_violated.1 _ _ _ _ (.inl (kw_word _)) rfl (by simp [Stray, kw]) (by simp [kw, nm, tk]))

/-! ## C87 -/

/-- **C87 (violated).** The parser panics when the file ends after `OCTET` or `CHARACTER`, or after `<`
in a range. -/
theorem C87_no_panic_violated :
    (∀ t, Word "OCTET" t ∨ Word "CHARACTER" t → Parses (typeIn [t]) .panic) ∧
    (∀ i b v l lt, Word "INTEGER" i → b.type = .roundBegin → WordValue v l → lt.type = .lessThan →
      Parses (typeIn [i, b, l, lt]) .panic) := by
  constructor
  · intro t ht
    refine panics_of_type (by
      intro u hu
      cases List.mem_singleton.mp hu
      rcases ht with h | h <;> simp [h.type]) (Ev.step (Ev.step (Ev.all fun n => ?_)))
    rcases ht with ht | ht
    · have h1 := ht.start (by decide)
      unfold TypeStart at h1
      rw [parseType, if_pos h1]
      simp [parseKind, ht.text, twoWords, Out.bind]
    · have h1 := ht.start (by decide)
      unfold TypeStart at h1
      rw [parseType, if_pos h1]
      simp [parseKind, ht.text, twoWords, Out.bind]
  · intro i b v l lt hi hb hv hlt
    have hl : l.type ≠ .comment ∧ l.type ≠ .curlyBegin ∧ l.type ≠ .keyword ∧ l.type ≠ .roundBegin := by
      rcases hv.2 with h | h | h | h | h <;> simp [h]
    refine panics_of_type (by simp [hi.type, hb, hl.1, hlt]) ?_
    have hel : Ev fun n => parseElements n [l, lt] = .panic := by
      refine Ev.step (Ev.step (Ev.all fun n => ?_))
      simp [parseElements, not_isKeyword hl.2.2.1, parseElementsRest, parseRange, parseEndPoint, wordValue_reads hv,
        Out.attempt, Out.bind, parseLowerMark, Token.is, hlt]
    have hin : Ev fun n => interLoop n [] false [l, lt] = .panic :=
      Ev.step (hel.imp fun n hn => by simp [interLoop, hn, Out.attempt, Out.bind])
    have hun : Ev fun n => unionLoop n [] [l, lt] = .panic :=
      Ev.step (hin.imp fun n hn => by simp [unionLoop, hn, Out.bind])
    have hes : Ev fun n => parseElementSet n [b, l, lt] = .panic :=
      Ev.step (hun.imp fun n hn => by simp [parseElementSet, need, Token.is, hb, hn, Out.bind])
    have hco : Ev fun n => parseConstraint n [b, l, lt] = .panic :=
      Ev.step (hes.imp fun n hn => by simp [parseConstraint, hn, Out.attempt, Out.bind])
    have hcs : Ev fun n => parseConstraints n [b, l, lt] = .panic :=
      Ev.step (hco.imp fun n hn => by simp [parseConstraints, hn, Out.attempt, Out.bind])
    have hk : Ev fun n => parseKind n i [b, l, lt] = .ok (.integer none, [b, l, lt]) :=
      Ev.step (Ev.all fun n => by
        simp [parseKind, hi.text, parseInteger, need, hi.isKeyword, Out.bind, parseMaybeNamedValues, Token.is, hb])
    refine Ev.step ((hk.and hcs).imp fun n hn => ?_)
    have h1 := hi.start (by decide)
    unfold TypeStart at h1
    rw [parseType, if_pos h1, hn.1]
    simp [Out.bind, hn.2]

example : Parses (typeIn [kw "OCTET"]) .panic := C87_no_panic_violated.1 _ (.inl (kw_word _))

/-- **C87 (partial).** The parser panics on no other input: when it panics, the last token that is not a
comment is `OCTET`, `CHARACTER` or `<`. In particular it does not panic on a file that ends with `END`.
Missing: those files. -/
theorem C87_no_panic_partial {ts : Tokens} {n : Nat} (h : parse n ts = .panic) :
    ∃ t, (ts.filter fun t => !t.is .comment).getLast? = some t ∧
      (t.text = "OCTET".toList ∨ t.text = "CHARACTER".toList ∨ t.type = .lessThan) :=
  modulesLoop_calm n [] _ h

/-! ## C88 -/

/-- No comments among the tokens. -/
def NoComments (ts : Tokens) : Prop := ∀ t ∈ ts, t.type ≠ .comment

theorem NoComments.append {a b : Tokens} (ha : NoComments a) (hb : NoComments b) : NoComments (a ++ b) :=
  fun t ht => (List.mem_append.mp ht).elim (ha t) (hb t)

theorem NoComments.cons {t : Token} {b : Tokens} (ht : t.type ≠ .comment) (hb : NoComments b) :
    NoComments (t :: b) := fun u hu => (List.mem_cons.mp hu).elim (fun h => h ▸ ht) (hb u)

theorem NoComments.nil : NoComments [] := nofun

/-- The module `M` with the type `T`. -/
def justT (ty : AsnType) : List ParsedModule :=
  [⟨"M".toList, [], [("T".toList, ⟨"T".toList, .type ty, none⟩)]⟩]

theorem stop_end : Stop [kw "END"] := by
  intro t ht
  simp at ht
  subst ht
  simp [kw]

theorem kind_to_type {t k us} {rest : Tokens} (ht : TypeStart t) (hr : Stop rest)
    (h : Ev fun n => parseKind n t us = .ok (k, rest)) :
    Ev fun n => parseType n (t :: us) = .ok (.mk k (some []), rest) :=
  type_of_kind ht h (constraints_stops fun t ht => (hr t ht).2.2)

/-- **C88 (violated).** A component written after `...`, outside of an addition group, is an extension
addition of the SEQUENCE; the parser makes it one more component of the root, after the others. A peer
that knows the type without the addition is sent something it cannot read. -/
theorem C88_addition_in_root_violated {t b c ts m x d c' ts' e} (ht : Word "SEQUENCE" t) (hb : b.type = .curlyBegin)
    (hc : SeqCompNote c ts) (hm : m.type = .comma) (hx : x.type = .extension) (hd : d.type = .comma)
    (hc' : SeqCompNote c' ts') (he : e.type = .curlyEnd) (h1 : NoComments ts) (h2 : NoComments ts') :
    Parses (typeIn (t :: b :: (ts ++ m :: x :: d :: (ts' ++ [e])) ++ [kw "END"]))
      (.ok (justT (.mk (.sequence [c, c'] [] true) (some [])))) := by
  refine reads_of_type (show NoComments _ from .cons (by simp [ht.type]) (.cons (by simp [hb]) (h1.append (.cons
    (by simp [hm]) (.cons (by simp [hx]) (.cons (by simp [hd]) (h2.append (.cons (by simp [he]) .nil)))))))) ?_
  simp only [List.cons_append, List.append_assoc, List.nil_append]
  refine kind_to_type (ht.start (by decide)) stop_end (kind_of_seqLoop ht hb ?_)
  obtain ⟨i, us, rfl, hi⟩ := seqComp_head hc'
  refine seqLoop_of_component (by simp [hm]) (seqComp_reads hc m _ (.inl hm)) ?_
  refine (seqAfter_marker hx hd (by simp [hi]) ?_).2 m hm
  exact seqLoop_of_component (by simp [he]) (seqComp_reads hc' e _ (.inr (.inl he))) (seqAfter_end he)

/-- `SEQUENCE { a INTEGER, ..., b BOOLEAN }`. -/
example : Parses (typeIn (kw "SEQUENCE" :: tk .curlyBegin "{" :: ([nm "a", kw "NULL"] ++ tk .comma "," ::
    tk .extension "..." :: tk .comma "," :: ([nm "b", kw "BOOLEAN"] ++ [tk .curlyEnd "}"])) ++ [kw "END"]))
    (.ok (justT (.mk (.sequence [.mk "a".toList (.mk .null (some [])) false none,
      .mk "b".toList (.mk .boolean (some [])) false none] [] true) (some [])))) :=
  C88_addition_in_root_violated (kw_word _) rfl
    (.required (lower "a" ⟨_, _, rfl, rfl⟩) (.type (ts := [_]) (us := []) (.simple (.null (kw_word _))) .nil)) rfl rfl rfl
    (.required (lower "b" ⟨_, _, rfl, rfl⟩) (.type (ts := [_]) (us := []) (.simple (.boolean (kw_word _))) .nil)) rfl
    (by simp [NoComments, nm, kw]) (by simp [NoComments, nm, kw])

/-- **C88 (partial).** Components before the first and after the second `...` are root components and
components in addition groups are additions, in the order in which they are written: part of
`C85_written_is_read`, here for a type by itself. Missing: additions outside of groups. -/
theorem C88_sequence_partial {t b cs gs j ts e} (ht : Word "SEQUENCE" t) (hb : b.type = .curlyBegin)
    (h : SeqItems 0 cs gs j ts) (he : e.type = .curlyEnd) (h1 : NoComments ts) :
    Parses (typeIn (t :: b :: (ts ++ [e]) ++ [kw "END"]))
      (.ok (justT (.mk (.sequence cs gs (0 < j)) (some [])))) := by
  have hn : NoComments (t :: b :: (ts ++ [e])) := .cons (by simp [ht.type]) (.cons (by simp [hb])
    (h1.append (.cons (by simp [he]) .nil)))
  refine reads_of_type hn ?_
  have := type_reads (.type (us := []) (.sequence ht hb h he) .nil) [kw "END"] stop_end
  simpa using this

/-- `SEQUENCE { a NULL, ..., [[ b BOOLEAN ]], ..., c NULL }`. -/
example : Parses (typeIn (kw "SEQUENCE" :: tk .curlyBegin "{" :: ([nm "a", kw "NULL", tk .comma ",",
    tk .extension "...", tk .comma ",", tk .additionGroupsBegin "[[", nm "b", kw "BOOLEAN",
    tk .additionGroupsEnd "]]", tk .comma ",", tk .extension "...", tk .comma ",", nm "c", kw "NULL"] ++
      [tk .curlyEnd "}"]) ++ [kw "END"]))
    (.ok (justT (.mk (.sequence [.mk "a".toList (.mk .null (some [])) false none,
      .mk "c".toList (.mk .null (some [])) false none]
      [.mk none [.mk "b".toList (.mk .boolean (some [])) false none]] true) (some [])))) := by
  refine C88_sequence_partial (j := 2) (kw_word _) rfl ?_ rfl (by simp [NoComments, nm, kw, tk])
  have comp (s k) (t : Token) (hs : ∃ c cs, s.toList = c :: cs ∧ c.isLower = true) (hk : SimpleNote k [t]) :
      SeqCompNote (.mk s.toList (.mk k (some [])) false none) [nm s, t] :=
    .required (lower s hs) (.type (ts := [_]) (us := []) (.simple hk) .nil)
  refine .component (ts := [_, _]) (by decide) (comp "a" _ _ ⟨_, _, rfl, rfl⟩ (.null (kw_word _))) (.more rfl ?_)
  refine .marker (by decide) rfl (.more rfl ?_)
  refine .group (ts := [_, _, _, _]) (.mk (ts := []) (us := [_, _]) rfl .none
    (.one (comp "b" _ _ ⟨_, _, rfl, rfl⟩ (.boolean (kw_word _)))) rfl) (.more rfl ?_)
  refine .marker (by decide) rfl (.more rfl ?_)
  exact .component (ts := [_, _]) (us := []) (by decide) (comp "c" _ _ ⟨_, _, rfl, rfl⟩ (.null (kw_word _))) .done

/-! ## C89 -/

/-- **C89 (violated).** An alternative written after `...` outside of an addition group and before an
addition group comes first among the additions of the CHOICE; the parser puts it after the group, which
changes the index of both. -/
theorem C89_addition_order_violated {t b c ts m x d c' ts' m' g us e} (ht : Word "CHOICE" t) (hb : b.type = .curlyBegin)
    (hc : CompNote c ts) (hm : m.type = .comma) (hx : x.type = .extension) (hd : d.type = .comma)
    (hc' : CompNote c' ts') (hm' : m'.type = .comma) (hg : ChoiceGroupNote g us) (he : e.type = .curlyEnd)
    (h1 : NoComments ts) (h2 : NoComments ts') (h3 : NoComments us) :
    Parses (typeIn (t :: b :: (ts ++ m :: x :: d :: (ts' ++ m' :: (us ++ [e]))) ++ [kw "END"]))
      (.ok (justT (.mk (.choice [c] (some [g, .mk none [c']])) (some [])))) := by
  refine reads_of_type (show NoComments _ from .cons (by simp [ht.type]) (.cons (by simp [hb]) (h1.append (.cons
    (by simp [hm]) (.cons (by simp [hx]) (.cons (by simp [hd]) (h2.append (.cons (by simp [hm']) (h3.append (.cons (by simp [he])
    .nil)))))))))) ?_
  simp only [List.cons_append, List.append_assoc, List.nil_append]
  refine kind_to_type (ht.start (by decide)) stop_end (kind_of_choiceLoop ht hb ?_)
  have hgr := choiceGroup_reads hg (e :: [kw "END"])
  obtain ⟨i, vs, rfl, hi⟩ := comp_head hc'
  obtain ⟨z, ws, rfl, hz⟩ := choiceGroup_head hg
  refine choiceLoop_of_root (by simp [hm]) (comp_reads hc m _ (.inl hm)) ?_
  refine (choiceAfter_marker hx hd (by simp [hi]) ?_).2 m hm
  refine choiceLoop_of_bare (by simp [hm']) (comp_reads hc' m' _ (.inl hm')) ?_
  refine choiceAfter_comma hm' (by simp [hz]) (by simp [hz]) ?_
  exact choiceLoop_of_group hz hgr (choiceAfter_end he)

/-- **C89 (violated).** A CHOICE with a second `...`, `CHOICE { a NULL, ..., ... }`, is refused. -/
theorem C89_second_marker_violated {t b c ts m x d y e} (ht : Word "CHOICE" t) (hb : b.type = .curlyBegin)
    (hc : CompNote c ts) (hm : m.type = .comma) (hx : x.type = .extension) (hd : d.type = .comma)
    (hy : y.type = .extension) (h1 : NoComments ts) (he : e.type = .curlyEnd) :
    Parses (typeIn (t :: (b :: (ts ++ [m, x, d, y, e]) ++ [kw "END"]))) (.err .parse) := by
  refine fails_of_type (by simp [Token.isKeyword, ht.text]) ?_ (by simp [ht.type]) ?_
  · exact NoComments.append (.cons (by simp [hb]) (h1.append (by simp [NoComments, hm, hx, hd, hy, he])))
      (by simp [NoComments, kw])
  have h2 : Ev fun n => choiceLoop n [c] [] [] 1 [y, e, kw "END"] = .err .parse := by
    refine Ev.step (Ev.step ((Ev.down (component_stops (z := y) (by simp [hy]) [e, kw "END"])).imp fun n hn => ?_))
    simp [choiceLoop, hn, Out.attempt, Out.bind, expect, Token.is, hy, choiceAfter, skip]
  have h3 : Ev fun n => choiceLoop n [] [] [] 0 (ts ++ [m, x, d, y, e, kw "END"]) = .err .parse := by
    refine Ev.step (Ev.step (((Ev.down (comp_reads hc m [x, d, y, e, kw "END"] (.inl hm))).and h2).imp fun n hn => ?_))
    simp [choiceLoop, hn, Out.attempt, Out.bind, expect, Token.is, hm, choiceAfter, skip, hx, parseMarker, hd, hy]
  refine Ev.step (Ev.step (Ev.step (h3.imp fun n hn => ⟨.parse, ?_⟩)))
  have := ht.start (by decide)
  unfold TypeStart at this
  simp [parseType, this, parseKind, ht.text, isStringType, parseChoice, need, ht.isKeyword, Token.is, hb, Out.bind, hn]

/-- An alternative for the examples. -/
theorem alternative (s k) (t : Token) (hs : ∃ c cs, s.toList = c :: cs ∧ c.isLower = true)
    (hk : SimpleNote k [t]) : CompNote (.mk s.toList (.mk k (some []))) [nm s, t] :=
  .mk (lower s hs) (.type (ts := [_]) (us := []) (.simple hk) .nil)

/-- `CHOICE { a NULL, ..., b NULL, [[ c BOOLEAN ]] }`. -/
example : Parses (typeIn (kw "CHOICE" :: tk .curlyBegin "{" :: ([nm "a", kw "NULL"] ++ tk .comma "," ::
    tk .extension "..." :: tk .comma "," :: ([nm "b", kw "NULL"] ++ tk .comma "," ::
    ([tk .additionGroupsBegin "[[", nm "c", kw "BOOLEAN", tk .additionGroupsEnd "]]"] ++ [tk .curlyEnd "}"]))) ++
      [kw "END"]))
    (.ok (justT (.mk (.choice [.mk "a".toList (.mk .null (some []))]
      (some [.mk none [.mk "c".toList (.mk .boolean (some []))],
        .mk none [.mk "b".toList (.mk .null (some []))]])) (some [])))) :=
  C89_addition_order_violated (kw_word _) rfl (alternative "a" _ _ ⟨_, _, rfl, rfl⟩ (.null (kw_word _))) rfl rfl rfl
    (alternative "b" _ _ ⟨_, _, rfl, rfl⟩ (.null (kw_word _))) rfl
    (.mk (ts := []) (us := [_, _]) rfl .none (.one (alternative "c" _ _ ⟨_, _, rfl, rfl⟩ (.boolean (kw_word _)))) rfl)
    rfl (by simp [NoComments, nm, kw]) (by simp [NoComments, nm, kw]) (by simp [NoComments, nm, kw, tk])

/-- `CHOICE { a NULL, ..., ... }`. -/
example : Parses (typeIn (kw "CHOICE" :: (tk .curlyBegin "{" :: ([nm "a", kw "NULL"] ++ [tk .comma ",",
    tk .extension "...", tk .comma ",", tk .extension "...", tk .curlyEnd "}"]) ++ [kw "END"]))) (.err .parse) :=
  C89_second_marker_violated (kw_word _) rfl (alternative "a" _ _ ⟨_, _, rfl, rfl⟩ (.null (kw_word _))) rfl rfl rfl
    rfl (by simp [NoComments, nm, kw]) rfl

/-- **C89 (partial).** With one `...` or none, and the additions outside of groups after all groups, the
alternatives and the additions are read in the order in which they are written. Missing: a second
`...`, and additions outside of groups before a group. -/
theorem C89_choice_partial {t b cs gs bs x ts e} (ht : Word "CHOICE" t) (hb : b.type = .curlyBegin)
    (h : ChoiceItems 0 cs gs bs x ts) (he : e.type = .curlyEnd) (h1 : NoComments ts) :
    Parses (typeIn (t :: b :: (ts ++ [e]) ++ [kw "END"]))
      (.ok (justT (.mk (.choice cs (additionsOf x gs bs)) (some [])))) := by
  have hn : NoComments (t :: b :: (ts ++ [e])) := .cons (by simp [ht.type]) (.cons (by simp [hb])
    (h1.append (.cons (by simp [he]) .nil)))
  refine reads_of_type hn ?_
  have := type_reads (.type (us := []) (.choice ht hb h he) .nil) [kw "END"] stop_end
  simpa using this

/-- `CHOICE { a NULL, ..., [[ c BOOLEAN ]], b NULL }`. -/
example : Parses (typeIn (kw "CHOICE" :: tk .curlyBegin "{" :: ([nm "a", kw "NULL", tk .comma ",",
    tk .extension "...", tk .comma ",", tk .additionGroupsBegin "[[", nm "c", kw "BOOLEAN",
    tk .additionGroupsEnd "]]", tk .comma ",", nm "b", kw "NULL"] ++ [tk .curlyEnd "}"]) ++ [kw "END"]))
    (.ok (justT (.mk (.choice [.mk "a".toList (.mk .null (some []))]
      (some [.mk none [.mk "c".toList (.mk .boolean (some []))],
        .mk none [.mk "b".toList (.mk .null (some []))]])) (some [])))) := by
  refine C89_choice_partial (x := true) (gs := [.mk none [.mk "c".toList (.mk .boolean (some []))]])
    (bs := [.mk "b".toList (.mk .null (some []))]) (kw_word _) rfl ?_ rfl (by simp [NoComments, nm, kw, tk])
  refine .root (ts := [_, _]) (alternative "a" _ _ ⟨_, _, rfl, rfl⟩ (.null (kw_word _))) (.more rfl ?_)
  refine .marker rfl (.more rfl ?_)
  refine .group (ts := [_, _, _, _]) (.mk (ts := []) (us := [_, _]) rfl .none (.one (alternative "c" _ _ ⟨_, _, rfl, rfl⟩
    (.boolean (kw_word _)))) rfl) (.more rfl ?_)
  exact .bare (ts := [_, _]) (us := []) (by decide) (alternative "b" _ _ ⟨_, _, rfl, rfl⟩ (.null (kw_word _))) .done

end Hampi.Compiler.Props
