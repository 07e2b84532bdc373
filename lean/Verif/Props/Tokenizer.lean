import Verif.Lemmas.Tokens
/-!
# Properties of the tokenizer (C50–C53, C65–C67)

`Spec.Tiles` says how a text is made of tokens; see `Verif.Spec.Tokens`.
-/
namespace Hampi.Compiler

open Spec

/-- ASCII digits only: an instance of the parameter, used in the examples. -/
def ascii : Unicode := ⟨Char.isDigit, fun _ h => h, by decide⟩

/-- `id INTEGER ::= -5 -- five`, on two lines. -/
def sample : List Char := "id INTEGER\n ::= -5 -- five".toList

theorem _root_.Hampi.Spec.Tiles.blank {u : Unicode} {at_ : List Char → LineColumn → Prop} {before rest : List Char}
    {c : Char} {ts : List Token} (hc : Blank c) (h : Tiles u at_ (before ++ [c]) rest ts) :
    Tiles u at_ before (c :: rest) ts := by
  cases h with
  | done hg =>
    exact .done fun d hd => by
      rcases List.mem_cons.mp hd with rfl | hd
      · exact hc
      · exact hg d hd
  | token hg hr hs hk hl ht =>
    rename_i gap raw rest t ts
    refine .token (gap := c :: gap) (raw := raw) (rest := rest) (fun d hd => ?_) hr hs hk ?_ ?_
    · rcases List.mem_cons.mp hd with rfl | hd
      · exact hc
      · exact hg d hd
    · simpa using hl
    · simpa using ht

/-- The loop, for any invariant on positions kept by each turn, given a property `Q` of all tokens and
a property `N` of all characters. -/
theorem tokenizeFrom_tiles (u : Unicode) (at_ : List Char → LineColumn → Prop) (Q : Token → Prop)
    (N : Char → Prop) (chars : List Char) (line column : Nat) (before : List Char) (ts : List Token)
    (hpos : at_ before ⟨line, column⟩) (hall : ∀ t ∈ ts, Q t)
    (hN : ∀ c ∈ chars, N c)
    (hstep : ∀ before chars line column s, StepGood u chars line column s →
      (∀ t, s.token = some t → Q t) → at_ before ⟨line, column⟩ → chars.drop s.consumed ≠ [] →
      (∀ c ∈ chars, N c) →
      at_ (before ++ chars.take s.consumed) ⟨s.line, s.column⟩)
    (h : tokenizeFrom u chars line column = .ok ts) : Tiles u at_ before chars ts := by
  fun_induction tokenizeFrom u chars line column generalizing before ts with
  | case1 => cases h
  | case2 => cases h
  | case3 => cases h
  | case4 chars line column s hs hlen =>
    cases h
    have g := step_good u hs
    have htake : chars.take s.consumed = chars := by rw [hlen]; exact List.take_length
    rcases g.what with ⟨ht, c, hc, hb, -⟩ | ⟨t, ht, hg, -⟩
    · rw [ht, ← htake, hc]
      exact .done (fun d hd => by
        rcases List.mem_cons.mp hd with rfl | hd
        · exact hb
        · cases hd)
    · rw [ht]
      have h1 := hg.shape
      have h2 := hg.kept
      have h3 := hg.start
      simp only [hlen, List.take_length, List.drop_length] at h1 h2
      have := Tiles.token (at_ := at_) (before := before) (gap := []) (raw := chars) (rest := [])
        (t := t) (ts := []) nofun ?_ h1 h2 (by rw [h3, List.append_nil]; exact hpos) (.done nofun)
      · simpa using this
      · intro e
        have := g.pos
        rw [e] at hlen
        simp at hlen
        omega
  | case5 => cases h
  | case6 => cases h
  | case7 chars line column s hs h1 h2 h3 ih =>
    obtain ⟨ts', h4, h5⟩ := Out.bind_eq_ok h
    cases h5
    have g := step_good u hs
    have hne : chars.drop s.consumed ≠ [] := by
      intro e
      have := congrArg List.length e
      rw [List.length_drop] at this
      simp at this
      omega
    have ih := ih (before ++ chars.take s.consumed) ts'
      (hstep before chars line column s g (fun t ht => hall t (by simp [ht])) hpos hne hN)
      (fun t ht => hall t (List.mem_append_right _ ht)) (fun c hc => hN c (List.mem_of_mem_drop hc)) h4
    rcases g.what with ⟨ht, c, hc, hb, -⟩ | ⟨t, ht, hg, -⟩
    · rw [ht]
      rw [hc] at ih
      have := Tiles.blank hb ih
      rw [← List.singleton_append, ← hc, List.take_append_drop] at this
      exact this
    · rw [ht]
      have h6 := hg.start
      have := Tiles.token (at_ := at_) (before := before) (gap := []) nofun ?_ hg.shape hg.kept
        (by rw [h6, List.append_nil]; exact hpos) (by simpa using ih)
      · simpa using this
      · intro e
        have h7 := congrArg List.length e
        rw [List.length_take, List.length_nil] at h7
        have := g.pos
        omega

theorem tokenizeFrom_next {u : Unicode} {chars : List Char} {line column : Nat} {s : Step}
    (h : step u chars line column = .ok s) (h1 : 0 < s.consumed) (h2 : s.consumed < chars.length) :
    tokenizeFrom u chars line column =
      (tokenizeFrom u (chars.drop s.consumed) s.line s.column).bind fun ts =>
        .ok (s.token.toList ++ ts) := by
  rw [tokenizeFrom, h]
  dsimp only
  rw [if_neg (by omega), if_neg (by omega), dif_neg (by omega)]

theorem tokenizeFrom_last {u : Unicode} {chars : List Char} {line column : Nat} {s : Step}
    (h : step u chars line column = .ok s) (h1 : s.consumed = chars.length) :
    tokenizeFrom u chars line column = .ok s.token.toList := by
  rw [tokenizeFrom, h]
  dsimp only
  rw [if_pos h1]

/-- **C50.** On success the text is exactly the source of the returned tokens, in order, separated by
blank characters only. -/
theorem C50_lossless (u : Unicode) (chars : List Char) (ts : List Token)
    (h : tokenize u chars = .ok ts) : Tiles u (fun _ _ => True) [] chars ts :=
  tokenizeFrom_tiles u _ (fun _ => True) (fun _ => True) chars 1 0 [] ts trivial
    (fun _ _ => trivial) (fun _ _ => trivial) (fun _ _ _ _ _ _ _ _ _ _ => trivial) h

-- The sample is accepted; its tokens and their texts:
set_option maxRecDepth 8000 in
example : (match tokenize ascii sample with
    | .ok ts => some (ts.map fun t => (t.type, String.ofList t.text))
    | _ => none) =
    some [(.identifier, "id"), (.keyword, "INTEGER"), (.assignment, "::="), (.numberInt, "-5"),
      (.comment, "-- five")] := by decide +kernel

/-- **C65.** The reported line of every token is the line it starts on. -/
theorem C65_lines (u : Unicode) (chars : List Char) (ts : List Token)
    (h : tokenize u chars = .ok ts) : Tiles u OnLine [] chars ts := by
  refine tokenizeFrom_tiles u _ (fun _ => True) (fun _ => True) chars 1 0 [] ts rfl
    (fun _ _ => trivial) (fun _ _ => trivial) ?_ h
  intro before chars line column s g _ hp hne _
  have := g.line_eq hne
  unfold OnLine at *
  dsimp only at *
  rw [List.count_append, this, hp]
  omega

/-- **C66 (partial).** Full statement: the reported column of every token is its column in the source.
Proved for texts without byte order marks in which no token spans lines. Missing: after a token that
spans lines the column is that of its last line in octets, and one too small after a bit or
hexadecimal string (`C66_after_split_string_violated`). -/
theorem C66_columns_partial (u : Unicode) (chars : List Char) (ts : List Token)
    (hbom : '\uFEFF' ∉ chars) (h1 : ∀ t ∈ ts, OneLine t)
    (h : tokenize u chars = .ok ts) : Tiles u AtPosition [] chars ts := by
  refine tokenizeFrom_tiles u _ OneLine (fun c => c ≠ '\uFEFF') chars 1 0 [] ts ⟨rfl, rfl⟩ h1
    (fun c hc e => hbom (e ▸ hc)) ?_ h
  intro before chars line column s g hq hp hne hN
  have hl := g.line_eq hne
  refine ⟨?_, ?_⟩
  · have hline : line = 1 + before.count '\n' := hp.1
    dsimp only at *
    rw [List.count_append, hl, hline]
    omega
  · have hcol := hp.2
    dsimp only at *
    have key : ∀ w : List Char, '\n' ∉ w →
        ((before ++ w).reverse.takeWhile (· ≠ '\n')).length =
          w.length + (before.reverse.takeWhile (· ≠ '\n')).length := by
      intro w hw
      rw [List.reverse_append, List.takeWhile_append_of_pos, List.length_append, List.length_reverse]
      intro c hc
      have := List.mem_reverse.mp hc
      simp only [decide_eq_true_eq, ne_eq]
      exact fun e => hw (e ▸ this)
    rcases g.what with ⟨-, c, hc, -, hcc⟩ | ⟨t, ht, hg, hcc⟩
    · rw [hc]
      rcases hcc with ⟨rfl, e⟩ | ⟨rfl, e⟩ | ⟨hn, e⟩
      · rw [e]; simp
      · refine absurd rfl (hN '\uFEFF' ?_)
        exact List.mem_of_mem_take (i := s.consumed) (by rw [hc]; simp)
      · rw [e, key [c] (by simpa using fun e => hn e.symm)]
        rw [hcol]; simp; omega
    · have ho := hq t ht
      have hs : t.start = ⟨line, column⟩ := hg.start
      unfold OneLine at ho
      rw [hs] at ho
      obtain ⟨h2, h3⟩ := hcc ho
      rw [h2, key _ (h3 hne), hcol, List.length_take]
      have := g.le
      omega

-- The sample satisfies the hypotheses.
set_option maxRecDepth 8000 in
example : '\uFEFF' ∉ sample ∧ (match tokenize ascii sample with
    | .ok ts => ts.all fun t => t.stop.line = t.start.line
    | _ => false) = true := by decide +kernel

/-- **C66 is violated** after a bit string written on two lines: the next token is reported one column
too early. -/
theorem C66_after_split_string_violated (u : Unicode) :
    ∃ ts, tokenize u "'0\n1'B {".toList = .ok ts ∧
      (ts.map fun t => (t.type, t.start)) = [(.bitString, ⟨1, 0⟩), (.curlyBegin, ⟨2, 3⟩)] ∧
      ¬ AtPosition "'0\n1'B ".toList ⟨2, 3⟩ := by
  refine ⟨[⟨.bitString, ⟨1, 0⟩, ⟨2, 2⟩, ['\'', '0', '1', '\'']⟩, ⟨.curlyBegin, ⟨2, 3⟩, ⟨2, 4⟩, ['{']⟩],
    ?_, rfl, ?_⟩
  · unfold tokenize
    rw [tokenizeFrom_next (s := ⟨6, some ⟨.bitString, ⟨1, 0⟩, ⟨2, 2⟩, ['\'', '0', '1', '\'']⟩, 2, 2⟩)
      (by rfl) (by decide) (by decide)]
    rw [tokenizeFrom_next (s := ⟨1, none, 2, 3⟩) (by rfl) (by decide) (by decide)]
    rw [tokenizeFrom_last (s := ⟨1, some ⟨.curlyBegin, ⟨2, 3⟩, ⟨2, 4⟩, ['{']⟩, 2, 4⟩) (by rfl)
      (by decide)]
    rfl
  · unfold AtPosition; decide

/-- **C66 is violated** after a string written on two lines, where the octets of the last line are counted and not
its characters. -/
theorem C66_octets_violated (u : Unicode) :
    ∃ ts, tokenize u "\"\n\u00e9\" {".toList = .ok ts ∧
      (ts.map fun t => (t.type, t.start)) = [(.tString, ⟨1, 0⟩), (.curlyBegin, ⟨2, 4⟩)] ∧
      ¬ AtPosition "\"\n\u00e9\" ".toList ⟨2, 4⟩ ∧ AtPosition "\"\n\u00e9\" ".toList ⟨2, 3⟩ := by
  refine ⟨[⟨.tString, ⟨1, 0⟩, ⟨2, 3⟩, ['"', '\u00e9', '"']⟩, ⟨.curlyBegin, ⟨2, 4⟩, ⟨2, 5⟩, ['{']⟩],
    ?_, rfl, ?_, ?_⟩
  · unfold tokenize
    rw [tokenizeFrom_next (s := ⟨4, some ⟨.tString, ⟨1, 0⟩, ⟨2, 3⟩, ['"', '\u00e9', '"']⟩, 2, 3⟩)
      (by rfl) (by decide) (by decide)]
    rw [tokenizeFrom_next (s := ⟨1, none, 2, 4⟩) (by rfl) (by decide) (by decide)]
    rw [tokenizeFrom_last (s := ⟨1, some ⟨.curlyBegin, ⟨2, 4⟩, ⟨2, 5⟩, ['{']⟩, 2, 5⟩) (by rfl)
      (by decide)]
    rfl
  · unfold AtPosition; decide
  · unfold AtPosition; decide

/-! ## C51 -/

theorem tokenizeFrom_not_diverge (u : Unicode) (chars : List Char) (line column : Nat) :
    tokenizeFrom u chars line column ≠ .diverge := by
  fun_induction tokenizeFrom u chars line column with
  | case1 => nofun
  | case2 => nofun
  | case3 chars line column h => exact absurd h (step_not_diverge u chars line column)
  | case4 => nofun
  | case5 => nofun
  | case6 chars line column s hs h1 h2 h3 => exact absurd h3 (Nat.ne_of_gt (step_good u hs).pos)
  | case7 chars line column s hs h1 h2 h3 ih => exact Out.bind_ne_diverge ih fun _ => nofun

/-- **C51.** The tokenizer ends on every text. -/
theorem C51_terminates (u : Unicode) (chars : List Char) : tokenize u chars ≠ .diverge :=
  tokenizeFrom_not_diverge u chars 1 0

theorem _root_.Hampi.Spec.Tiles.length_le {u : Unicode} {at_ : List Char → LineColumn → Prop} {before rest : List Char}
    {ts : List Token} (h : Tiles u at_ before rest ts) : ts.length ≤ rest.length := by
  induction h with
  | done => simp
  | token _ hr _ _ _ _ ih =>
    have := List.length_pos_iff.mpr hr
    simp only [List.length_cons, List.length_append]; omega

/-- **C51.** Every turn of the loop takes at least one character, so there are at most as many turns,
and tokens, as characters. -/
theorem C51_progress (u : Unicode) (chars : List Char) (line column : Nat) (s : Step)
    (h : step u chars line column = .ok s) : 0 < s.consumed ∧ s.consumed ≤ chars.length :=
  ⟨(step_good u h).pos, (step_good u h).le⟩

theorem C51_token_count (u : Unicode) (chars : List Char) (ts : List Token)
    (h : tokenize u chars = .ok ts) : ts.length ≤ chars.length :=
  (C50_lossless u chars ts h).length_le

/-! ## C52 -/

theorem _root_.Hampi.Spec.Boundary.suffix {u : Unicode} {chars rest : List Char}
    (h : Boundary u chars rest) : rest <:+ chars := by
  induction h with
  | here => exact List.suffix_refl _
  | blank _ _ ih => exact ih.trans (List.suffix_cons _ _)
  | token _ _ _ ih => exact ih.trans (List.suffix_append _ _)

theorem tokenizeFrom_panic (u : Unicode) (chars : List Char) (line column : Nat)
    (h : tokenizeFrom u chars line column = .panic) :
    chars = [] ∨ ∃ rest, Boundary u chars rest ∧ (rest = ['-'] ∨ rest = ['['] ∨ rest = [']'] ∨
      ∃ c cs, rest = c :: cs ∧ ¬ Starts c) := by
  fun_induction tokenizeFrom u chars line column with
  | case1 => cases h
  | case2 chars line column hs =>
    rcases step_panic u hs with h | h
    · exact .inl h
    · exact .inr ⟨chars, .here, h⟩
  | case3 => cases h
  | case4 => cases h
  | case5 chars line column s hs h1 h2 =>
    have := (step_good u hs).le
    omega
  | case6 => cases h
  | case7 chars line column s hs h1 h2 h3 ih =>
    rcases Out.bind_eq_panic h with h | ⟨_, -, h⟩
    · rcases ih h with ih | ⟨rest, h4, h5⟩
      · have := congrArg List.length ih
        rw [List.length_drop] at this
        simp at this
        omega
      · refine .inr ⟨rest, ?_, h5⟩
        have g := step_good u hs
        rw [← List.take_append_drop s.consumed chars]
        rcases g.what with ⟨-, c, hc, hb, -⟩ | ⟨t, -, hg, -⟩
        · rw [hc]; exact .blank hb h4
        · refine .token (fun e => ?_) hg.shape h4
          have h7 := congrArg List.length e
          rw [List.length_take, List.length_nil] at h7
          have := g.pos
          omega
    · cases h

/-- **C52 (partial).** Full statement: the tokenizer returns `Ok` or `Err` on every text. Proved for
all texts that are not empty and in which nothing that starts where a token could start is a lone
hyphen or square bracket at the end of the text, or a character outside the ASN.1 character set.
Missing, because false: those texts (below). -/
theorem C52_no_panic_partial (u : Unicode) (chars : List Char) (hne : chars ≠ [])
    (h : ∀ rest, Boundary u chars rest → rest ≠ ['-'] ∧ rest ≠ ['['] ∧ rest ≠ [']'] ∧
      ∀ c, rest.head? = some c → Starts c) : tokenize u chars ≠ .panic := by
  intro hp
  rcases tokenizeFrom_panic u chars 1 0 hp with h1 | ⟨rest, hb, h1⟩
  · exact hne h1
  · obtain ⟨h2, h3, h4, h5⟩ := h rest hb
    rcases h1 with h1 | h1 | h1 | ⟨c, cs, rfl, h1⟩
    · exact h2 h1
    · exact h3 h1
    · exact h4 h1
    · exact h1 (h5 c rfl)

/-- **C52 (partial).** The same with simpler hypotheses: every character may start a token, and the
last is not a hyphen or square bracket. -/
theorem C52_no_panic_simple_partial (u : Unicode) (chars : List Char) (hne : chars ≠ [])
    (hlast : chars.getLast? ≠ some '-' ∧ chars.getLast? ≠ some '[' ∧ chars.getLast? ≠ some ']')
    (hc : ∀ c ∈ chars, Starts c) : tokenize u chars ≠ .panic := by
  refine C52_no_panic_partial u chars hne fun rest hb => ?_
  obtain ⟨pre, rfl⟩ := hb.suffix
  refine ⟨?_, ?_, ?_, fun c h => hc c ?_⟩
  · rintro rfl; simp at hlast
  · rintro rfl; simp at hlast
  · rintro rfl; simp at hlast
  · exact List.mem_append_right _ (List.mem_of_mem_head? h)

example : tokenize ascii "T SEQUENCE { a [0] INTEGER (1..5) } -- x".toList ≠ .panic :=
  C52_no_panic_simple_partial ascii _ (by decide) (by decide) (by
    intro c hc
    unfold Starts Blank
    revert c
    decide)

theorem tokenizeFrom_gap (u : Unicode) (gap rest : List Char) (hg : ∀ c ∈ gap, Blank c)
    (hne : rest ≠ []) (hr : ∀ line column, tokenizeFrom u rest line column = .panic)
    (line column : Nat) : tokenizeFrom u (gap ++ rest) line column = .panic := by
  induction gap generalizing line column with
  | nil => exact hr line column
  | cons c cs ih =>
    have hs : ∃ l k, step u (c :: (cs ++ rest)) line column = .ok ⟨1, none, l, k⟩ := by
      rcases hg c (by simp) with rfl | rfl | rfl | rfl <;> exact ⟨_, _, rfl⟩
    obtain ⟨l, k, hs⟩ := hs
    have ih := ih (fun d hd => hg d (List.mem_cons_of_mem _ hd)) l k
    rw [List.cons_append, tokenizeFrom_next hs (by simp) (by
      have := List.length_pos_iff.mpr hne
      simp only [List.length_cons, List.length_append]; omega)]
    simp only [List.drop_succ_cons, List.drop_zero, ih]
    rfl

/-- **C52 is violated** by the empty text. -/
theorem C52_empty_violated (u : Unicode) : tokenize u [] = .panic := by
  unfold tokenize
  rw [tokenizeFrom]
  rfl

theorem step_unknown (u : Unicode) {c : Char} (rest : List Char) (hc : ¬ Starts c) {line column : Nat} :
    step u (c :: rest) line column = .panic := by
  refine step_cases u c rest line column (P := fun r => r = .panic)
    ?_ ?_ ?_ ?_ ?_ ?_ ?_ ?_ ?_ ?_ ?_ ?_ ?_ (fun _ => rfl) <;> intro h <;> refine absurd ?_ hc
  · rcases h with rfl | rfl
    · exact .inl (.inl rfl)
    · exact .inl (.inr (.inl rfl))
  · exact .inl (.inr (.inr (.inl h)))
  · exact .inr (.inr (.inr (by simp [h])))
  · unfold singleCharType at h
    split at h <;> first | cases h; done | exact .inr (.inr (.inr (by simp)))
  · rcases h with rfl | rfl <;> exact .inr (.inr (.inr (by simp)))
  · exact .inr (.inr (.inr (by simp [h])))
  · exact .inr (.inr (.inr (by simp [h])))
  · rcases h with rfl | h
    · exact .inr (.inr (.inr (by simp)))
    · exact .inr (.inl h)
  · exact .inr (.inr (.inl h))
  · exact .inr (.inr (.inr (by simp [h])))
  · exact .inr (.inr (.inr (by simp [h])))
  · exact .inr (.inr (.inr (by simp [h])))
  · exact .inl (.inr (.inr (.inr h)))

/-- **C52 is violated** by every text in which a character outside the ASN.1 character set (carriage
return, `=`, `/`, ...) stands where a token could start. -/
theorem C52_unknown_character_violated (u : Unicode) (gap rest : List Char) (c : Char)
    (hg : ∀ c ∈ gap, Blank c) (hc : ¬ Starts c) : tokenize u (gap ++ c :: rest) = .panic := by
  refine tokenizeFrom_gap u gap (c :: rest) hg (by simp) (fun line column => ?_) 1 0
  rw [tokenizeFrom, step_unknown u rest hc]

example : ¬ Starts '\r' ∧ ¬ Starts '=' ∧ ¬ Starts '/' ∧ ¬ Starts 'é' := by
  unfold Starts Blank; decide

/-- **C52 is violated** by a hyphen or square bracket at the end of the text. -/
theorem C52_last_character_violated (u : Unicode) (gap : List Char) (c : Char)
    (hg : ∀ c ∈ gap, Blank c) (hc : c = '-' ∨ c = '[' ∨ c = ']') :
    tokenize u (gap ++ [c]) = .panic := by
  refine tokenizeFrom_gap u gap [c] hg (by simp) (fun line column => ?_) 1 0
  rw [tokenizeFrom]
  rcases hc with rfl | rfl | rfl <;> rfl

/-! ## C53 -/

theorem _root_.Hampi.Spec.Tiles.shapes {u : Unicode} {at_ : List Char → LineColumn → Prop}
    {before rest : List Char} {ts : List Token} (h : Tiles u at_ before rest ts) :
    ∀ t ∈ ts, ∃ raw rest, Shape u t.type raw rest ∧ Kept t.type raw t.text := by
  induction h with
  | done => nofun
  | token _ _ hs hk _ _ ih =>
    intro t ht
    rcases List.mem_cons.mp ht with rfl | ht
    · exact ⟨_, _, hs, hk⟩
    · exact ih t ht

theorem keywords_reserved (w : String) (h1 : w ≠ "PLUS-INFINITY") (h2 : w ≠ "Plus-Infinity") :
    w ∈ KEYWORDS ↔ w ∈ reservedWords := by
  simp only [KEYWORDS, reservedWords, List.mem_cons, List.not_mem_nil, or_false, h1, h2, false_or]

/-- **C53.** Words consist of letters, digits and single hyphens and do not end in a hyphen; `&` starts
field references. -/
theorem C53_words (u : Unicode) (chars : List Char) (ts : List Token)
    (h : tokenize u chars = .ok ts) (t : Token) (ht : t ∈ ts) :
    (t.type = .keyword ∨ t.type = .identifier → Word t.text) ∧
    (t.type = .andIdentifier → ∃ w, t.text = '&' :: w ∧ Word w) := by
  obtain ⟨raw, rest, hs, hk⟩ := (C50_lossless u chars ts h).shapes t ht
  obtain ⟨ty, start, stop, text⟩ := t
  refine ⟨?_, ?_⟩ <;> intro e <;> dsimp only at e hs hk ⊢
  · rcases e with e | e <;> subst e <;> cases hk <;> exact hs.1
  · subst e
    cases hk
    obtain ⟨w, h1, h2, -⟩ := hs
    exact ⟨w, h1, h2⟩

/-- **C53 (partial).** Full statement: a word is a keyword exactly when it is a reserved word. Proved
for every word but two spellings of the word for positive infinity. Missing, because false: the reserved
word `PLUS-INFINITY` is an identifier (`C53_plus_infinity_violated`) and `Plus-Infinity` a keyword. -/
theorem C53_reserved_words_partial (u : Unicode) (chars : List Char) (ts : List Token)
    (h : tokenize u chars = .ok ts) (t : Token) (ht : t ∈ ts)
    (h1 : t.text ≠ "PLUS-INFINITY".toList) (h2 : t.text ≠ "Plus-Infinity".toList) :
    (t.type = .keyword → ∃ w ∈ reservedWords, t.text = w.toList) ∧
    (t.type = .identifier → ∀ w ∈ reservedWords, t.text ≠ w.toList) := by
  obtain ⟨raw, rest, hs, hk⟩ := (C50_lossless u chars ts h).shapes t ht
  obtain ⟨ty, start, stop, text⟩ := t
  refine ⟨?_, ?_⟩ <;> intro e <;> dsimp only at e hs hk h1 h2 ⊢ <;> subst e <;> cases hk
  · obtain ⟨w, hw, e⟩ := hs.2.2.2
    refine ⟨w, (keywords_reserved w ?_ ?_).mp hw, e⟩
    · rintro rfl; exact h1 e
    · rintro rfl; exact h2 e
  · intro w hw e
    refine hs.2.2.2 w ((keywords_reserved w ?_ ?_).mpr hw) e
    · rintro rfl; exact h1 e
    · rintro rfl; exact h2 e

set_option maxRecDepth 8000 in
example : (match tokenize ascii "SEQUENCE SEQUENCES".toList with
    | .ok ts => some (ts.map (·.type))
    | _ => none) = some [.keyword, .identifier] := by decide +kernel

set_option maxRecDepth 8000 in
/-- **C53 is violated** by the reserved word `PLUS-INFINITY`: it is an identifier. -/
theorem C53_plus_infinity_violated (u : Unicode) :
    tokenize u "PLUS-INFINITY".toList =
      .ok [⟨.identifier, ⟨1, 0⟩, ⟨1, 13⟩, "PLUS-INFINITY".toList⟩] := by
  unfold tokenize
  exact tokenizeFrom_last (s := ⟨13, some ⟨.identifier, ⟨1, 0⟩, ⟨1, 13⟩, "PLUS-INFINITY".toList⟩, 1, 13⟩)
    (by rfl) rfl

/-- **C53.** Every character of the text that starts a word belongs to a word token as long as
possible: what follows a word token is not a word character. This is part of `Shape`; here for the
next character of the source. -/
theorem C53_longest (u : Unicode) (chars : List Char) (line column : Nat) (s : Step) (t : Token)
    (h : step u chars line column = .ok s) (ht : s.token = some t)
    (hw : t.type = .keyword ∨ t.type = .identifier ∨ t.type = .andIdentifier) :
    NotNext WordChar (chars.drop s.consumed) := by
  rcases (step_good u h).what with ⟨h1, -⟩ | ⟨t', h1, hg, -⟩
  · rw [h1] at ht; cases ht
  · rw [h1] at ht; cases ht
    have hs := hg.shape
    dsimp only at hs
    rcases hw with e | e | e <;> rw [e] at hs
    · exact hs.2.2.1
    · exact hs.2.2.1
    · obtain ⟨w, -, -, h3⟩ := hs; exact h3

/-! ## C67 -/

/-- **C67 (partial).** Full statement: every number token is a possibly negative decimal number.
Proved: a number token that is not a lone hyphen is an optional hyphen followed by numeric characters,
at least one. Missing: the lone hyphen (`C67_lone_hyphen_violated`), and numeric characters are those
of Unicode, not only the ASCII digits (`C67_not_ascii_violated`). -/
theorem C67_numbers_partial (u : Unicode) (chars : List Char) (ts : List Token)
    (h : tokenize u chars = .ok ts) (t : Token) (ht : t ∈ ts) (hn : t.type = .numberInt)
    (h1 : t.text ≠ ['-']) :
    ∃ sign digits, t.text = sign ++ digits ∧ (sign = [] ∨ sign = ['-']) ∧ digits ≠ [] ∧
      ∀ c ∈ digits, u.isNumeric c := by
  obtain ⟨raw, rest, hs, hk⟩ := (C50_lossless u chars ts h).shapes t ht
  rw [hn] at hs hk
  have hk : t.text = raw := hk
  subst hk
  obtain ⟨sign, digits, e, h2, h3, -⟩ := hs
  refine ⟨sign, digits, e, ?_, ?_, h3⟩
  · rcases h2 with h2 | h2
    · exact .inr h2.1
    · exact .inl h2.1
  · rintro rfl
    rcases h2 with h2 | ⟨-, c, h2, -⟩
    · rw [h2.1] at e; exact h1 e
    · cases h2

/-- **C67 is violated** by a hyphen before a blank: it is a number token. -/
theorem C67_lone_hyphen_violated (u : Unicode) (h : u.isNumeric ' ' = false) :
    tokenize u ['-', ' '] = .ok [⟨.numberInt, ⟨1, 0⟩, ⟨1, 1⟩, ['-']⟩] := by
  have hs : step u ['-', ' '] 1 0 = .ok ⟨1, some ⟨.numberInt, ⟨1, 0⟩, ⟨1, 1⟩, ['-']⟩, 1, 1⟩ := by
    have e : span u.isNumeric [' '] = 0 := by simp [span, h]
    show (Out.ok (Step.of 1 0 (oneLine .numberInt ['-', ' '] 1 0 (1 + span u.isNumeric [' '])))
      : Out TokenizeError Step) = _
    rw [e]
    rfl
  unfold tokenize
  rw [tokenizeFrom_next hs (by decide) (by decide), tokenizeFrom_last (s := ⟨1, none, 1, 2⟩) (by rfl) (by rfl)]
  rfl

/-- **C67 is violated** by numeric characters that are not ASCII digits, for instance U+0661. -/
theorem C67_not_ascii_violated (u : Unicode) (c : Char) (h : u.isNumeric c = true)
    (hc : c.isDigit = false) : ∃ t, tokenize u ['1', c] = .ok [t] ∧ t.type = .numberInt ∧
      ∃ d ∈ t.text, d.isDigit = false := by
  have e : span u.isNumeric ['1', c] = 2 := by
    simp [span, h, u.digit '1' (by decide)]
  refine ⟨⟨.numberInt, ⟨1, 0⟩, ⟨1, 2⟩, ['1', c]⟩, ?_, rfl, c, by simp, hc⟩
  unfold tokenize
  refine tokenizeFrom_last (s := ⟨2, some ⟨.numberInt, ⟨1, 0⟩, ⟨1, 2⟩, ['1', c]⟩, 1, 2⟩) ?_ rfl
  show (Out.ok (Step.of 1 0 (oneLine .numberInt ['1', c] 1 0 (0 + span u.isNumeric ['1', c])))
      : Out TokenizeError Step) = _
  rw [e]
  rfl

-- C51, C65, C67: a text that is accepted, with a negative number among its tokens.
example : (match tokenize ascii sample with
    | .ok ts => ts.any fun t => t.type = .numberInt ∧ t.text = "-5".toList
    | _ => false) = true := by decide +kernel
example : (match step ascii sample 1 0 with
    | .ok s => s.consumed
    | _ => 0) = 2 := by decide +kernel
-- C67: U+0663 is numeric (the property is a parameter of the model) and no ASCII digit.
example : ascii.isNumeric ' ' = false ∧ ('٣').isDigit = false := by decide +kernel

end Hampi.Compiler
