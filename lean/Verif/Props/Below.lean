import Verif.Props.CutText
/-!
# Texts one below the other: C140
-/
namespace Hampi.Compiler
open _root_.Hampi.Spec

/-- The token, `n` lines further down. -/
def Token.down (n : Nat) (t : Token) : Token :=
  { t with start := ⟨t.start.line + n, t.start.column⟩, stop := ⟨t.stop.line + n, t.stop.column⟩ }

/-- The same outcome, `n` lines further down. -/
def Out.down {α : Type} (f : α → α) (n : Nat) : Out TokenizeError α → Out TokenizeError α
  | .ok a => .ok (f a)
  | .err e => .err ⟨e.code, e.line + n, e.column⟩
  | .panic => .panic
  | .diverge => .diverge

def lexedDown (n : Nat) (t : Lexed) : Lexed := (t.1.down n, t.2)

def linesDown (n : Nat) (t : Lexed × Nat × Nat) : Lexed × Nat × Nat := (lexedDown n t.1, t.2)

def stepDown (n : Nat) (s : Step) : Step := ⟨s.consumed, s.token.map (Token.down n), s.line + n, s.column⟩

theorem down_bind {α β : Type} {x : Out TokenizeError α} {f : α → α} {g h : α → Out TokenizeError β} {k : β → β} {n : Nat}
    (hg : ∀ a, h (f a) = (g a).down k n) : (x.down f n).bind h = (x.bind g).down k n := by
  cases x <;> simp only [Out.down, Out.bind]
  exact hg _

theorem oneLine_down (n : Nat) (type : TokenType) (chars : List Char) (line column consumed : Nat) :
    oneLine type chars (line + n) column consumed = lexedDown n (oneLine type chars line column consumed) := rfl

theorem number_down (u : Unicode) (chars : List Char) (line column n : Nat) :
    getNumberToken u chars (line + n) column = (getNumberToken u chars line column).down (lexedDown n) n := by
  unfold getNumberToken
  split
  · rfl
  · dsimp only
    generalize (if _ = '-' then 1 else 0) = neg
    split <;> rfl

theorem word_down (chars : List Char) (line column n : Nat) :
    getIdentifierOrKeywordToken chars (line + n) column =
      (getIdentifierOrKeywordToken chars line column).down (lexedDown n) n := by
  unfold getIdentifierOrKeywordToken
  split
  · rfl
  · dsimp only; (repeat' split) <;> rfl

theorem at_down (chars : List Char) (line column n : Nat) :
    getAtComponentIdList chars (line + n) column = (getAtComponentIdList chars line column).down (lexedDown n) n := by
  unfold getAtComponentIdList
  dsimp only; (repeat' split) <;> first | rfl | simp_all

theorem range_down (chars : List Char) (line column n : Nat) :
    getRangeOrExtensionToken chars (line + n) column =
      (getRangeOrExtensionToken chars line column).down (lexedDown n) n := by
  unfold getRangeOrExtensionToken
  (repeat' split) <;> first | rfl | simp_all

theorem colon_down (chars : List Char) (line column n : Nat) :
    getAssignmentOrColonToken chars (line + n) column =
      (getAssignmentOrColonToken chars line column).down (lexedDown n) n := by
  unfold getAssignmentOrColonToken
  (repeat' split) <;> first | rfl | simp_all

theorem square_down (chars : List Char) (line column n : Nat) :
    getSquareToken chars (line + n) column = (getSquareToken chars line column).down (lexedDown n) n := by
  unfold getSquareToken
  (repeat' split) <;> first | rfl | simp_all

theorem comment_down (chars : List Char) (line column n : Nat) :
    getMaybeCommentToken chars (line + n) column =
      (getMaybeCommentToken chars line column).down (Option.map (lexedDown n)) n := by
  unfold getMaybeCommentToken
  split
  · dsimp only
    split <;> rfl
  · rfl

theorem string_down (chars : List Char) (line column n : Nat) :
    getStringToken chars (line + n) column = (getStringToken chars line column).down (linesDown n) n := by
  unfold getStringToken
  split
  · rfl
  · dsimp only
    split
    · rfl
    · simp only [Out.down, linesDown, lexedDown, Token.down, Nat.add_right_comm]

theorem bits_down (chars : List Char) (line column n : Nat) :
    getBitOrHexStringToken chars (line + n) column = (getBitOrHexStringToken chars line column).down (linesDown n) n := by
  unfold getBitOrHexStringToken
  dsimp only
  split
  · rfl
  · split
    · rfl
    · split
      · rfl
      · split
        · rfl
        · split
          · rfl
          · split
            · rfl
            · simp only [Out.down, linesDown, lexedDown, Token.down, Nat.add_right_comm]

theorem of_down (line column n : Nat) (t : Lexed) :
    (.ok (Step.of (line + n) column (lexedDown n t)) : Out TokenizeError Step) =
      (Out.ok (Step.of line column t)).down (stepDown n) n := rfl

theorem ofLines_down (line column n : Nat) (t : Lexed × Nat × Nat) :
    (.ok (Step.ofLines (line + n) column (linesDown n t)) : Out TokenizeError Step) =
      (Out.ok (Step.ofLines line column t)).down (stepDown n) n := by
  simp only [Out.down, stepDown, Step.ofLines, linesDown, lexedDown, Nat.add_right_comm _ n, Option.map_some]
  rfl

/-- A turn of the loop does the same on any line. -/
theorem step_down (u : Unicode) (chars : List Char) (line column n : Nat) :
    step u chars (line + n) column = (step u chars line column).down (stepDown n) n := by
  cases chars with
  | nil => rfl
  | cons c cs =>
    have hof : ∀ x : Out TokenizeError Lexed, ((x.down (lexedDown n) n).bind fun t => .ok (Step.of (line + n) column t)) =
        (x.bind fun t => .ok (Step.of line column t)).down (stepDown n) n := fun x => down_bind (of_down line column n)
    have hofl : ∀ x : Out TokenizeError (Lexed × Nat × Nat),
        ((x.down (linesDown n) n).bind fun t => .ok (Step.ofLines (line + n) column t)) =
        (x.bind fun t => .ok (Step.ofLines line column t)).down (stepDown n) n := fun x => down_bind (ofLines_down line column n)
    simp only [step, number_down, word_down, at_down, range_down, colon_down, square_down, comment_down, string_down,
      bits_down, hof, hofl]
    by_cases h1 : c = ' ' ∨ c = '\t'
    · simp only [if_pos h1]; rfl
    simp only [if_neg h1]
    by_cases h2 : c = '\n'
    · simp only [if_pos h2, Out.down, stepDown, Option.map_none, Nat.add_right_comm]
    simp only [if_neg h2]
    by_cases h3 : c = '-'
    · simp only [if_pos h3]
      refine down_bind fun t? => ?_
      cases t? with
      | none => rfl
      | some t => rfl
    simp only [if_neg h3]
    by_cases h4 : (singleCharType c).isSome
    · simp only [if_pos h4]
      cases hs : singleCharType c <;> rfl
    simp only [if_neg h4]
    repeat' split
    all_goals rfl

/-- The loop does the same on any line. -/
theorem tokenizeFrom_down (u : Unicode) (n k : Nat) : ∀ {chars : List Char}, chars.length ≤ k → ∀ (line column : Nat),
    tokenizeFrom u chars (line + n) column =
      (tokenizeFrom u chars line column).down (List.map (Token.down n)) n := by
  induction k with
  | zero =>
    intro chars h line column
    have := List.length_eq_zero_iff.mp (Nat.le_zero.mp h)
    subst this
    rw [tokenizeFrom, tokenizeFrom]
    rfl
  | succ k ih =>
    intro chars h line column
    rw [tokenizeFrom, step_down]
    conv => rhs; rw [tokenizeFrom]
    cases hs : step u chars line column with
    | err e => rfl
    | panic => rfl
    | diverge => rfl
    | ok s =>
      have hto : (s.token.map (Token.down n)).toList = s.token.toList.map (Token.down n) := by cases s.token <;> rfl
      simp only [Out.down, stepDown]
      split
      · simp only [hto]
      · split
        · rfl
        · split
          · rfl
          · rw [ih (by simp only [List.length_drop]; omega)]
            exact down_bind fun ts => by simp only [Out.down, hto, List.map_append]

/-- What is a token at the end of a text is one at the end of a line. -/
theorem shape_line_end {u : Unicode} {type : TokenType} {raw b : List Char} (h : Shape u type raw [])
    (hl : raw.getLast? ≠ some '\n') : Shape u type raw ('\n' :: b) :=
  (Props.shape_cut (y := ['\n']) (by simp)).mpr (shape_newline h fun _ => hl)

theorem step_of_tokens {u : Unicode} {x : List Char} {line column : Nat} {ps : List Token}
    (h : tokenizeFrom u x line column = .ok ps) : ∃ s, step u x line column = .ok s := by
  rw [tokenizeFrom] at h
  cases hs : step u x line column with
  | ok s => exact ⟨s, rfl⟩
  | err e => rw [hs] at h; cases h
  | panic => rw [hs] at h; cases h
  | diverge => rw [hs] at h; cases h

/-- A turn of the loop on a text and on one that goes on after it. -/
theorem step_goes_on {u : Unicode} {x y : List Char} {line column : Nat} {s : Step} (e : step u x line column = .ok s)
    (hx : x ≠ []) (hy' : y ≠ []) (hy : 2 ≤ (x.drop s.consumed).length + y.length)
    (end_ : ∀ type, x.drop s.consumed = [] → Shape u type x [] → Shape u type x y) :
    step u (x ++ y) line column = .ok s := by
  have g := step_good u e
  rcases g.what with ⟨-, d, h1, h2, -⟩ | ⟨t, kt, good, -⟩
  · cases x with
    | nil => exact absurd rfl hx
    | cons c cs =>
      have : c = d := by
        have := g.pos
        cases hk : s.consumed with
        | zero => omega
        | succ k => rw [hk, List.take_succ_cons, List.cons.injEq] at h1; exact h1.1
      subst this
      rw [List.cons_append, Props.blank_cut u h2 _ cs]
      exact e
  · have hsh : Shape u t.type (x.take s.consumed) (x.drop s.consumed ++ y) := by
      by_cases hd : x.drop s.consumed = []
      · have h1 := List.take_append_drop s.consumed x
        have h2 := good.shape
        simp only at h2
        rw [hd] at h2
        rw [hd, List.append_nil] at h1
        rw [h1] at h2
        rw [hd, List.nil_append, h1]
        exact end_ _ hd h2
      · exact (Props.shape_cut hd).mpr good.shape
    have hT := takes_shape u hsh (.inl (by simp [hy'])) (by
      rintro ⟨-, h, -⟩
      have := congrArg List.length h
      simp only [List.length_append, List.length_cons, List.length_nil] at this
      omega) line column
    obtain ⟨s', t', h1, h2, h3, h4⟩ := id hT
    rw [← List.append_assoc, List.take_append_drop] at h1
    have h5 := (Props.takes_step hT (s := s') (by rw [← List.append_assoc, List.take_append_drop]; exact h1)).2
    have h6 := step_formed u e kt
    rw [h1, h5, ← h6]

/-- The loop on a text, a newline and another text. -/
theorem tokenizeFrom_above (u : Unicode) {b : List Char} (hb : b ≠ []) (n : Nat) : ∀ {x : List Char} {line column : Nat}
    {ps : List Token}, x.length ≤ n → x ≠ [] → x.getLast? ≠ some '\n' → tokenizeFrom u x line column = .ok ps →
    tokenizeFrom u (x ++ '\n' :: b) line column =
      (tokenizeFrom u b (line + (x.count '\n' + 1)) 0).bind fun ts => .ok (ps ++ ts) := by
  induction n with
  | zero => intro x _ _ _ h hx; exact absurd (List.length_eq_zero_iff.mp (by omega)) hx
  | succ n ih =>
    intro x line column ps hn hx hl hX
    obtain ⟨s, eX⟩ := step_of_tokens hX
    have g := step_good u eX
    have hbl : 0 < b.length := List.length_pos_iff.mpr hb
    have eF : step u (x ++ '\n' :: b) line column = .ok s :=
      step_goes_on eX hx (by simp) (by simp only [List.length_cons]; omega) fun _ _ h => shape_line_end h hl
    have gF := step_good u eF
    have hlen : s.consumed < (x ++ '\n' :: b).length := by
      have := g.le
      simp only [List.length_append, List.length_cons]
      omega
    rw [tokenizeFrom_next eF gF.pos hlen, List.drop_append_of_le_length g.le]
    have hline : s.line = line + (x.take s.consumed).count '\n' := by
      have := gF.line_eq (by rw [List.drop_append_of_le_length g.le]; simp)
      rwa [List.take_append_of_le_length g.le] at this
    by_cases hd : s.consumed = x.length
    · rw [tokenizeFrom_last eX hd] at hX
      cases hX
      rw [hd, List.drop_length, List.nil_append]
      rw [hd, List.take_length] at hline
      have hs : step u ('\n' :: b) s.line s.column = .ok ⟨1, none, s.line + 1, 0⟩ := rfl
      rw [tokenizeFrom_next hs (Nat.one_pos) (by simp only [List.length_cons]; omega)]
      simp only [List.drop_succ_cons, List.drop_zero, Option.toList_none, List.nil_append, hline, Nat.add_assoc]
      cases tokenizeFrom u b (line + (x.count '\n' + 1)) 0 <;> rfl
    · have hlt : s.consumed < x.length := by have := g.le; omega
      rw [tokenizeFrom_next eX g.pos hlt] at hX
      obtain ⟨ps', h3, h4⟩ := Out.bind_eq_ok hX
      cases h4
      have hne : x.drop s.consumed ≠ [] := by
        intro h
        have := congrArg List.length h
        simp only [List.length_drop, List.length_nil] at this
        omega
      rw [ih (by simp only [List.length_drop]; have := g.pos; omega) hne
        (by rw [List.getLast?_drop, if_neg (by omega)]; exact hl) h3, hline]
      have hcount : (x.take s.consumed).count '\n' + (x.drop s.consumed).count '\n' = x.count '\n' := by
        rw [← List.count_append, List.take_append_drop]
      rw [show line + (x.take s.consumed).count '\n' + ((x.drop s.consumed).count '\n' + 1) =
        line + (x.count '\n' + 1) by omega]
      cases tokenizeFrom u b (line + (x.count '\n' + 1)) 0 <;> simp [Out.bind]

/-- The loop on a text that ends with a newline, and another text. -/
theorem tokenizeFrom_lines (u : Unicode) {b : List Char} (hb : b ≠ []) (n : Nat) : ∀ {x : List Char} {line column : Nat}
    {ps : List Token}, x.length ≤ n → x.getLast? = some '\n' → tokenizeFrom u x line column = .ok ps →
    ∃ ps', Props.uncommented ps' = Props.uncommented ps ∧ tokenizeFrom u (x ++ b) line column =
      (tokenizeFrom u b (line + x.count '\n') 0).bind fun ts => .ok (ps' ++ ts) := by
  induction n with
  | zero =>
    intro x _ _ _ h hl
    have := List.length_eq_zero_iff.mp (Nat.le_zero.mp h)
    subst this
    cases hl
  | succ n ih =>
    intro x line column ps hn hl hX
    obtain ⟨s, eX⟩ := step_of_tokens hX
    have g := step_good u eX
    have hbl : 0 < b.length := List.length_pos_iff.mpr hb
    have hx : x ≠ [] := by rintro rfl; cases hl
    have newline : ∀ k l, tokenizeFrom u ('\n' :: b) l k = tokenizeFrom u b (l + 1) 0 := by
      intro k l
      have hs : step u ('\n' :: b) l k = .ok ⟨1, none, l + 1, 0⟩ := rfl
      rw [tokenizeFrom_next hs Nat.one_pos (by simp only [List.length_cons]; omega)]
      simp only [List.drop_succ_cons, List.drop_zero, Option.toList_none, List.nil_append]
      cases tokenizeFrom u b (l + 1) 0 <;> rfl
    by_cases hd : s.consumed = x.length
    · rw [tokenizeFrom_last eX hd] at hX
      cases hX
      rcases g.what with ⟨h0, d, h1, h2, -⟩ | ⟨t, kt, good, -⟩
      · rw [hd, List.take_length] at h1
        subst h1
        have hdn : d = '\n' := by simpa using hl
        subst hdn
        refine ⟨[], by rw [h0]; rfl, ?_⟩
        rw [List.singleton_append, newline]
        simp only [List.count_singleton_self, List.nil_append]
        cases tokenizeFrom u b (line + 1) 0 <;> rfl
      · have h2 := good.shape
        simp only [hd, List.take_length, List.drop_length] at h2
        obtain ⟨h3, body, rfl, h5, h6⟩ := Props.shape_newline h2 hl
        have hsh : Shape u .comment ('-' :: '-' :: body) ('\n' :: b) := ⟨body, rfl, .inr (.inl ⟨h5, h6, rfl⟩)⟩
        obtain ⟨s', t', e1, e2, e3, e4⟩ := takes_shape u hsh (.inl (by simp)) (by
          rintro ⟨-, h, -⟩
          have := congrArg List.length h
          simp only [List.length_cons, List.length_nil] at this
          omega) line column
        have g' := step_good u e1
        have hlen : s'.consumed < (('-' :: '-' :: body) ++ '\n' :: b).length := by
          rw [e2]; simp only [List.length_append, List.length_cons]; omega
        have hline := g'.line_eq (by rw [e2, List.drop_left]; simp)
        rw [e2, List.take_left, List.count_eq_zero.mpr (by simp [h5])] at hline
        refine ⟨[t'], by rw [kt]; simp [Props.uncommented, e4, h3], ?_⟩
        rw [show '-' :: '-' :: (body ++ ['\n']) ++ b = ('-' :: '-' :: body) ++ '\n' :: b by simp,
          tokenizeFrom_next e1 g'.pos hlen, e2, List.drop_left, newline, hline, e3]
        rw [show ('-' :: '-' :: (body ++ ['\n'])).count '\n' = 1 by
          simp [List.count_append, List.count_eq_zero.mpr h5]]
        rfl
    · have hlt : s.consumed < x.length := by have := g.le; omega
      have hne : x.drop s.consumed ≠ [] := by
        intro h
        have := congrArg List.length h
        simp only [List.length_drop, List.length_nil] at this
        omega
      rw [tokenizeFrom_next eX g.pos hlt] at hX
      obtain ⟨ps₁, h3, h4⟩ := Out.bind_eq_ok hX
      cases h4
      obtain ⟨ps₂, h5, h6⟩ := ih (by simp only [List.length_drop]; have := g.pos; omega)
        (by rw [List.getLast?_drop, if_neg (by omega)]; exact hl) h3
      have eF : step u (x ++ b) line column = .ok s :=
        step_goes_on eX hx hb (by simp only [List.length_drop]; omega) fun _ h => absurd h hne
      have gF := step_good u eF
      refine ⟨s.token.toList ++ ps₂, by simp only [Props.uncommented, List.filter_append] at h5 ⊢; rw [h5], ?_⟩
      rw [tokenizeFrom_next eF gF.pos (by simp only [List.length_append]; omega), List.drop_append_of_le_length g.le, h6,
        g.line_eq hne]
      have hcount : (x.take s.consumed).count '\n' + (x.drop s.consumed).count '\n' = x.count '\n' := by
        rw [← List.count_append, List.take_append_drop]
      rw [show line + (x.take s.consumed).count '\n' + (x.drop s.consumed).count '\n' = line + x.count '\n' by omega]
      cases tokenizeFrom u b (line + x.count '\n') 0 <;> simp [Out.bind]

/-- **C140.** A text that is made of tokens, a newline, and below it another text: whatever comes of reading the other
text by itself comes of it here, with the lines counted from the top, and after the tokens of the first text. -/
theorem C140_below (u : Unicode) (above below : List Char) (ps : List Token) (some_ : below ≠ [])
    (ends : above.getLast? ≠ some '\n') (first : tokenize u above = .ok ps) :
    tokenize u (above ++ '\n' :: below) =
      match tokenize u below with
      | .ok ts => .ok (ps ++ ts.map (Token.down (above.count '\n' + 1)))
      | .err e => .err ⟨e.code, e.line + (above.count '\n' + 1), e.column⟩
      | .panic => .panic
      | .diverge => .diverge := by
  have hne : above ≠ [] := by
    rintro rfl
    rw [tokenize, tokenizeFrom] at first
    cases first
  unfold tokenize at first ⊢
  rw [tokenizeFrom_above u some_ above.length (Nat.le_refl _) hne ends first,
    tokenizeFrom_down u (above.count '\n' + 1) below.length (Nat.le_refl _)]
  cases tokenizeFrom u below 1 0 <;> rfl

/-- **C140.** The same for a text whose last line ends with a newline, as files do, up to the comments of this text: a
comment on its last line holds the newline only if nothing follows. -/
theorem C140_lines (u : Unicode) (above below : List Char) (ps : List Token) (some_ : below ≠ [])
    (ends : above.getLast? = some '\n') (first : tokenize u above = .ok ps) :
    ∃ ps', ps'.filter (fun t => t.type != .comment) = ps.filter (fun t => t.type != .comment) ∧
      tokenize u (above ++ below) =
        match tokenize u below with
        | .ok ts => .ok (ps' ++ ts.map (Token.down (above.count '\n')))
        | .err e => .err ⟨e.code, e.line + above.count '\n', e.column⟩
        | .panic => .panic
        | .diverge => .diverge := by
  unfold tokenize at first ⊢
  obtain ⟨ps', h1, h2⟩ := tokenizeFrom_lines u some_ above.length (Nat.le_refl _) ends first
  refine ⟨ps', h1, ?_⟩
  rw [h2, tokenizeFrom_down u (above.count '\n') below.length (Nat.le_refl _)]
  cases tokenizeFrom u below 1 0 <;> rfl

/-- The tokens of a text that is made of tokens. -/
def tokensOf (chars : List Char) : List Token :=
  match tokenize ascii chars with
  | .ok ts => ts
  | _ => []

/-- Where the tokens of a text start, or the place of the error. -/
def places (chars : List Char) : List (Nat × Nat) × Option (Nat × Nat) :=
  match tokenize ascii chars with
  | .ok ts => (ts.map fun t => (t.start.line, t.start.column), none)
  | .err e => ([], some (e.line, e.column))
  | _ => ([], none)

-- Two lines, with a comment at the end, and a line below: the hypotheses are met, and the place of an error moves down.
set_option maxRecDepth 4000 in
example : tokenize ascii "A ::=\n NULL --x".toList = .ok (tokensOf "A ::=\n NULL --x".toList) ∧
    "A ::=\n NULL --x".toList.getLast? ≠ some '\n' ∧
    places "b -1".toList = ([(1, 0), (1, 2)], none) ∧
    places "A ::=\n NULL --x\nb -1".toList = ([(1, 0), (1, 2), (2, 1), (2, 6), (3, 0), (3, 2)], none) ∧
    places "b c-".toList = ([], some (1, 2)) ∧
    places "A ::=\n NULL --x\nb c-".toList = ([], some (3, 2)) := by
  decide +kernel

end Hampi.Compiler
