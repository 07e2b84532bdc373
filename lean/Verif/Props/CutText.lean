import Verif.Lemmas.TokensForm
import Verif.Props.TokenizerBack
import Verif.Props.CutOff
/-!
# Texts that were cut off, at any character: C139
-/
namespace Hampi.Compiler.Props
open _root_.Hampi.Compiler.Spec
open _root_.Hampi.Spec (Shape Kept NotNext Blank WordChar)

theorem notNext_cut {p : Char → Prop} {digits y b : List Char} (hy : y ≠ []) :
    NotNext p (digits ++ (y ++ b)) ↔ NotNext p (digits ++ y) := by
  cases digits with
  | nil => cases y with
    | nil => exact absurd rfl hy
    | cons c cs => exact Iff.rfl
  | cons d ds => exact Iff.rfl

/-- Of what comes after a token, its first character matters. -/
theorem shape_cut {u : Unicode} {type : TokenType} {raw y b : List Char} (hy : y ≠ []) :
    Shape u type raw (y ++ b) ↔ Shape u type raw y := by
  cases type <;> simp only [Shape, notNext_cut hy]
  all_goals (cases y with
    | nil => exact absurd rfl hy
    | cons c cs => first | exact Iff.rfl | simp only [List.cons_append, List.head?_cons, reduceCtorEq, false_and])

/-- What is a token is a token at the end of the text as well. -/
theorem shape_nil {u : Unicode} {type : TokenType} {raw rest : List Char} (h : Shape u type raw rest) :
    Shape u type raw [] := by
  cases type
  case identifier => exact ⟨h.1, h.2.1, notNext_nil, h.2.2.2⟩
  case keyword => exact ⟨h.1, h.2.1, notNext_nil, h.2.2.2⟩
  case andIdentifier => obtain ⟨w, h1, h2, -⟩ := h; exact ⟨w, h1, h2, notNext_nil⟩
  case atComponentIdList => obtain ⟨w, h1, h2, h3, h4, -⟩ := h; exact ⟨w, h1, h2, h3, h4, notNext_nil⟩
  case tString => obtain ⟨w, h1, h2, -⟩ := h; exact ⟨w, h1, h2, notNext_nil⟩
  case numberInt =>
    obtain ⟨sign, digits, h1, h2, h3, -⟩ := h
    refine ⟨sign, digits, h1, ?_, h3, notNext_nil⟩
    rcases h2 with ⟨h2, h4⟩ | h2
    · refine .inl ⟨h2, ?_⟩
      cases digits with
      | nil => exact notNext_nil
      | cons d ds => exact h4
    · exact .inr h2
  case comment =>
    obtain ⟨body, h1, h2 | ⟨h2, h3, -⟩ | ⟨-, h3, h4⟩⟩ := h
    · exact ⟨body, h1, .inl h2⟩
    · exact ⟨body, h1, .inr (.inr ⟨rfl, h3, fun h => h2 (List.dropLast_subset _ h)⟩)⟩
    · exact ⟨body, h1, .inr (.inr ⟨rfl, h3, h4⟩)⟩
  all_goals first | exact h | exact ⟨h.1, notNext_nil⟩

/-- A blank character is skipped whatever follows. -/
theorem blank_cut (u : Unicode) {c : Char} (h : Blank c) (cs ds : List Char) (line column : Nat) :
    step u (c :: cs) line column = step u (c :: ds) line column := by
  rcases h with rfl | rfl | rfl | rfl <;> rfl

/-- Nothing is accepted when it ends with the first half of a token. -/
theorem short_fails (u : Unicode) {raw : List Char} (h : raw ∈ short) (line column : Nat) (s : Step) :
    step u raw line column ≠ .ok s := by
  simp only [short, List.mem_cons, List.not_mem_nil, or_false] at h
  rcases h with rfl | rfl | rfl | rfl <;> intro h <;> cases h

/-- A step with a token of this type and source is this step. -/
theorem takes_step {u : Unicode} {type : TokenType} {raw rest : List Char} {line column : Nat} {s : Step}
    (h : Takes u type raw rest line column) (hs : step u (raw ++ rest) line column = .ok s) :
    s.consumed = raw.length ∧ s = formed type raw line column := by
  obtain ⟨s', t, h1, h2, h3, h4⟩ := h
  rw [h1] at hs
  cases hs
  refine ⟨h2, ?_⟩
  have := step_formed u h1 h3
  rwa [h2, List.take_left, h4] at this

/-- A comment is one whatever follows. -/
theorem comment_start (u : Unicode) (cs : List Char) (line column : Nat) :
    ∃ s t, step u ('-' :: '-' :: cs) line column = .ok s ∧ s.token = some t ∧ t.type = .comment := by
  refine ⟨_, _, rfl, rfl, rfl⟩

/-- The last token of `ps` comes from the end of `x`, and goes on in `b` in the full text. -/
def Halved (u : Unicode) (x b : List Char) (ps : Tokens) : Prop :=
  ∃ (pre raw w rest : List Char) (t t' : Token), x = pre ++ raw ∧ raw ≠ [] ∧ b = w ++ rest ∧ w ≠ [] ∧ ps.getLast? = some t ∧
    t.type ≠ .comment ∧ Shape u t.type raw [] ∧ Kept t.type raw t.text ∧ Shape u t'.type (raw ++ w) rest ∧ Kept t'.type (raw ++ w) t'.text

/-- The tokens of the beginning of a text are the first tokens of the text, or the last one was cut in two. -/
theorem cut_tokens (u : Unicode) {b : List Char} (hb : b ≠ []) (n : Nat) : ∀ {x : List Char} {line column : Nat}
    {ts ps : Tokens}, x.length ≤ n → x ≠ [] → tokenizeFrom u (x ++ b) line column = .ok ts →
    tokenizeFrom u x line column = .ok ps → uncommented ps <+: uncommented ts ∨ Halved u x b ps := by
  induction n with
  | zero => intro x _ _ _ _ h hx; exact absurd (List.length_eq_zero_iff.mp (by omega)) hx
  | succ n ih =>
    intro x line column ts ps hn hx hF hX
    have stepOf : ∀ {y : List Char} {rs : Tokens}, tokenizeFrom u y line column = .ok rs →
        ∃ s, step u y line column = .ok s := by
      intro y rs h
      rw [tokenizeFrom] at h
      cases hs : step u y line column with
      | ok s => exact ⟨s, rfl⟩
      | err e => rw [hs] at h; cases h
      | panic => rw [hs] at h; cases h
      | diverge => rw [hs] at h; cases h
    obtain ⟨sF, eF⟩ := stepOf hF
    obtain ⟨sX, eX⟩ := stepOf hX
    have gF := step_good u eF
    have gX := step_good u eX
    have hbl : 0 < b.length := List.length_pos_iff.mpr hb
    -- the same step, and there is more of the text
    have go : sF = sX → sX.consumed < x.length → uncommented ps <+: uncommented ts ∨ Halved u x b ps := by
      intro e hlt
      subst e
      rw [tokenizeFrom_next eF gF.pos (by simp only [List.length_append]; omega)] at hF
      rw [tokenizeFrom_next eX gX.pos hlt] at hX
      obtain ⟨ts', h1, h2⟩ := Out.bind_eq_ok hF
      obtain ⟨ps', h3, h4⟩ := Out.bind_eq_ok hX
      cases h2
      cases h4
      rw [List.drop_append_of_le_length (Nat.le_of_lt hlt)] at h1
      have hd : x.drop sF.consumed ≠ [] := by
        intro h
        have := congrArg List.length h
        simp only [List.length_drop, List.length_nil] at this
        omega
      rcases ih (by simp only [List.length_drop]; have := gX.pos; omega) hd h1 h3 with h5 | h5
      · refine .inl ?_
        rw [uncommented, uncommented, List.filter_append, List.filter_append]
        exact (List.prefix_append_right_inj _).mpr h5
      · obtain ⟨pre, raw, w, rest, t, t', e1, e2, e3, e4, e5, e6⟩ := h5
        refine .inr ⟨x.take sF.consumed ++ pre, raw, w, rest, t, t', ?_, e2, e3, e4, ?_, e6⟩
        · rw [List.append_assoc, ← e1, List.take_append_drop]
        · rw [List.getLast?_append, e5]
          rfl
    cases x with
    | nil => exact absurd rfl hx
    | cons c cs =>
    by_cases hc : Blank c
    · have : sF = sX := by
        rw [List.cons_append, blank_cut u hc (cs ++ b) cs, eX] at eF
        cases eF
        rfl
      subst this
      obtain ⟨l, k, h⟩ := step_blank u hc cs line column
      rw [h] at eX
      cases eX
      cases cs with
      | nil =>
        rw [tokenizeFrom_last h rfl] at hX
        cases hX
        exact .inl (List.nil_prefix)
      | cons d ds => exact go rfl (by simp)
    · have some_ : ∀ {y : List Char} {s : Step}, StepGood u (c :: y) line column s →
          ∃ t, s.token = some t ∧ Good u (c :: y) line column (t, s.consumed) := by
        intro y s g
        rcases g.what with ⟨-, d, h1, h2, -⟩ | ⟨t, h1, h2, -⟩
        · have := g.pos
          cases hk : s.consumed with
          | zero => omega
          | succ k =>
            rw [hk, List.take_succ_cons] at h1
            rw [List.cons.injEq] at h1
            exact absurd (h1.1 ▸ h2) hc
        · exact ⟨t, h1, h2⟩
      obtain ⟨tF, kF, oF⟩ := some_ gF
      obtain ⟨tX, kX, oX⟩ := some_ gX
      replace oF : Good u (c :: cs ++ b) line column (tF, sF.consumed) := oF
      generalize hx' : c :: cs = x at *
      have fX : x.take sX.consumed ++ x.drop sX.consumed = x := List.take_append_drop ..
      have lX : (x.take sX.consumed).length = sX.consumed := by simp [Nat.min_eq_left gX.le]
      rcases Nat.lt_or_ge sX.consumed x.length with hlt | hge
      · refine go ?_ hlt
        have hd : x.drop sX.consumed ≠ [] := by
          intro h
          have := congrArg List.length h
          simp only [List.length_drop, List.length_nil] at this
          omega
        have h1 := (shape_cut (b := b) hd).mpr oX.shape
        have hT := takes_shape u h1 (.inl (by simp [hb])) (by
          rintro ⟨-, h, -⟩
          have := congrArg List.length h
          simp only [List.length_append, List.length_drop, List.length_cons, List.length_nil] at this
          omega) line column
        have h2 := takes_step hT (s := sF) (by rw [← List.append_assoc, fX]; exact eF)
        rw [h2.2]
        exact (step_formed u eX kX).symm
      · have hj : sX.consumed = x.length := Nat.le_antisymm gX.le hge
        rw [tokenizeFrom_last eX hj, kX] at hX
        cases hX
        have sh : Shape u tX.type x [] ∧ Kept tX.type x tX.text := by
          have h1 := oX.shape
          have h2 := oX.kept
          simp only [hj, List.take_length, List.drop_length] at h1 h2
          exact ⟨h1, h2⟩
        rcases Nat.lt_trichotomy sF.consumed x.length with hk | hk | hk
        · have hd : x.drop sF.consumed ≠ [] := by
            intro h
            have := congrArg List.length h
            simp only [List.length_drop, List.length_nil] at this
            omega
          have h1 := oF.shape
          simp only [List.take_append_of_le_length (Nat.le_of_lt hk), List.drop_append_of_le_length (Nat.le_of_lt hk)] at h1
          replace h1 := (shape_cut hd).mp h1
          by_cases hcm : tF.type = .comment
          · refine .inl ?_
            rw [hcm] at h1
            obtain ⟨body, h2, -⟩ := h1
            have h3 : x = '-' :: '-' :: (body ++ x.drop sF.consumed) := by
              rw [← List.cons_append, ← List.cons_append, ← h2, List.take_append_drop]
            obtain ⟨s, t, h4, h5, h6⟩ := comment_start u (body ++ x.drop sF.consumed) line column
            rw [← h3, eX] at h4
            cases h4
            rw [kX] at h5
            cases h5
            simp [uncommented, h6]
          · have hT := takes_shape u h1 (.inl hd) (fun h => hcm h.1) line column
            have h2 := (takes_step hT (s := sX) (by rw [List.take_append_drop]; exact eX)).1
            rw [List.length_take, Nat.min_eq_left (Nat.le_of_lt hk)] at h2
            omega
        · refine .inl ?_
          have h1 := oF.shape
          simp only [hk, List.take_left] at h1
          have hT := takes_shape u (shape_nil h1) (.inr fun h => short_fails u h _ _ _ eX) (fun h => by cases h.2.1) line column
          have h2 := (takes_step hT (s := sX) (by rw [List.append_nil]; exact eX)).2
          have h3 := step_formed u eF kF
          rw [hk, List.take_left, ← h2] at h3
          subst h3
          rw [kF] at kX
          cases kX
          have : tF ∈ ts.head? := by
            by_cases hl : sF.consumed = (x ++ b).length
            · rw [tokenizeFrom_last eF hl, kF] at hF
              cases hF
              rfl
            · rw [tokenizeFrom_next eF gF.pos (by have := gF.le; omega), kF] at hF
              obtain ⟨ts', h1, h2⟩ := Out.bind_eq_ok hF
              cases h2
              rfl
          cases ts with
          | nil => cases this
          | cons t ts =>
            cases this
            simp only [uncommented, Option.toList_some, List.filter_cons, List.filter_nil]
            split
            · exact ⟨_, rfl⟩
            · exact List.nil_prefix
        · by_cases hcm : tX.type = .comment
          · exact .inl (by simp [uncommented, hcm])
          refine .inr ⟨[], x, b.take (sF.consumed - x.length), b.drop (sF.consumed - x.length), tX, tF, rfl, hx,
            (List.take_append_drop ..).symm, ?_, rfl, hcm, sh.1, sh.2, ?_⟩
          · intro h
            have := congrArg List.length h
            simp only [List.length_take, List.length_nil] at this
            omega
          · have h1 := oF.shape
            have h2 := oF.kept
            simp only [List.take_append, List.drop_append, List.take_of_length_le (Nat.le_of_lt hk),
              List.drop_of_length_le (Nat.le_of_lt hk), List.nil_append] at h1 h2
            exact ⟨h1, h2⟩

/-- The text is cut off after the letters END in the middle of a word. -/
def SplitsEnd (a b : List Char) : Prop := "END".toList <:+ a ∧ ∃ c cs, b = c :: cs ∧ WordChar c

/-- A text that is cut off, not after END in the middle of a word, starts with the tokens of the full text if it is
accepted. -/
theorem cut_start (u : Unicode) {a b : List Char} {ts ps : Tokens} {read : List ParsedModule} {k : Nat}
    (tokens : tokenize u (a ++ b) = .ok ts) (word : ¬ SplitsEnd a b) (left : tokenize u a = .ok ps)
    (accepted : parse k ps = .ok read) : uncommented ps <+: uncommented ts := by
  by_cases hb : b = []
  · subst hb
    rw [List.append_nil, left] at tokens
    cases tokens
    exact List.prefix_refl _
  by_cases ha : a = []
  · subst ha
    rw [tokenize, tokenizeFrom] at left
    cases left
  rcases cut_tokens u hb a.length (Nat.le_refl _) ha tokens left with h | h
  · exact h
  · exfalso
    obtain ⟨pre, raw, w, rest, t, t', e1, e2, e3, e4, e5, hc, hs, hk, hs', hk'⟩ := h
    obtain ⟨-, us, e, h1, he⟩ := C123_ends u a ps k read left accepted
    have ht : t = e := by
      obtain ⟨init, rfl⟩ := List.getLast?_eq_some_iff.mp e5
      rw [List.filter_append, List.filter_cons_of_pos (by simpa using hc), List.filter_nil] at h1
      exact (List.cons.inj (List.append_inj' h1 rfl).2).1
    subst ht
    rw [he.1] at hk
    have hr : raw = "END".toList := (Eq.symm hk).trans he.2
    refine word ⟨⟨pre, by rw [e1, hr]⟩, ?_⟩
    cases w with
    | nil => exact absurd rfl e4
    | cons c cs =>
      refine ⟨c, cs ++ rest, e3, ?_⟩
      have hw : ∀ {type : TokenType}, Shape u type (raw ++ c :: cs) rest → type = .identifier ∨ type = .keyword →
          WordChar c := by
        intro type h1 h2
        have : _root_.Hampi.Spec.Word (raw ++ c :: cs) := by
          rcases h2 with e | e <;> rw [e] at h1 <;> exact h1.1
        exact this.2.1 c (by simp)
      have hE : raw ++ c :: cs = 'E' :: 'N' :: 'D' :: c :: cs := by rw [hr]; rfl
      refine hw hs' ?_
      rw [hE] at hs'
      cases ht' : t'.type <;> rw [ht'] at hs'
      case identifier => exact .inl rfl
      case keyword => exact .inr rfl
      case andIdentifier => obtain ⟨_, h, -⟩ := hs'; cases h
      case atComponentIdList => obtain ⟨_, h, -⟩ := hs'; cases h
      case comment => obtain ⟨_, h, -⟩ := hs'; cases h
      case tString => obtain ⟨_, h, -⟩ := hs'; cases h
      case bitString => obtain ⟨_, _, h, -⟩ := hs'; cases h
      case hexString => obtain ⟨_, _, h, -⟩ := hs'; cases h
      case numberInt =>
        obtain ⟨sign, digits, h, ⟨rfl, -⟩ | ⟨rfl, d, h3, h4⟩, -⟩ := hs'
        · cases h
        · rw [List.nil_append] at h
          subst h
          cases h3
          revert h4
          decide
      all_goals first | (cases hs'; done) | (cases hs'.1; done)

/-- **C139 (partial).** A text that is accepted is cut off at any character, except after the letters END in the middle of
a word. When what is left is accepted as well, then it ends where a module of the full text ends: a text cut off inside of
a module is never accepted. Missing: cuts in words like ENDED (`C139_word_violated`), and texts with END elsewhere than at
the ends of modules (`C139_cut_violated`). -/
theorem C139_anywhere_partial (u : Unicode) (a b : List Char) (ts ps : Tokens) (ms read : List ParsedModule) (n k : Nat)
    (tokens : tokenize u (a ++ b) = .ok ts) (modules : parse n ts = .ok ms) (only : endWords (uncommented ts) = ms.length)
    (word : ¬ SplitsEnd a b) (left : tokenize u a = .ok ps) (accepted : parse k ps = .ok read) :
    ∃ before lost, ms = before ++ lost ∧ AccModules before (uncommented ps) :=
  C139_inside_partial u (a ++ b) a ts ps ms read n k tokens modules only left (cut_start u tokens word left accepted) accepted

/-- **C139 (partial).** When the full text is in the supported notation, and what is left of it is accepted, then what is
returned are the first modules of the full text, unchanged. Missing as above. -/
theorem C139_legal_partial (u : Unicode) (a b : List Char) (ts ps : Tokens) (ms read : List ParsedModule) (k : Nat)
    (tokens : tokenize u (a ++ b) = .ok ts) (legal : ModulesNote ms (uncommented ts))
    (only : endWords (uncommented ts) = ms.length) (word : ¬ SplitsEnd a b) (left : tokenize u a = .ok ps)
    (accepted : parse k ps = .ok read) : ModulesNote read (uncommented ps) ∧ ∃ lost, ms = read ++ lost :=
  C139_cut_partial u a ts ps ms read k legal only left (cut_start u tokens word left accepted) accepted

-- The hypotheses are met by the modules of `cutModules`, cut off in the middle of the comment:
set_option maxRecDepth 8000 in
example : cutModules.take 42 ++ cutModules.drop 42 = cutModules ∧ ¬ SplitsEnd (cutModules.take 42) (cutModules.drop 42) := by
  refine ⟨List.take_append_drop .., ?_⟩
  rintro ⟨h, -⟩
  exact absurd h (by decide +kernel)

/-- Two definitions, the second of a type with the name ENDED. -/
def endedModule : List Char := "M DEFINITIONS ::= BEGIN A ::= NULL ENDED ::= NULL END".toList

set_option maxRecDepth 8000 in
/-- **C139 (violated).** A legal text is cut off in the middle of the name ENDED, and what is left is accepted: without the
second definition. -/
theorem C139_word_violated : outline endedModule = some ([("M", ["A", "ENDED"])], 11) ∧
    outline (endedModule.take 38) = some ([("M", ["A"])], 8) ∧ (startOf endedModule endedModule).map (·.1) = some 1 := by
  decide +kernel

end Hampi.Compiler.Props
