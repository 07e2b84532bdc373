import Verif.Spec.Place
import Verif.Props.TokenizerBack
/-!
# C138: an error of the tokenizer points at the first thing that is no token
-/
namespace Hampi.Compiler
open _root_.Hampi.Spec

theorem Out.bind_eq_err {ε α β : Type} {m : Out ε α} {f : α → Out ε β} {e : ε}
    (h : m.bind f = .err e) : m = .err e ∨ ∃ a, m = .ok a ∧ f a = .err e := by
  cases m with
  | ok a => exact .inr ⟨a, rfl, h⟩
  | err e' => cases h; exact .inl rfl
  | _ => cases h

/-- The place named in an error is the one of the turn. -/
theorem step_err_place (u : Unicode) {chars : List Char} {line column : Nat} {e : TokenizeError}
    (h : step u chars line column = .err e) : e.line = line ∧ e.column = column := by
  cases chars with
  | nil => cases h
  | cons c cs =>
  revert h
  have num : ∀ e, getNumberToken u (c :: cs) line column = .err e → e.line = line ∧ e.column = column := by
    intro e h
    unfold getNumberToken at h
    dsimp only at h
    generalize (if c = '-' then 1 else 0 : Nat) = n at h
    split at h <;> cases h
    exact ⟨rfl, rfl⟩
  refine step_cases u c cs line column (P := fun r => r = .err e → e.line = line ∧ e.column = column)
    ?_ ?_ ?_ ?_ ?_ ?_ ?_ ?_ ?_ ?_ ?_ ?_ ?_ ?_
  · intro _ h; cases h
  · intro _ h; cases h
  · intro _ h
    rcases Out.bind_eq_err h with h | ⟨t?, -, h⟩
    · unfold getMaybeCommentToken at h
      repeat' split at h
      all_goals cases h
    · cases t? with
      | some t => cases h
      | none =>
        rcases Out.bind_eq_err h with h | ⟨t, -, h⟩
        · exact num e h
        · cases h
  · intro _ h
    split at h <;> cases h
    exact ⟨rfl, rfl⟩
  · intro _ h
    rcases Out.bind_eq_err h with h | ⟨t, -, h⟩
    · unfold getSquareToken at h
      repeat' split at h
      all_goals cases h
    · cases h
  · intro _ h
    rcases Out.bind_eq_err h with h | ⟨t, -, h⟩
    · unfold getAssignmentOrColonToken at h
      repeat' split at h
      all_goals cases h
      all_goals exact ⟨rfl, rfl⟩
    · cases h
  · intro _ h
    rcases Out.bind_eq_err h with h | ⟨t, -, h⟩
    · unfold getRangeOrExtensionToken at h
      repeat' split at h
      all_goals cases h
    · cases h
  · intro _ h
    rcases Out.bind_eq_err h with h | ⟨t, -, h⟩
    · unfold getIdentifierOrKeywordToken at h
      dsimp only at h
      generalize (if c = '&' then 1 else 0 : Nat) = n at h
      split at h
      · cases h; exact ⟨rfl, rfl⟩
      split at h
      · cases h
      split at h
      · cases h; exact ⟨rfl, rfl⟩
      split at h
      · cases h; exact ⟨rfl, rfl⟩
      split at h
      · cases h; exact ⟨rfl, rfl⟩
      · cases h
    · cases h
  · intro _ h
    rcases Out.bind_eq_err h with h | ⟨t, -, h⟩
    · exact num e h
    · cases h
  · intro _ h
    rcases Out.bind_eq_err h with h | ⟨t, -, h⟩
    · unfold getAtComponentIdList at h
      split at h
      · cases h; exact ⟨rfl, rfl⟩
      dsimp only at h
      split at h
      · cases h
      split at h
      · cases h; exact ⟨rfl, rfl⟩
      · cases h
    · cases h
  · intro _ h
    rcases Out.bind_eq_err h with h | ⟨t, -, h⟩
    · unfold getBitOrHexStringToken at h
      split at h
      · cases h; exact ⟨rfl, rfl⟩
      split at h
      · cases h; exact ⟨rfl, rfl⟩
      dsimp only at h
      split at h
      · cases h; exact ⟨rfl, rfl⟩
      split at h
      · cases h; exact ⟨rfl, rfl⟩
      split at h
      · cases h; exact ⟨rfl, rfl⟩
      split at h
      · cases h; exact ⟨rfl, rfl⟩
      · cases h
    · cases h
  · intro _ h
    rcases Out.bind_eq_err h with h | ⟨t, -, h⟩
    · unfold getStringToken at h
      split at h
      · cases h; exact ⟨rfl, rfl⟩
      split at h
      · cases h; exact ⟨rfl, rfl⟩
      · cases h
    · cases h
  · intro _ h; cases h
  · intro _ h; cases h

/-- A token ends on the line the next turn starts on. -/
theorem step_stop (u : Unicode) {chars : List Char} {line column : Nat} {s : Step}
    (h : step u chars line column = .ok s) : ∀ t, s.token = some t → t.stop.line = s.line := by
  cases chars with
  | nil => cases h
  | cons c cs =>
  revert h
  have one : ∀ {t : Lexed}, Flat u (c :: cs) line column t →
      ∀ t', (Step.of line column t).token = some t' → t'.stop.line = (Step.of line column t).line := by
    intro t h t' ht
    cases ht
    exact h.stop
  have more : ∀ {t : Lexed × Nat × Nat}, Multi u (c :: cs) line column t →
      ∀ t', (Step.ofLines line column t).token = some t' → t'.stop.line = (Step.ofLines line column t).line := by
    intro t h t' ht
    cases ht
    exact h.stop
  refine step_cases u c cs line column (P := fun r => r = .ok s → ∀ t, s.token = some t → t.stop.line = s.line)
    ?_ ?_ ?_ ?_ ?_ ?_ ?_ ?_ ?_ ?_ ?_ ?_ ?_ ?_
  · intro _ h; cases h; exact nofun
  · intro _ h; cases h; exact nofun
  · intro hb h
    cases hb
    obtain ⟨t?, h1, h⟩ := Out.bind_eq_ok h
    cases t? with
    | some t =>
      cases h
      exact one (getComment_good u (fun _ h => by cases h; rfl) h1)
    | none =>
      obtain ⟨t, h2, h⟩ := Out.bind_eq_ok h
      cases h
      refine one (getNumber_good u (fun _ h => ?_) h2)
      cases h
      refine .inl ⟨rfl, fun h => ?_⟩
      unfold getMaybeCommentToken at h1
      cases cs with
      | nil => cases h1
      | cons d ds =>
        cases h
        cases h1
  · intro _ h
    split at h
    · rename_i ht
      cases h
      exact one (singleChar_good u ht)
    · cases h
  · intro hb h
    obtain ⟨t, h1, h⟩ := Out.bind_eq_ok h
    cases h
    exact one (getSquare_good u (fun _ h => by cases h; exact hb) h1)
  · intro hb h
    obtain ⟨t, h1, h⟩ := Out.bind_eq_ok h
    cases h
    exact one (getColon_good u (fun _ h => by cases h; exact hb) h1)
  · intro hb h
    obtain ⟨t, h1, h⟩ := Out.bind_eq_ok h
    cases h
    exact one (getRange_good u (fun _ h => by cases h; exact hb) h1)
  · intro hb h
    obtain ⟨t, h1, h⟩ := Out.bind_eq_ok h
    cases h
    exact one (getIdentifier_good u (fun _ h => by cases h; exact hb) h1)
  · intro hb h
    obtain ⟨t, h1, h⟩ := Out.bind_eq_ok h
    cases h
    exact one (getNumber_good u (fun _ h => by cases h; exact .inr hb) h1)
  · intro hb h
    obtain ⟨t, h1, h⟩ := Out.bind_eq_ok h
    cases h
    exact one (getAt_good u (fun _ h => by cases h; exact hb) h1)
  · intro hb h
    obtain ⟨t, h1, h⟩ := Out.bind_eq_ok h
    cases h
    exact more (getBitOrHex_good u (fun _ h => by cases h; exact hb) h1)
  · intro hb h
    obtain ⟨t, h1, h⟩ := Out.bind_eq_ok h
    cases h
    exact more (getString_good u (fun _ h => by cases h; exact hb) h1)
  · intro _ h; cases h; exact nofun
  · intro _ h; cases h

/-- A turn fails only where there is no token. -/
theorem step_err_noToken (u : Unicode) {chars : List Char} {line column : Nat} {e : TokenizeError}
    (h : step u chars line column = .err e) : NoToken u chars := by
  by_cases hat : chars = ['@']
  · exact .inl hat
  refine .inr ⟨?_, ?_⟩
  · cases chars with
    | nil => cases h
    | cons c cs =>
      refine ⟨c, cs, rfl, ?_, ?_⟩
      · by_cases hs : Starts c
        · exact hs
        · rw [step_unknown u cs hs] at h; cases h
      · intro hb
        obtain ⟨l, k, hs⟩ := step_blank u hb cs line column
        rw [hs] at h; cases h
  · rintro type raw tail hne rfl hs
    by_cases hl : tail ≠ [] ∨ raw ∉ short
    · by_cases hc : type = .comment ∧ tail = ['\n'] ∧ ¬ ['-', '-'] <:+: raw.drop 2
      · obtain ⟨rfl, rfl, -⟩ := hc
        obtain ⟨body, rfl, -⟩ := hs
        have : step u ('-' :: '-' :: body ++ ['\n']) line column = .err e := h
        unfold step at this
        simp only [List.cons_append] at this
        rw [if_neg (by decide), if_neg (by decide), if_pos trivial] at this
        cases this
      · obtain ⟨s, t, h1, -⟩ := takes_shape u hs hl hc line column
        rw [h1] at h; cases h
    · have hnil : tail = [] := Classical.byContradiction fun hn => hl (.inl hn)
      have hm : raw ∈ short := Classical.byContradiction fun hn => hl (.inr hn)
      subst hnil
      rw [List.append_nil] at h hat
      simp only [short, List.mem_cons, List.not_mem_nil, or_false] at hm
      rcases hm with rfl | rfl | rfl | rfl
      · cases h
      · cases h
      · cases h
      · exact hat rfl

/-- And it does fail there. -/
theorem step_noToken (u : Unicode) {chars : List Char} (h : NoToken u chars) (line column : Nat) :
    ∃ e, step u chars line column = .err e := by
  rcases h with rfl | ⟨⟨c, cs, rfl, hst, hb⟩, hsh⟩
  · exact ⟨_, rfl⟩
  cases hs : step u (c :: cs) line column with
  | err e => exact ⟨e, rfl⟩
  | diverge => exact absurd hs (step_not_diverge u _ _ _)
  | panic =>
    rcases step_panic u hs with h | h | h | h | ⟨d, ds, h, hd⟩
    · cases h
    · exact absurd (show Shape u .numberInt ['-'] [] from
        ⟨['-'], [], rfl, .inl ⟨rfl, nofun⟩, nofun, nofun⟩) (hsh .numberInt ['-'] [] (by simp) h)
    · exact absurd (show Shape u .squareBegin ['['] [] from ⟨rfl, nofun⟩) (hsh .squareBegin ['['] [] (by simp) h)
    · exact absurd (show Shape u .squareEnd [']'] [] from ⟨rfl, nofun⟩) (hsh .squareEnd [']'] [] (by simp) h)
    · cases h; exact absurd hst hd
  | ok s =>
    have g := step_good u hs
    rcases g.what with ⟨-, d, hd, hbd, -⟩ | ⟨t, -, hg, -⟩
    · have hp := g.pos
      obtain ⟨n, hn⟩ : ∃ n, s.consumed = n + 1 := ⟨s.consumed - 1, by omega⟩
      rw [hn, List.take_succ_cons] at hd
      have hd := (List.cons.inj hd).1
      subst hd
      exact absurd hbd hb
    · refine absurd hg.shape (hsh t.type _ _ ?_ (List.take_append_drop _ _).symm)
      intro e
      have h7 := congrArg List.length e
      rw [List.length_take, List.length_nil] at h7
      have := g.pos
      have := g.le
      omega

/-- The tokenizer gets to the place where there is no token, and the invariant with it. -/
theorem tokenizeFrom_place {u : Unicode} (at_ : List Char → LineColumn → Prop) (Q : List Char → Prop)
    (hstep : ∀ before chars line column s, step u chars line column = .ok s → at_ before ⟨line, column⟩ →
      chars.drop s.consumed ≠ [] → Q (chars.take s.consumed) →
      at_ (before ++ chars.take s.consumed) ⟨s.line, s.column⟩)
    {chars rest : List Char} {raws : List (List Char)} (h : Cut u chars raws rest) (hr : NoToken u rest)
    (before : List Char) (line column : Nat) (ha : at_ before ⟨line, column⟩)
    (seen : List Char) (hseen : chars = seen ++ rest) (hQ : ∀ raw ∈ raws, raw ⊆ seen → Q raw)
    (hQ' : ∀ c ∈ seen, Blank c → Q [c]) :
    ∃ e, tokenizeFrom u chars line column = .err e ∧ at_ (before ++ seen) ⟨e.line, e.column⟩ := by
  have hne : rest ≠ [] := by
    rcases hr with rfl | ⟨⟨c, cs, rfl, -⟩, -⟩ <;> simp
  have hnl : rest ≠ ['\n'] := by
    rcases hr with rfl | ⟨⟨c, cs, rfl, -, hb⟩, -⟩
    · simp
    · rintro h; cases h
      exact hb (.inr (.inr (.inl rfl)))
  induction h generalizing before line column seen with
  | @here rest =>
    have hs : seen = [] := by
      have := congrArg List.length hseen
      rw [List.length_append] at this
      exact List.length_eq_zero_iff.mp (by omega)
    subst hs
    obtain ⟨e, he⟩ := step_noToken u hr line column
    refine ⟨e, by rw [tokenizeFrom, he], ?_⟩
    obtain ⟨h1, h2⟩ := step_err_place u he
    rw [List.append_nil, h1, h2]
    exact ha
  | @blank c cs rest raws hb h ih =>
    have hsuf : ∃ seen', cs = seen' ++ rest := by
      clear ih hseen hQ
      induction h with
      | here => exact ⟨[], rfl⟩
      | blank _ _ ih =>
        obtain ⟨x, rfl⟩ := ih hr hne hnl
        exact ⟨_ :: x, rfl⟩
      | @token _ raw _ _ _ _ _ _ ih =>
        obtain ⟨x, rfl⟩ := ih hr hne hnl
        exact ⟨raw ++ x, by simp⟩
    obtain ⟨seen', rfl⟩ := hsuf
    have e1 : seen = c :: seen' := by
      rw [← List.cons_append] at hseen
      exact (List.append_cancel_right hseen).symm
    subst e1
    have hcs : seen' ++ rest ≠ [] := by simp [hne]
    obtain ⟨l, k, hs⟩ := step_blank u hb (seen' ++ rest) line column
    have hp := List.length_pos_iff.mpr hcs
    have ha' := hstep before _ line column _ hs ha (by simpa using hcs)
      (by simpa using hQ' c (by simp) hb)
    obtain ⟨e, he, hat⟩ := ih hr (before ++ [c]) l k (by simpa using ha') seen' rfl
      (fun r hm hs => hQ r hm (fun x hx => List.mem_cons_of_mem _ (hs hx)))
      (fun d hd => hQ' d (List.mem_cons_of_mem _ hd)) hne hnl
    refine ⟨e, ?_, by simpa using hat⟩
    rw [tokenizeFrom_next hs Nat.one_pos (by simpa using hp)]
    show ((tokenizeFrom u (seen' ++ rest) l k).bind _) = _
    rw [he]
    rfl
  | @token type raw cs rest raws hraw hs h ih =>
    have hsuf : ∃ seen', cs = seen' ++ rest := by
      clear ih hseen hs hQ
      induction h with
      | here => exact ⟨[], rfl⟩
      | blank _ _ ih =>
        obtain ⟨x, rfl⟩ := ih hr hne hnl
        exact ⟨_ :: x, rfl⟩
      | @token _ raw _ _ _ _ _ _ ih =>
        obtain ⟨x, rfl⟩ := ih hr hne hnl
        exact ⟨raw ++ x, by simp⟩
    obtain ⟨seen', rfl⟩ := hsuf
    have e1 : seen = raw ++ seen' := by
      rw [← List.append_assoc] at hseen
      exact (List.append_cancel_right hseen).symm
    subst e1
    have hcs : seen' ++ rest ≠ [] := by simp [hne]
    have hsp : ¬ (type = .comment ∧ seen' ++ rest = ['\n'] ∧ ¬ ['-', '-'] <:+: raw.drop 2) := by
      rintro ⟨-, h2, -⟩
      cases seen' with
      | nil => exact hnl h2
      | cons x xs =>
        simp only [List.cons_append, List.cons.injEq, List.append_eq_nil_iff] at h2
        exact hne h2.2.2
    obtain ⟨s, t, h1, h2, h3, -⟩ := takes_shape u hs (.inl hcs) hsp line column
    have hp := List.length_pos_iff.mpr hcs
    have hq := List.length_pos_iff.mpr hraw
    have ha' := hstep before _ line column _ h1 ha (by rw [h2, List.drop_left]; exact hcs)
      (by rw [h2, List.take_left]; exact hQ raw (by simp) (fun x hx => List.mem_append_left _ hx))
    rw [h2, List.take_left] at ha'
    obtain ⟨e, he, hat⟩ := ih hr (before ++ raw) _ _ ha' seen' rfl
      (fun r hm hs => hQ r (List.mem_cons_of_mem _ hm) (fun x hx => List.mem_append_right _ (hs hx)))
      (fun d hd => hQ' d (List.mem_append_right _ hd)) hne hnl
    refine ⟨e, ?_, by simpa using hat⟩
    rw [tokenizeFrom_next h1 (by omega) (by rw [h2, List.length_append]; omega), h2, List.drop_left, he]
    rfl

/-- An error is found at a place without a token. -/
theorem tokenizeFrom_err (u : Unicode) (chars : List Char) (line column : Nat) (e : TokenizeError)
    (h : tokenizeFrom u chars line column = .err e) : ∃ raws rest, Cut u chars raws rest ∧ NoToken u rest := by
  fun_induction tokenizeFrom u chars line column with
  | case1 chars line column e' hs => exact ⟨[], chars, .here, step_err_noToken u hs⟩
  | case2 => cases h
  | case3 => cases h
  | case4 => cases h
  | case5 => cases h
  | case6 => cases h
  | case7 chars line column s hs h1 h2 h3 ih =>
    rcases Out.bind_eq_err h with h | ⟨_, -, h⟩
    · obtain ⟨raws, rest, hc, hr⟩ := ih h
      have g := step_good u hs
      rw [← List.take_append_drop s.consumed chars]
      rcases g.what with ⟨-, c, hc', hb, -⟩ | ⟨t, -, hg, -⟩
      · rw [hc']; exact ⟨raws, rest, .blank hb hc, hr⟩
      · refine ⟨_ :: raws, rest, .token (fun e => ?_) hg.shape hc, hr⟩
        have h7 := congrArg List.length e
        rw [List.length_take, List.length_nil] at h7
        have := g.pos
        have := g.le
        omega
    · cases h

/-- **C138.** The tokenizer returns an error exactly for the texts that have a place, after tokens and blank
characters, where neither a token nor a blank character comes next. (Where no character of ASN.1 comes next it
panics, C52.) -/
theorem C138_refused_iff (u : Unicode) (chars : List Char) :
    (∃ e, tokenize u chars = .err e) ↔ ∃ raws rest, Cut u chars raws rest ∧ NoToken u rest := by
  refine ⟨fun ⟨e, h⟩ => tokenizeFrom_err u chars 1 0 e h, ?_⟩
  rintro ⟨raws, rest, hc, hr⟩
  have hsuf : ∃ seen, chars = seen ++ rest := by
    clear hr
    induction hc with
    | here => exact ⟨[], rfl⟩
    | blank _ _ ih =>
      obtain ⟨x, rfl⟩ := ih
      exact ⟨_ :: x, rfl⟩
    | @token _ raw _ _ _ _ _ _ ih =>
      obtain ⟨x, rfl⟩ := ih
      exact ⟨raw ++ x, by simp⟩
  obtain ⟨seen, hseen⟩ := hsuf
  obtain ⟨e, h, -⟩ := tokenizeFrom_place (fun _ _ => True) (fun _ => True) (fun _ _ _ _ _ _ _ _ _ => trivial) hc hr
    [] 1 0 trivial seen hseen (fun _ _ _ => trivial) (fun _ _ _ => trivial)
  exact ⟨e, h⟩

/-- **C138.** The error names the line of that place: one more than there are line ends before it. -/
theorem C138_line {u : Unicode} {before rest : List Char} {raws : List (List Char)}
    (h : Cut u (before ++ rest) raws rest) (hr : NoToken u rest) :
    ∃ e, tokenize u (before ++ rest) = .err e ∧ OnLine before ⟨e.line, e.column⟩ := by
  obtain ⟨e, he, hat⟩ := tokenizeFrom_place OnLine (fun _ => True) (by
    intro b chars line column s hs ha hne _
    have := (step_good u hs).line_eq hne
    unfold OnLine at *
    dsimp only at *
    rw [List.count_append, this, ha]
    omega) h hr [] 1 0 rfl before rfl (fun _ _ _ => trivial) (fun _ _ _ => trivial)
  exact ⟨e, he, by simpa using hat⟩

/-- **C138 (part).** It names the column, too: the number of characters between the last line end and the place, if no
token before it goes over several lines and there is no byte order mark. Missing, because false: the column after a
token over several lines, see `C138_column_violated`. -/
theorem C138_place_partial {u : Unicode} {before rest : List Char} {raws : List (List Char)}
    (h : Cut u (before ++ rest) raws rest) (hr : NoToken u rest) (hbom : '\uFEFF' ∉ before)
    (h1 : ∀ raw ∈ raws, '\n' ∉ raw) :
    ∃ e, tokenize u (before ++ rest) = .err e ∧ AtPosition before ⟨e.line, e.column⟩ := by
  obtain ⟨e, he, hat⟩ := tokenizeFrom_place (u := u) AtPosition (fun w => w ≠ ['\uFEFF'] ∧ (w ≠ ['\n'] → '\n' ∉ w)) (by
    intro b chars line column s hs hp hne hQ
    have g := step_good u hs
    have hl := g.line_eq hne
    refine ⟨?_, ?_⟩
    · have hline : line = 1 + b.count '\n' := hp.1
      dsimp only at *
      rw [List.count_append, hl, hline]
      omega
    · have hcol := hp.2
      dsimp only at *
      have key : ∀ w : List Char, '\n' ∉ w →
          ((b ++ w).reverse.takeWhile (· ≠ '\n')).length =
            w.length + (b.reverse.takeWhile (· ≠ '\n')).length := by
        intro w hw
        rw [List.reverse_append, List.takeWhile_append_of_pos, List.length_append, List.length_reverse]
        intro c hc
        have := List.mem_reverse.mp hc
        simp only [decide_eq_true_eq, ne_eq]
        exact fun e => hw (e ▸ this)
      rcases g.what with ⟨-, c, hc, -, hcc⟩ | ⟨t, ht, hg, hcc⟩
      · rw [hc] at hQ ⊢
        rcases hcc with ⟨rfl, e⟩ | ⟨rfl, e⟩ | ⟨hn, e⟩
        · rw [e]; simp
        · exact absurd rfl hQ.1
        · rw [e, key [c] (by simpa using fun e => hn e.symm)]
          rw [hcol]; simp; omega
      · have hn : '\n' ∉ chars.take s.consumed := by
          refine hQ.2 fun e => ?_
          have hsh := hg.shape
          dsimp only at hsh
          rw [e] at hsh
          have := takes_shape u hsh (.inl hne) (by
            rintro ⟨hc, -, -⟩
            rw [hc] at hsh
            obtain ⟨body, hb, -⟩ := hsh
            cases hb) 1 0
          obtain ⟨s', t', h1, -, h3, -⟩ := this
          cases h1
          cases h3
        have ho : t.stop.line = line := by
          rw [step_stop u hs t ht, hl, List.count_eq_zero.mpr hn, Nat.add_zero]
        obtain ⟨h2, -⟩ := hcc ho
        rw [h2, key _ hn, hcol, List.length_take]
        have := g.le
        omega) h hr [] 1 0 ⟨rfl, rfl⟩ before rfl
      (fun raw hraw hsub => ⟨fun e => hbom (hsub (by rw [e]; simp)), fun _ => h1 raw hraw⟩)
      (fun c hc hb => ⟨fun e => hbom (by cases e; exact hc), fun hn hm => hn (by
        rw [List.mem_singleton] at hm; rw [hm])⟩)
  exact ⟨e, he, by simpa using hat⟩

/-- **C138 (violated).** After a bit string on two lines the column named is one too small. -/
theorem C138_column_violated (u : Unicode) :
    tokenize u "'0\n1'B a- ".toList = .err ⟨16, 2, 3⟩ ∧
      Cut u "'0\n1'B a- ".toList ["'0\n1'B".toList] "a- ".toList ∧ NoToken u "a- ".toList ∧
      ¬ AtPosition "'0\n1'B ".toList ⟨2, 3⟩ := by
  have e : step u "a- ".toList 1 0 = .err ⟨16, 1, 0⟩ := by rfl
  refine ⟨?_, ?_, step_err_noToken u e, ?_⟩
  · unfold tokenize
    rw [tokenizeFrom_next (s := ⟨6, some ⟨.bitString, ⟨1, 0⟩, ⟨2, 2⟩, ['\'', '0', '1', '\'']⟩, 2, 2⟩)
      (by rfl) (by decide) (by decide)]
    rw [tokenizeFrom_next (s := ⟨1, none, 2, 3⟩) (by rfl) (by decide) (by decide)]
    rw [tokenizeFrom]
    rfl
  · exact .token (type := .bitString) (raw := "'0\n1'B".toList) (by decide)
      ⟨['0', '\n', '1'], 'B', rfl, .inr rfl, by decide⟩ (.blank (.inl rfl) .here)
  · rintro ⟨-, h⟩
    revert h
    decide

/-- A word and, right after it, two hyphens: no token comes next. -/
theorem word_dashes_noToken (u : Unicode) {w : List Char} (hw : Word w) (ha : ∀ c, w.head? = some c → c.isAlpha)
    (tail : List Char) : NoToken u (w ++ '-' :: '-' :: tail) := by
  obtain ⟨hne, hwc, -, -⟩ := hw
  cases w with
  | nil => exact absurd rfl hne
  | cons c cs =>
  have hc := ha c rfl
  have hand : c ≠ '&' := by rintro rfl; revert hc; decide
  have key : ∃ e, getIdentifierOrKeywordToken (c :: cs ++ '-' :: '-' :: tail) 1 0 = .err e := by
    unfold getIdentifierOrKeywordToken
    simp only [List.cons_append, if_neg hand]
    rw [if_neg (by omega)]
    simp only [List.drop_zero, Nat.zero_add]
    have hs : span (fun c => isWordChar c || decide (c = '-')) (c :: (cs ++ '-' :: '-' :: tail)) =
        (c :: cs).length + 2 + span (fun c => isWordChar c || decide (c = '-')) tail := by
      have e : c :: (cs ++ '-' :: '-' :: tail) = (c :: cs ++ ['-', '-']) ++ tail := by simp
      unfold span
      rw [e, List.takeWhile_append_of_pos]
      · simp only [List.length_append, List.length_cons, List.length_nil]
      · intro d hd
        rw [wordChar_iff]
        rcases List.mem_append.mp hd with hd | hd
        · exact hwc d hd
        · simp only [List.mem_cons, List.not_mem_nil, or_false, or_self] at hd
          exact .inr (.inr hd)
    rw [hs, if_neg (by simp)]
    split
    · exact ⟨_, rfl⟩
    rw [if_neg (by omega)]
    have hd : hasDoubleDash ((c :: (cs ++ '-' :: '-' :: tail)).take
        ((c :: cs).length + 2 + span (fun c => isWordChar c || decide (c = '-')) tail)) = true := by
      rw [hasDoubleDash_iff]
      have e : c :: (cs ++ '-' :: '-' :: tail) = (c :: cs ++ ['-', '-']) ++ tail := by simp
      rw [e, List.take_append]
      rw [List.take_of_length_le (by simp)]
      exact ⟨c :: cs, _, by simp; rfl⟩
    rw [if_pos hd]
    exact ⟨_, rfl⟩
  obtain ⟨e, he⟩ := key
  refine step_err_noToken u (line := 1) (column := 0) (e := e) ?_
  have c1 : ¬ (c = ' ' ∨ c = '\t') := by rintro (rfl | rfl) <;> revert hc <;> decide
  have c2 : c ≠ '\n' := by rintro rfl; revert hc; decide
  have c3 : c ≠ '-' := by rintro rfl; revert hc; decide
  have c4 : ¬ (singleCharType c).isSome = true := by
    unfold singleCharType
    split <;> first | (intro _; revert hc; decide) | (simp)
  have c5 : ¬ (c = '[' ∨ c = ']') := by rintro (rfl | rfl) <;> revert hc <;> decide
  have c6 : c ≠ ':' := by rintro rfl; revert hc; decide
  have c7 : c ≠ '.' := by rintro rfl; revert hc; decide
  unfold step
  simp only [List.cons_append]
  rw [if_neg c1, if_neg c2, if_neg c3, if_neg c4, if_neg c5, if_neg c6, if_neg c7, if_pos (.inr hc)]
  rw [List.cons_append] at he
  rw [he]
  rfl

/-- **C94 (violated).** In ASN.1 a comment may follow a word at once: `INTEGER-- a number`. Wherever that is done, the
text is refused (with the line of the word). -/
theorem C94_comment_after_word_violated {u : Unicode} {before w tail : List Char} {raws : List (List Char)}
    (hw : Word w) (ha : ∀ c, w.head? = some c → c.isAlpha)
    (h : Cut u (before ++ (w ++ '-' :: '-' :: tail)) raws (w ++ '-' :: '-' :: tail)) :
    ∃ e, tokenize u (before ++ (w ++ '-' :: '-' :: tail)) = .err e ∧ OnLine before ⟨e.line, e.column⟩ :=
  C138_line h (word_dashes_noToken u hw ha tail)

/-- The hypotheses are met by `A ::= INTEGER-- a number`, also for the column. -/
theorem place_example (u : Unicode) (rest : List Char) :
    Cut u (['A', ' ', ':', ':', '=', ' '] ++ rest) [['A'], [':', ':', '=']] rest := by
  have h1 : Cut u ([':', ':', '='] ++ ' ' :: rest) [[':', ':', '=']] rest :=
    .token (type := .assignment) (by decide) rfl (.blank (.inl rfl) .here)
  have h2 : Shape u .identifier ['A'] (' ' :: ([':', ':', '='] ++ ' ' :: rest)) := by
    have hk : ∀ kw ∈ KEYWORDS, ['A'] ≠ kw.toList := by decide +kernel
    have hd : ¬ ['-', '-'] <:+: ['A'] := by decide
    refine ⟨⟨by decide, ?_, by decide, hd⟩, ?_, ?_, hk⟩
    · intro c hc
      rw [List.mem_singleton] at hc
      subst hc
      exact .inl (by decide)
    · intro c hc
      cases hc
      decide
    · intro c hc
      cases hc
      rintro (h | h | h) <;> revert h <;> decide
  exact .token (by decide) h2 (.blank (.inl rfl) h1)

theorem integer_word : Word "INTEGER".toList ∧ ∀ c, "INTEGER".toList.head? = some c → c.isAlpha := by
  have hd : ¬ ['-', '-'] <:+: "INTEGER".toList := by
    rw [← hasDoubleDash_iff]
    decide +kernel
  refine ⟨⟨by decide, ?_, by decide, hd⟩, ?_⟩
  · have : ∀ c ∈ "INTEGER".toList, c.isAlpha = true := by decide
    exact fun c hc => .inl (this c hc)
  · intro c hc
    cases hc
    decide

example (u : Unicode) := C94_comment_after_word_violated integer_word.1 integer_word.2
  (place_example u ("INTEGER".toList ++ '-' :: '-' :: " a number".toList))
example (u : Unicode) := C138_line (place_example u _)
  (word_dashes_noToken u integer_word.1 integer_word.2 " a number".toList)
example (u : Unicode) := C138_place_partial (place_example u _)
  (word_dashes_noToken u integer_word.1 integer_word.2 " a number".toList) (by decide) (by decide)
example (u : Unicode) : ∃ e, tokenize u (['A', ' ', ':', ':', '=', ' '] ++
    ("INTEGER".toList ++ '-' :: '-' :: " a number".toList)) = .err e :=
  (C138_refused_iff u _).mpr ⟨_, _, place_example u _, word_dashes_noToken u integer_word.1 integer_word.2 _⟩

end Hampi.Compiler
