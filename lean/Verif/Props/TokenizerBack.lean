import Verif.Lemmas.TokensBack
import Verif.Lemmas.Resolve
import Verif.Props.Tokenizer
/-!
# C94: every text made of tokens is cut into these tokens

The converse of C50: `Spec.Tiles` says how a text is made of tokens.
-/
namespace Hampi.Compiler
open _root_.Hampi.Spec

/-! ## C94 -/

theorem step_blank (u : Unicode) {c : Char} (h : Blank c) (cs : List Char) (line column : Nat) :
    ∃ l k, step u (c :: cs) line column = .ok ⟨1, none, l, k⟩ := by
  rcases h with rfl | rfl | rfl | rfl <;> exact ⟨_, _, rfl⟩

theorem tokenizeFrom_blanks (u : Unicode) (gap rest : List Char) (hg : ∀ c ∈ gap, Blank c) (hne : rest ≠ [])
    (line column : Nat) : ∃ l k, tokenizeFrom u (gap ++ rest) line column = tokenizeFrom u rest l k := by
  induction gap generalizing line column with
  | nil => exact ⟨_, _, rfl⟩
  | cons c cs ih =>
    obtain ⟨l, k, hs⟩ := step_blank u (hg c (by simp)) (cs ++ rest) line column
    obtain ⟨l', k', ih⟩ := ih (fun d hd => hg d (List.mem_cons_of_mem _ hd)) l k
    refine ⟨l', k', ?_⟩
    rw [List.cons_append, tokenizeFrom_next hs (by simp) (by
      have := List.length_pos_iff.mpr hne
      simp only [List.length_cons, List.length_append]; omega)]
    simp only [List.drop_succ_cons, List.drop_zero, ih]
    cases tokenizeFrom u rest l' k' <;> rfl

theorem tokenizeFrom_all_blank (u : Unicode) (gap : List Char) (hg : ∀ c ∈ gap, Blank c) (hne : gap ≠ [])
    (line column : Nat) : tokenizeFrom u gap line column = .ok [] := by
  have e := List.dropLast_concat_getLast hne
  have hb := hg _ (List.getLast_mem hne)
  obtain ⟨l, k, h⟩ := tokenizeFrom_blanks u gap.dropLast [gap.getLast hne]
    (fun c hc => hg c (List.dropLast_subset _ hc)) (by simp) line column
  rw [e] at h
  obtain ⟨l', k', hs⟩ := step_blank u hb [] l k
  rw [h, tokenizeFrom_last hs rfl]
  rfl

theorem kept_same {t t' : Token} {raw : List Char} (ht : t.type = t'.type) (h : Kept t.type raw t.text)
    (h' : Kept t'.type raw t'.text) : Same t t' := by
  rw [← ht] at h'
  refine ⟨ht, ?_⟩
  clear ht
  generalize t.type = type at h h'
  cases type
  case tString => exact h'.2.1.trans h.2.1.symm
  case comment => exact .inl (Eq.trans h' (Eq.symm h))
  all_goals exact Eq.trans h' (Eq.symm h)

theorem tiles_nil {u : Unicode} {at_ : List Char → LineColumn → Prop} {before : List Char} {ts : List Token}
    (h : Tiles u at_ before [] ts) : ts = [] := by
  generalize hr : [] = r at h
  cases h with
  | done => rfl
  | @token before gap raw rest t ts hg hne hs hk ha ht =>
    have := List.append_eq_nil_iff.mp hr.symm
    exact absurd (List.append_eq_nil_iff.mp this.1).2 hne

theorem tiles_newline {u : Unicode} {at_ : List Char → LineColumn → Prop} {before : List Char} {ts : List Token}
    (h : Tiles u at_ before ['\n'] ts) : ts = [] := by
  generalize hr : ['\n'] = r at h
  cases h with
  | done => rfl
  | @token before gap raw rest t ts hg hne hs hk ha ht =>
    exfalso
    cases raw with
    | nil => exact hne rfl
    | cons c cs =>
      have hlen := congrArg List.length hr
      simp only [List.length_append, List.length_cons, List.length_nil] at hlen
      have h1 : gap = [] := List.length_eq_zero_iff.mp (by omega)
      have h2 : cs = [] := List.length_eq_zero_iff.mp (by omega)
      have h3 : rest = [] := List.length_eq_zero_iff.mp (by omega)
      subst h1 h2 h3
      cases hr
      obtain ⟨s, t, h1, -, h2, -⟩ := takes_shape u hs (.inr (by decide)) (by simp) 1 0
      cases h1
      cases h2

theorem tokenizeFrom_accepts {u : Unicode} {at_ : List Char → LineColumn → Prop} {before chars : List Char} {ts : List Token}
    (h : Tiles u at_ before chars ts) (hne : chars ≠ [])
    (hl : (∃ c, chars.getLast? = some c ∧ Blank c) ∨ ∀ t, ts.getLast? = some t → t.text ∉ short) (line column : Nat) :
    ∃ ts', tokenizeFrom u chars line column = .ok ts' ∧ All2 Same ts ts' := by
  induction h generalizing line column with
  | done hg => exact ⟨[], tokenizeFrom_all_blank u _ hg hne line column, .nil⟩
  | @token before gap raw rest t ts hg hraw hs hk ha ht ih =>
    have hrr : raw ++ rest ≠ [] := by simp [hraw]
    obtain ⟨l, k, e⟩ := tokenizeFrom_blanks u gap (raw ++ rest) hg hrr line column
    rw [List.append_assoc, e]
    by_cases hspec : t.type = .comment ∧ rest = ['\n'] ∧ ¬ ['-', '-'] <:+: raw.drop 2
    · obtain ⟨hc, rfl, hd⟩ := hspec
      have hts := tiles_newline ht
      subst hts
      have hs' : Shape u .comment (raw ++ ['\n']) [] := by
        rw [hc] at hs
        obtain ⟨body, rfl, ⟨b, rfl, -, -⟩ | ⟨hn, hd, -⟩ | ⟨h, -, -⟩⟩ := hs
        · exact absurd ⟨b, [], by simp⟩ hd
        · refine ⟨body ++ ['\n'], rfl, .inr (.inr ⟨rfl, ?_, by simpa using hn⟩)⟩
          rintro ⟨x, y, e⟩
          rcases List.eq_nil_or_concat y with rfl | ⟨y', c, rfl⟩
          · simp only [List.append_nil] at e
            have : (x ++ ['-']) ++ ['-'] = body ++ ['\n'] := by simpa using e
            have := (List.append_inj' this rfl).2
            cases this
          · have : (x ++ ['-', '-'] ++ y') ++ [c] = body ++ ['\n'] := by simpa using e
            exact hd ⟨x, y', (List.append_inj' this rfl).1⟩
        · cases h
      obtain ⟨s, t', h1, h2, h3, h4⟩ := takes_shape u hs' (.inr (by
        obtain ⟨body, e, -⟩ := hs'
        rw [e]
        simp [short])) (by simp) l k
      rw [List.append_nil] at h1
      refine ⟨[t'], ?_, .cons ?_ .nil⟩
      · rw [tokenizeFrom_last h1 h2, h3]; rfl
      · have g := step_good u h1
        obtain ⟨t'', ht'', hg', -⟩ : ∃ t'', s.token = some t'' ∧ Good u (raw ++ ['\n']) l k (t'', s.consumed) ∧ True := by
          rcases g.what with ⟨hn, -⟩ | ⟨t'', e, hg', -⟩
          · rw [hn] at h3; cases h3
          · exact ⟨t'', e, hg', trivial⟩
        rw [h3] at ht''
        cases ht''
        have hk' := hg'.kept
        simp only [h2, List.take_length, h4, Kept] at hk'
        refine ⟨hc.trans h4.symm, ?_⟩
        rw [hc]
        rw [hc] at hk
        simp only [Kept] at hk
        rw [hk]
        exact .inr hk'
    · have hlast : rest ≠ [] ∨ raw ∉ short := by
        by_cases hr : rest = []
        · right
          subst hr
          rcases hl with ⟨c, hc, hb⟩ | hl
          · intro hm
            rw [List.append_nil, List.getLast?_append] at hc
            have : ∀ r ∈ short, ∃ d, r.getLast? = some d ∧ (d = '[' ∨ d = ']' ∨ d = '-' ∨ d = '@') := by decide
            obtain ⟨d, hd, hd'⟩ := this raw hm
            rw [hd] at hc
            cases hc
            rcases hb with rfl | rfl | rfl | rfl <;> revert hd' <;> decide
          · intro hm
            have hts := tiles_nil ht
            subst hts
            refine hl t rfl ?_
            have : ∀ ty, Shape u ty raw [] → raw ∈ short → ∀ text, Kept ty raw text → text = raw := by
              intro ty hs hm text hk
              cases ty
              case tString =>
                obtain ⟨mid, rfl, -⟩ := hs
                simp [short] at hm
              case bitString =>
                obtain ⟨mid, c, rfl, -⟩ := hs
                simp [short] at hm
              case hexString =>
                obtain ⟨mid, c, rfl, -⟩ := hs
                simp [short] at hm
              all_goals exact hk
            rw [this _ hs hm _ hk]
            exact hm
        · exact .inl hr
      obtain ⟨s, t', h1, h2, h3, h4⟩ := takes_shape u hs hlast hspec l k
      have g := step_good u h1
      have hk' : Kept t'.type raw t'.text := by
        rcases g.what with ⟨hn, -⟩ | ⟨t'', e, hg', -⟩
        · rw [hn] at h3; cases h3
        · rw [h3] at e
          cases e
          have := hg'.kept
          simpa [h2] using this
      have same := kept_same h4.symm hk hk'
      by_cases hr : rest = []
      · subst hr
        have hts := tiles_nil ht
        subst hts
        refine ⟨[t'], ?_, .cons same .nil⟩
        rw [tokenizeFrom_last h1 (by simp [h2]), h3]; rfl
      · obtain ⟨ts', ih1, ih2⟩ := ih hr (by
          rcases hl with ⟨c, hc, hb⟩ | hl
          · left
            refine ⟨c, ?_, hb⟩
            rw [List.getLast?_append] at hc
            cases hg : rest.getLast? with
            | none => exact absurd (List.getLast?_eq_none_iff.mp hg) hr
            | some d => rw [hg] at hc; exact hc
          · right
            intro t1 h1
            refine hl t1 ?_
            cases ts with
            | nil => cases h1
            | cons => rw [List.getLast?_cons_cons]; exact h1) s.line s.column
        have hp := List.length_pos_iff.mpr hr
        refine ⟨t' :: ts', ?_, .cons same ih2⟩
        rw [tokenizeFrom_next h1 g.pos (by rw [h2, List.length_append]; omega), h2, List.drop_left, ih1, h3]
        rfl

theorem tokenizeFrom_stuck {u : Unicode} {chars rest : List Char} (h : Boundary u chars rest)
    (hr : rest = ['-'] ∨ rest = ['['] ∨ rest = [']'] ∨ ∃ c cs, rest = c :: cs ∧ ¬ Starts c) (line column : Nat) :
    tokenizeFrom u chars line column = .panic := by
  have hne : rest ≠ [] := by
    rcases hr with rfl | rfl | rfl | ⟨c, cs, rfl, -⟩ <;> simp
  induction h generalizing line column with
  | here =>
    rcases hr with rfl | rfl | rfl | ⟨c, cs, rfl, hc⟩
    · rw [tokenizeFrom]; rfl
    · rw [tokenizeFrom]; rfl
    · rw [tokenizeFrom]; rfl
    · rw [tokenizeFrom, step_unknown u cs hc]
  | @blank c cs rest hb h ih =>
    have hcs : cs ≠ [] := by
      rintro rfl
      exact hne (List.suffix_nil.mp h.suffix)
    obtain ⟨l, k, hs⟩ := step_blank u hb cs line column
    have hp := List.length_pos_iff.mpr hcs
    rw [tokenizeFrom_next hs Nat.one_pos (by simpa using hp)]
    show ((tokenizeFrom u cs l k).bind _) = _
    rw [ih hr l k hne]
    rfl
  | @token type raw cs rest hraw hs h ih =>
    have hcs : cs ≠ [] := by
      rintro rfl
      exact hne (List.suffix_nil.mp h.suffix)
    have hsp : ¬ (type = .comment ∧ cs = ['\n'] ∧ ¬ ['-', '-'] <:+: raw.drop 2) := by
      rintro ⟨-, rfl, -⟩
      have hsuf := h.suffix
      rcases List.suffix_cons_iff.mp hsuf with rfl | h'
      · rcases hr with hr | hr | hr | ⟨c, cs, hr, hc⟩
        · simp at hr
        · simp at hr
        · simp at hr
        · cases hr
          exact hc (.inl (.inr (.inr (.inl rfl))))
      · exact hne (List.suffix_nil.mp h')
    obtain ⟨s, t, h1, h2, h3, -⟩ := takes_shape u hs (.inl hcs) hsp line column
    have hp := List.length_pos_iff.mpr hcs
    have hq := List.length_pos_iff.mpr hraw
    rw [tokenizeFrom_next h1 (by omega) (by rw [h2, List.length_append]; omega), h2, List.drop_left, ih hr _ _ hne]
    rfl

/-- **C52.** Exactly when the tokenizer panics: on the empty text, and on the texts with a place, after tokens and
blank characters, where a lone hyphen or square bracket ends the text or where a character stands that starts no
token. -/
theorem C52_panics_iff (u : Unicode) (chars : List Char) :
    tokenize u chars = .panic ↔ chars = [] ∨ ∃ rest, Boundary u chars rest ∧
      (rest = ['-'] ∨ rest = ['['] ∨ rest = [']'] ∨ ∃ c cs, rest = c :: cs ∧ ¬ Starts c) := by
  refine ⟨tokenizeFrom_panic u chars 1 0, ?_⟩
  rintro (rfl | ⟨rest, h, hr⟩)
  · exact C52_empty_violated u
  · exact tokenizeFrom_stuck h hr 1 0

/-- A module with a Windows line end after its first line. -/
example (u : Unicode) : tokenize u "{\r\n}".toList = .panic :=
  (C52_panics_iff u _).mpr (.inr ⟨"\r\n}".toList,
    .token (type := .curlyBegin) (raw := ['{']) (by decide) rfl .here,
    .inr (.inr (.inr ⟨'\r', ['\n', '}'], rfl, by unfold Starts Blank; decide⟩))⟩)

/-- **C94 (partial).** A text that consists of tokens separated by blank characters is cut into exactly these
tokens. Missing: a text whose last character is a token `[`, `]`, `-` or `@` (C52 shows what happens then). -/
theorem C94_accepted_partial {u : Unicode} {text : List Char} {ts : List Token}
    (h : Tiles u (fun _ _ => True) [] text ts) (hne : text ≠ [])
    (hl : (∃ c, text.getLast? = some c ∧ Blank c) ∨
      ∀ t, ts.getLast? = some t → t.text ∉ [['['], [']'], ['-'], ['@']]) :
    ∃ ts', tokenize u text = .ok ts' ∧ All2 Same ts ts' :=
  tokenizeFrom_accepts h hne hl 1 0

/-- A text with a place, after tokens and blank characters, from which one of the four alone remains. -/
theorem not_ok_boundary {u : Unicode} {chars rest : List Char} (h : Boundary u chars rest) (hr : rest ∈ short)
    (line column : Nat) (ts : List Token) : tokenizeFrom u chars line column ≠ .ok ts := by
  have hne : rest ≠ [] := by
    rintro rfl
    revert hr; decide
  have hnl : rest ≠ ['\n'] := by
    rintro rfl
    revert hr; decide
  induction h generalizing line column ts with
  | here =>
    simp only [short, List.mem_cons, List.not_mem_nil, or_false] at hr
    rcases hr with rfl | rfl | rfl | rfl
    all_goals
      rw [tokenizeFrom]
      exact nofun
  | @blank c cs rest hb h ih =>
    have hcs : cs ≠ [] := by
      rintro rfl
      exact hne (List.suffix_nil.mp h.suffix)
    obtain ⟨l, k, hs⟩ := step_blank u hb cs line column
    have hp := List.length_pos_iff.mpr hcs
    rw [tokenizeFrom_next hs Nat.one_pos (by simpa using hp)]
    show ((tokenizeFrom u cs l k).bind _) ≠ _
    have := fun ts' => ih hr l k ts' hne hnl
    cases ht : tokenizeFrom u cs l k with
    | ok ts' => exact absurd ht (this ts')
    | err e => exact nofun
    | panic => exact nofun
    | diverge => exact nofun
  | @token type raw cs rest hraw hs h ih =>
    have hcs : cs ≠ [] := by
      rintro rfl
      exact hne (List.suffix_nil.mp h.suffix)
    have hsp : ¬ (type = .comment ∧ cs = ['\n'] ∧ ¬ ['-', '-'] <:+: raw.drop 2) := by
      rintro ⟨-, rfl, -⟩
      rcases List.suffix_cons_iff.mp h.suffix with rfl | h'
      · exact hnl rfl
      · exact hne (List.suffix_nil.mp h')
    obtain ⟨s, t, h1, h2, h3, -⟩ := takes_shape u hs (.inl hcs) hsp line column
    have hp := List.length_pos_iff.mpr hcs
    have hq := List.length_pos_iff.mpr hraw
    rw [tokenizeFrom_next h1 (by omega) (by rw [h2, List.length_append]; omega), h2, List.drop_left]
    cases ht : tokenizeFrom u cs s.line s.column with
    | ok ts' => exact absurd ht (ih hr _ _ ts' hne hnl)
    | err e => exact nofun
    | panic => exact nofun
    | diverge => exact nofun

/-- A text of tokens that ends in one of the four: the place where that one stands. -/
theorem tiles_boundary {u : Unicode} {at_ : List Char → LineColumn → Prop} {before chars : List Char} {ts : List Token}
    (h : Tiles u at_ before chars ts) {t : Token} (hl : ts.getLast? = some t) (ht : t.text ∈ short)
    (hb : ∀ c, chars.getLast? = some c → ¬ Blank c) : Boundary u chars t.text := by
  have blanks : ∀ (gap rest : List Char), (∀ c ∈ gap, Blank c) → ∀ r, Boundary u rest r → Boundary u (gap ++ rest) r := by
    intro gap
    induction gap with
    | nil => intro rest _ r h; exact h
    | cons c cs ih =>
      intro rest hg r h
      exact .blank (hg c (by simp)) (ih rest (fun d hd => hg d (List.mem_cons_of_mem _ hd)) r h)
  induction h with
  | done _ => cases hl
  | @token before gap raw rest t' ts hg hraw hs hk ha htl ih =>
    rw [List.append_assoc]
    refine blanks gap _ hg _ ?_
    cases ts with
    | cons t1 ts1 =>
      refine .token hraw hs (ih (by rw [List.getLast?_cons_cons] at hl; exact hl) ?_)
      intro c hc
      refine hb c ?_
      rw [List.getLast?_append, hc]
      rfl
    | nil =>
      have hl : t' = t := Option.some.inj hl
      subst hl
      have hrest : rest = [] := by
        cases htl with
        | done hg' =>
          cases hr : rest.getLast? with
          | none => exact List.getLast?_eq_none_iff.mp hr
          | some c =>
            refine absurd (hg' c (List.mem_of_getLast? hr)) (hb c ?_)
            rw [List.getLast?_append, hr]
            rfl
      subst hrest
      have : t'.text = raw := by
        generalize t'.type = ty at hs hk
        generalize t'.text = text at ht hk
        cases ty
        case tString =>
          obtain ⟨mid, rfl, -⟩ := hs
          have := hk.2.1
          rw [List.cons_append, List.filter_cons] at this
          simp only [short, List.mem_cons, List.not_mem_nil, or_false] at ht
          rcases ht with rfl | rfl | rfl | rfl <;> exact absurd (congrArg List.head? this) (by simp [isWhitespace])
        case bitString | hexString =>
          obtain ⟨mid, c, rfl, -⟩ := hs
          have : text = _ := hk
          have e : ('\'' :: mid ++ ['\'', c]).dropLast = '\'' :: (mid ++ ['\'']) := by
            rw [List.dropLast_append_of_ne_nil (by simp)]
            rfl
          rw [e, List.filter_cons] at this
          simp only [short, List.mem_cons, List.not_mem_nil, or_false] at ht
          rcases ht with rfl | rfl | rfl | rfl <;> exact absurd (congrArg List.head? this) (by simp [isWhitespace])
        all_goals exact hk
      rw [this, List.append_nil]
      exact .here

/-- **C94.** Exactly which texts made of tokens are accepted: those that do not end in a token `[`, `]`, `-` or `@`. -/
theorem C94_accepted_iff {u : Unicode} {text : List Char} {ts : List Token}
    (h : Tiles u (fun _ _ => True) [] text ts) (hne : text ≠ []) :
    (∃ ts', tokenize u text = .ok ts') ↔ (∃ c, text.getLast? = some c ∧ Blank c) ∨
      ∀ t, ts.getLast? = some t → t.text ∉ [['['], [']'], ['-'], ['@']] := by
  constructor
  · rintro ⟨ts', he⟩
    refine Classical.byContradiction fun hn => ?_
    simp only [not_or, not_exists, not_and] at hn
    obtain ⟨hb, ht⟩ := hn
    refine ht fun t hl hm => ?_
    have := tiles_boundary h hl hm hb
    exact not_ok_boundary this hm 1 0 ts' he
  · intro hl
    obtain ⟨ts', h1, -⟩ := C94_accepted_partial h hne hl
    exact ⟨ts', h1⟩

/-- A text that ends in a closing square bracket is not accepted; with a line break after it, it is. -/
example (u : Unicode) :
    (¬ ∃ ts, tokenize u ['[', ' ', ']'] = .ok ts) ∧ ∃ ts, tokenize u ['[', ' ', ']', '\n'] = .ok ts := by
  have tiles (r : List Char) (hr : r = [] ∨ r = ['\n']) : Tiles u (fun _ _ => True) [] (['[', ' ', ']'] ++ r)
      [⟨.squareBegin, ⟨1, 0⟩, ⟨1, 1⟩, ['[']⟩, ⟨.squareEnd, ⟨1, 2⟩, ⟨1, 3⟩, [']']⟩] := by
    refine .token (gap := []) (raw := ['[']) (rest := [' ', ']'] ++ r) nofun (by simp)
      ⟨rfl, by simp [NotNext]⟩ rfl trivial
      (.token (gap := [' ']) (raw := [']']) (rest := r) (by simp [Blank]) (by simp) ⟨rfl, ?_⟩ rfl trivial (.done ?_))
    · rcases hr with rfl | rfl <;> simp [NotNext]
    · rcases hr with rfl | rfl <;> simp [Blank]
  constructor
  · intro he
    rcases (C94_accepted_iff (tiles [] (.inl rfl)) (by simp)).mp he with (⟨c, hc, hb⟩ | h)
    · cases hc
      revert hb
      unfold Blank
      decide
    · exact h _ rfl (by decide)
  · exact (C94_accepted_iff (tiles ['\n'] (.inr rfl)) (by simp)).mpr (.inl ⟨'\n', rfl, by unfold Blank; decide⟩)

/-- A token at the very end of a text keeps its form when a line break follows, unless it is a comment that
ends in a line break. -/
theorem shape_newline {u : Unicode} {ty : TokenType} {raw rest : List Char} (h : Shape u ty raw rest)
    (hl : rest = [] → raw.getLast? ≠ some '\n') : Shape u ty raw (rest ++ ['\n']) := by
  have nn : ∀ {p : Char → Prop} {r : List Char}, NotNext p r → ¬ p '\n' → NotNext p (r ++ ['\n']) := by
    intro p r hr hp c hc
    cases r with
    | nil => cases hc; exact hp
    | cons d ds => exact hr c hc
  have hw : ¬ WordChar '\n' := by rintro (h | h | h) <;> revert h <;> decide
  cases ty
  case squareBegin => exact ⟨h.1, nn h.2 (by decide)⟩
  case squareEnd => exact ⟨h.1, nn h.2 (by decide)⟩
  case rangeSeparator => exact ⟨h.1, nn h.2 (by decide)⟩
  case dot => exact ⟨h.1, nn h.2 (by decide)⟩
  case colon => exact ⟨h.1, nn h.2 (by decide)⟩
  case identifier => exact ⟨h.1, h.2.1, nn h.2.2.1 hw, h.2.2.2⟩
  case keyword => exact ⟨h.1, h.2.1, nn h.2.2.1 hw, h.2.2.2⟩
  case andIdentifier =>
    obtain ⟨w, e, h1, h2⟩ := h
    exact ⟨w, e, h1, nn h2 hw⟩
  case numberInt =>
    obtain ⟨sign, digits, e, h1, h2, h3⟩ := h
    refine ⟨sign, digits, e, ?_, h2, nn h3 (by simp [u.newline])⟩
    rcases h1 with ⟨hs, hn⟩ | h1
    · left
      refine ⟨hs, ?_⟩
      rw [← List.append_assoc]
      exact nn hn (by decide)
    · exact .inr h1
  case comment =>
    obtain ⟨body, e, h1⟩ := h
    refine ⟨body, e, ?_⟩
    rcases h1 with h1 | ⟨h1, h2, h3⟩ | ⟨h1, h2, h3⟩
    · exact .inl h1
    · refine .inr (.inl ⟨h1, h2, ?_⟩)
      cases rest with
      | nil => cases h3
      | cons d ds => exact h3
    · refine .inr (.inl ⟨fun hm => ?_, h2, by simp [h1]⟩)
      have hb : body ≠ [] := by rintro rfl; cases hm
      rw [← List.dropLast_concat_getLast hb] at hm
      rcases List.mem_append.1 hm with hm | hm
      · exact h3 hm
      · apply hl h1
        rw [e]
        have : body.getLast hb = '\n' := (List.mem_singleton.1 hm).symm
        rw [List.getLast?_cons_cons, List.getLast?_cons, List.getLast?_eq_some_getLast hb, this]
        rfl
  case atComponentIdList =>
    obtain ⟨w, e, h1, h2, h3, h4⟩ := h
    exact ⟨w, e, h1, h2, h3, nn h4 (by rintro (h | h); exact hw h; revert h; decide)⟩
  case tString =>
    obtain ⟨mid, e, h1, h2⟩ := h
    exact ⟨mid, e, h1, nn h2 (by decide)⟩
  all_goals exact h

/-- A text made of tokens, and not ending in a line break, is made of the same tokens when a line break is
added at its end. -/
theorem tiles_append_newline {u : Unicode} {at_ : List Char → LineColumn → Prop} {before text : List Char}
    {ts : List Token} (h : Tiles u at_ before text ts) (hl : text.getLast? ≠ some '\n') :
    Tiles u at_ before (text ++ ['\n']) ts := by
  induction h with
  | done hg =>
    refine .done fun c hc => ?_
    rcases List.mem_append.1 hc with hc | hc
    · exact hg c hc
    · exact .inr (.inr (.inl (List.mem_singleton.1 hc)))
  | @token before gap raw rest t ts hg hr hs hk ha _ ih =>
    rw [List.append_assoc]
    have h1 : rest = [] → raw.getLast? ≠ some '\n' := by
      rintro rfl hn
      apply hl
      simp [List.getLast?_append, hn]
    refine .token hg hr (shape_newline hs h1) hk ha (ih fun hn => ?_)
    apply hl
    simp [List.getLast?_append, hn]

/-- **C94 (partial).** A text consists of tokens in one way only: two ways to cut a text into tokens and blanks
have the same token types in the same order, whether or not the code accepts the text. -/
theorem C94_unique_partial {u : Unicode} {text : List Char} {ts ts' : List Token}
    (h : Tiles u (fun _ _ => True) [] text ts) (h' : Tiles u (fun _ _ => True) [] text ts') :
    ts.map (·.type) = ts'.map (·.type) := by
  have key : ∀ {l r : List Token}, All2 Same l r → l.map (·.type) = r.map (·.type) := by
    intro l r h
    induction h with
    | nil => rfl
    | cons h _ ih => simp [h.1, ih]
  have ends : ∀ {text : List Char} {ts ts' : List Token}, Tiles u (fun _ _ => True) [] text ts →
      Tiles u (fun _ _ => True) [] text ts' → text.getLast? = some '\n' →
      ts.map (·.type) = ts'.map (·.type) := by
    intro text ts ts' h h' hl
    have hl' : ∃ c, text.getLast? = some c ∧ Blank c := ⟨_, hl, .inr (.inr (.inl rfl))⟩
    have hne : text ≠ [] := by
      rintro rfl
      cases hl
    obtain ⟨r, e, hr⟩ := C94_accepted_partial h hne (.inl hl')
    obtain ⟨r', e', hr'⟩ := C94_accepted_partial h' hne (.inl hl')
    rw [e] at e'
    cases e'
    rw [key hr, key hr']
  by_cases hl : text.getLast? = some '\n'
  · exact ends h h' hl
  · exact ends (tiles_append_newline h hl) (tiles_append_newline h' hl) (by simp)

/-- `a[`, which the code does not accept (C52), is made of tokens in one way. -/
example (ts : List Token) (h : Tiles ascii (fun _ _ => True) [] "a[".toList ts) :
    ts.map (·.type) = [.identifier, .squareBegin] := by
  refine C94_unique_partial h (ts' := [⟨.identifier, ⟨0, 0⟩, ⟨0, 0⟩, "a".toList⟩,
    ⟨.squareBegin, ⟨0, 0⟩, ⟨0, 0⟩, "[".toList⟩]) ?_
  refine .token (gap := []) (raw := "a".toList) (rest := "[".toList) (by simp) (by decide) ?_ rfl trivial
    (.token (gap := []) (raw := "[".toList) (rest := []) (by simp) (by decide) ⟨rfl, fun c hc => by cases hc⟩ rfl
      trivial (.done (by simp)))
  refine ⟨⟨by decide, fun c hc => ?_, by decide, by decide⟩, fun c hc => ?_, fun c hc => ?_, by decide⟩
  · simp at hc; subst hc; exact .inl (by decide)
  · simp at hc; subst hc; decide
  · simp at hc; subst hc; rintro (h | h | h) <;> revert h <;> decide

/-- `a ::= -5 ` is made of three tokens. -/
example : ∃ ts', tokenize ascii "a ::= -5 ".toList = .ok ts' ∧
    ts'.map (fun t => (t.type, t.text)) =
      [(.identifier, "a".toList), (.assignment, "::=".toList), (.numberInt, "-5".toList)] := by
  have h : Tiles ascii (fun _ _ => True) [] "a ::= -5 ".toList
      [⟨.identifier, ⟨0, 0⟩, ⟨0, 0⟩, "a".toList⟩, ⟨.assignment, ⟨0, 0⟩, ⟨0, 0⟩, "::=".toList⟩,
        ⟨.numberInt, ⟨0, 0⟩, ⟨0, 0⟩, "-5".toList⟩] := by
    refine .token (gap := []) (raw := "a".toList) (rest := " ::= -5 ".toList) (by simp) (by decide) ?_ rfl trivial
      (.token (gap := [' ']) (raw := "::=".toList) (rest := " -5 ".toList) (by simp [Blank]) (by decide) rfl rfl trivial
        (.token (gap := [' ']) (raw := "-5".toList) (rest := [' ']) (by simp [Blank]) (by decide) ?_ rfl trivial
          (.done (by simp [Blank]))))
    · refine ⟨⟨by decide, fun c hc => ?_, by decide, by decide⟩, fun c hc => ?_, fun c hc => ?_, by decide⟩
      · simp at hc; subst hc; exact .inl (by decide)
      · cases hc; decide
      · cases hc; rintro (h | h | h) <;> revert h <;> decide
    · refine ⟨['-'], ['5'], rfl, .inl ⟨rfl, fun c hc => ?_⟩, fun c hc => ?_, fun c hc => ?_⟩
      · cases hc; decide
      · simp at hc; subst hc; decide
      · cases hc; decide
  obtain ⟨ts', e, h⟩ := C94_accepted_partial h (by decide) (.inl ⟨' ', rfl, .inl rfl⟩)
  refine ⟨ts', e, ?_⟩
  cases h with
  | cons h1 h =>
    cases h with
    | cons h2 h =>
      cases h with
      | cons h3 h =>
        cases h
        simp only [List.map_cons, List.map_nil, ← h1.1, ← h2.1, ← h3.1, show _ = _ from h1.2, show _ = _ from h2.2,
          show _ = _ from h3.2]

end Hampi.Compiler
