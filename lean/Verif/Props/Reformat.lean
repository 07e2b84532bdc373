import Verif.Spec.Reformat
import Verif.Lemmas.Reformat
import Verif.Props.TokenizerBack
import Verif.Props.Main
/-!
# C133: layout and comments do not matter
-/
namespace Hampi.Compiler
open _root_.Hampi.Spec

/-- The text of the token for a word that is not a comment. -/
def wordText (w : TokenType × List Char) : List Char :=
  match w.1 with
  | .bitString | .hexString => w.2.dropLast.filter (!isWhitespace ·)
  | _ => w.2

theorem wordText_kept {type : TokenType} {raw text : List Char} (h : Kept type raw text)
    (hs : type = .tString → '\n' ∉ raw) : text = wordText (type, raw) := by
  cases type
  case tString => exact h.2.2 (hs rfl)
  all_goals exact h

theorem worded_nil {u : Unicode} {ws : List (TokenType × List Char)} (h : Worded u [] ws) : ws = [] := by
  generalize hr : [] = r at h
  cases h with
  | blank => rfl
  | word _ hne =>
    have := List.append_eq_nil_iff.mp hr.symm
    exact absurd (List.append_eq_nil_iff.mp this.1).2 hne

theorem worded_newline {u : Unicode} {ws : List (TokenType × List Char)} (h : Worded u ['\n'] ws) : ws = [] := by
  generalize hr : ['\n'] = r at h
  cases h with
  | blank => rfl
  | @word gap raw rest type ws hg hne hs hn ht =>
    exfalso
    cases raw with
    | nil => exact hne rfl
    | cons c cs =>
      have hlen := congrArg List.length hr
      simp only [List.length_append, List.length_cons, List.length_nil] at hlen
      have h1 : gap = [] := List.length_eq_zero_iff.mp (by omega)
      have h2 : cs = [] := List.length_eq_zero_iff.mp (by omega)
      have h3 : rest = [] := List.length_eq_zero_iff.mp (by omega)
      subst h1 h2 h3
      cases hr
      obtain ⟨s, t, h1, -, h2, -⟩ := takes_shape u hs (.inr (by decide)) (by simp) 1 0
      cases h1
      cases h2

/-- The token `t` is made of the word `w`. -/
def MadeOf (w : TokenType × List Char) (t : Token) : Prop := t.type = w.1 ∧ (w.1 ≠ .comment → t.text = wordText w)

theorem tokenizeFrom_worded {u : Unicode} {chars : List Char} {ws : List (TokenType × List Char)}
    (h : Worded u chars ws) (hne : chars ≠ []) (hl : EndsBlank chars) (line column : Nat) :
    ∃ ts, tokenizeFrom u chars line column = .ok ts ∧ All2 MadeOf ws ts := by
  induction h generalizing line column with
  | blank hg => exact ⟨[], tokenizeFrom_all_blank u _ hg hne line column, .nil⟩
  | @word gap raw rest type ws hg hraw hs hn ht ih =>
    have hrr : raw ++ rest ≠ [] := by simp [hraw]
    obtain ⟨l, k, e⟩ := tokenizeFrom_blanks u gap (raw ++ rest) hg hrr line column
    rw [List.append_assoc, e]
    by_cases hspec : type = .comment ∧ rest = ['\n'] ∧ ¬ ['-', '-'] <:+: raw.drop 2
    · obtain ⟨rfl, rfl, hd⟩ := hspec
      have hts := worded_newline ht
      subst hts
      have hs' : Shape u .comment (raw ++ ['\n']) [] := by
        obtain ⟨body, rfl, ⟨b, rfl, -, -⟩ | ⟨hn, hd, -⟩ | ⟨h, -, -⟩⟩ := hs
        · exact absurd ⟨b, [], by simp⟩ hd
        · refine ⟨body ++ ['\n'], rfl, .inr (.inr ⟨rfl, ?_, by simpa using hn⟩)⟩
          rintro ⟨x, y, e⟩
          rcases List.eq_nil_or_concat y with rfl | ⟨y', c, rfl⟩
          · simp only [List.append_nil] at e
            have : (x ++ ['-']) ++ ['-'] = body ++ ['\n'] := by simpa using e
            have := (List.append_inj' this rfl).2
            cases this
          · have : (x ++ ['-', '-'] ++ y') ++ [c] = body ++ ['\n'] := by simpa using e
            exact hd ⟨x, y', (List.append_inj' this rfl).1⟩
        · cases h
      obtain ⟨s, t, h1, h2, h3, h4⟩ := takes_shape u hs' (.inr (by
        obtain ⟨body, e, -⟩ := hs'
        rw [e]
        simp [short])) (by simp) l k
      rw [List.append_nil] at h1
      refine ⟨[t], ?_, .cons ⟨h4, fun h => absurd rfl h⟩ .nil⟩
      rw [tokenizeFrom_last h1 h2, h3]; rfl
    · have hlast : rest ≠ [] ∨ raw ∉ short := by
        by_cases hr : rest = []
        · right
          subst hr
          obtain ⟨c, hc, hb⟩ := hl
          intro hm
          rw [List.append_nil, List.getLast?_append] at hc
          have : ∀ r ∈ short, ∃ d, r.getLast? = some d ∧ (d = '[' ∨ d = ']' ∨ d = '-' ∨ d = '@') := by decide
          obtain ⟨d, hd, hd'⟩ := this raw hm
          rw [hd] at hc
          cases hc
          rcases hb with rfl | rfl | rfl | rfl <;> revert hd' <;> decide
        · exact .inl hr
      obtain ⟨s, t, h1, h2, h3, h4⟩ := takes_shape u hs hlast hspec l k
      have g := step_good u h1
      have hk : Kept t.type raw t.text := by
        rcases g.what with ⟨hn, -⟩ | ⟨t', e, hg', -⟩
        · rw [hn] at h3; cases h3
        · rw [h3] at e
          cases e
          have := hg'.kept
          simpa [h2] using this
      rw [h4] at hk
      have made : MadeOf (type, raw) t := ⟨h4, fun _ => wordText_kept hk hn⟩
      by_cases hr : rest = []
      · subst hr
        have hts := worded_nil ht
        subst hts
        refine ⟨[t], ?_, .cons made .nil⟩
        rw [tokenizeFrom_last h1 (by simp [h2]), h3]; rfl
      · obtain ⟨ts, ih1, ih2⟩ := ih hr (by
          obtain ⟨c, hc, hb⟩ := hl
          refine ⟨c, ?_, hb⟩
          rw [List.getLast?_append] at hc
          cases hg : rest.getLast? with
          | none => exact absurd (List.getLast?_eq_none_iff.mp hg) hr
          | some d => rw [hg] at hc; exact hc) s.line s.column
        have hp := List.length_pos_iff.mpr hr
        refine ⟨t :: ts, ?_, .cons made ih2⟩
        rw [tokenizeFrom_next h1 g.pos (by rw [h2, List.length_append]; omega), h2, List.drop_left, ih1, h3]
        rfl

theorem made_texts {ws : List (TokenType × List Char)} {ts : List Token} (h : All2 MadeOf ws ts) :
    (ts.filter fun t => !t.is .comment).map (fun t => (t.type, t.text)) =
      (ws.filter fun w => w.1 ≠ .comment).map fun w => (w.1, wordText w) := by
  induction h with
  | nil => rfl
  | @cons w t ws ts h _ ih =>
    by_cases hc : w.1 = .comment
    · rw [List.filter_cons_of_neg (by simp [Token.is, h.1, hc]), List.filter_cons_of_neg (by simp [hc]), ih]
    · rw [List.filter_cons_of_pos (by simp [Token.is, h.1, hc]), List.filter_cons_of_pos (by simp [hc]), List.map_cons,
        List.map_cons, ih, h.1, h.2 hc]

theorem endsBlank_ne {text : List Char} (h : EndsBlank text) : text ≠ [] := by
  rintro rfl
  obtain ⟨c, hc, -⟩ := h
  cases hc

theorem readArgs_congr (u : Unicode) (n : Nat) {a a' : Arg} (h : readArg u n a = readArg u n a') (before after : List Arg)
    (ms : List Module) : readArgs u n ms (before ++ a :: after) = readArgs u n ms (before ++ a' :: after) := by
  induction before generalizing ms with
  | nil => rw [List.nil_append, List.nil_append, readArgs, readArgs, h]
  | cons b bs ih =>
    rw [List.cons_append, List.cons_append, readArgs, readArgs]
    congr 1
    funext pms
    exact ih _

namespace Props

/-- **C133.** The parser makes the same of two lists of tokens that are the same but for positions and comments. -/
theorem C133_positions (n : Nat) (ts ts' : List Token)
    (h : (ts.filter fun t => !t.is .comment).map (fun t => (t.type, t.text)) =
      (ts'.filter fun t => !t.is .comment).map fun t => (t.type, t.text)) : parse n ts = parse n ts' :=
  parse_same n h

/-- **C133.** A file can be laid out in another way, with other comments: the program does the same, whatever the other
files are and whatever is in them, correct or not. Both texts end with a blank character, such as a newline. -/
theorem C133_layout (u : Unicode) (sp : Spelling) (n : Nat) (text text' : List Char) (h : SameWords u text text')
    (hb : EndsBlank text) (hb' : EndsBlank text') (before after : List Arg) (r : Out MainErr (List Item)) :
    Runs u sp n (before ++ .text text :: after) r ↔ Runs u sp n (before ++ .text text' :: after) r := by
  obtain ⟨ws, ws', h1, h2, he⟩ := h
  obtain ⟨ts, ht, hm⟩ := tokenizeFrom_worded h1 (endsBlank_ne hb) hb 1 0
  obtain ⟨ts', ht', hm'⟩ := tokenizeFrom_worded h2 (endsBlank_ne hb') hb' 1 0
  have hr : readArg u n (.text text) = readArg u n (.text text') := by
    show ((tokenizeFrom u text 1 0).orTokenize.bind fun ts => (parse n ts).orCompile) =
      ((tokenizeFrom u text' 1 0).orTokenize.bind fun ts => (parse n ts).orCompile)
    rw [ht, ht']
    show (parse n ts).orCompile = (parse n ts').orCompile
    rw [parse_same n ((made_texts hm).trans (he ▸ (made_texts hm').symm))]
  rw [Runs, Runs, readArgs_congr u n hr before after []]

/-! ## An example -/

/-- What the tokenizer found in a text without strings is how the text is written. -/
theorem worded_of_tiles {u : Unicode} {at_ : List Char → LineColumn → Prop} {before text : List Char} {ts : List Token}
    (h : Tiles u at_ before text ts) (hs : ∀ t ∈ ts, t.type ∉ [.tString, .bitString, .hexString]) :
    Worded u text (ts.map fun t => (t.type, t.text)) := by
  induction h with
  | done hg => exact .blank hg
  | @token before gap raw rest t ts hg hraw hsh hk ha ht ih =>
    have h1 := hs t List.mem_cons_self
    have e : t.text = raw := by
      revert hk h1
      cases t.type <;> simp [Kept]
    rw [List.map_cons, e]
    exact .word hg hraw hsh (fun e => absurd (e ▸ List.mem_cons_self) h1)
      (ih fun t' h' => hs t' (List.mem_cons_of_mem _ h'))

theorem sameWords_of {u : Unicode} {text text' : List Char} (ts ts' : List Token) (h : tokenize u text = .ok ts)
    (h' : tokenize u text' = .ok ts') (hs : ∀ t ∈ ts ++ ts', t.type ∉ [.tString, .bitString, .hexString])
    (he : (ts.map fun t => (t.type, t.text)).filter (fun w => w.1 ≠ .comment) =
      (ts'.map fun t => (t.type, t.text)).filter (fun w => w.1 ≠ .comment)) : SameWords u text text' :=
  ⟨_, _, worded_of_tiles (C50_lossless u text ts h) fun t ht => hs t (List.mem_append_left _ ht),
    worded_of_tiles (C50_lossless u text' ts' h') fun t ht => hs t (List.mem_append_right _ ht), he⟩

/-- `file2`, laid out in another way. -/
def file2' : List Char :=
  "-- The module N\n\nN DEFINITIONS::=BEGIN\n\tIMPORTS T FROM M ; S\n::= SEQUENCE{a T OPTIONAL}END ".toList

set_option maxRecDepth 8000 in
theorem file2_sameWords : SameWords ascii file2 file2' := by
  have h : ∀ text text' : List Char, (match tokenize ascii text, tokenize ascii text' with
      | .ok ts, .ok ts' => ((ts ++ ts').all fun t => decide (t.type ∉ [.tString, .bitString, .hexString])) &&
          decide ((ts.map fun t => (t.type, t.text)).filter (fun w => w.1 ≠ .comment) =
            (ts'.map fun t => (t.type, t.text)).filter (fun w => w.1 ≠ .comment))
      | _, _ => false) = true → SameWords ascii text text' := by
    intro text text' h
    split at h
    · rename_i ts ts' h1 h2
      simp only [Bool.and_eq_true, List.all_eq_true, decide_eq_true_eq] at h
      exact sameWords_of ts ts' h1 h2 h.1 h.2
    · cases h
  exact h _ _ (by decide +kernel)

/-- The theorem applies to these texts, next to another file. -/
example (sp : Spelling) (n : Nat) (r : Out MainErr (List Item)) :
    Runs ascii sp n [.text file1, .text file2] r ↔ Runs ascii sp n [.text file1, .text file2'] r :=
  C133_layout ascii sp n file2 file2' file2_sameWords ⟨'\n', by decide +kernel, by simp [Blank]⟩
    ⟨' ', by decide +kernel, by simp [Blank]⟩ [.text file1] [] r

end Props
end Hampi.Compiler
