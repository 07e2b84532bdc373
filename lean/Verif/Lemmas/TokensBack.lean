import Verif.Lemmas.Tokens
/-!
# Every token of the specification is recognised

The converse of `Verif.Lemmas.Tokens`: a turn of the loop at a token of the specification takes this token.
-/
namespace Hampi.Compiler
open Spec

/-- A turn of the loop takes the token `raw`. -/
def Takes (u : Unicode) (type : TokenType) (raw rest : List Char) (line column : Nat) : Prop :=
  ∃ s t, step u (raw ++ rest) line column = .ok s ∧ s.consumed = raw.length ∧ s.token = some t ∧ t.type = type

theorem Takes.of {u : Unicode} {type : TokenType} {raw rest : List Char} {line column : Nat} {t : Lexed}
    (h : step u (raw ++ rest) line column = .ok (.of line column t)) (h1 : t.2 = raw.length) (h2 : t.1.type = type) :
    Takes u type raw rest line column := ⟨_, _, h, h1, rfl, h2⟩

theorem Takes.ofLines {u : Unicode} {type : TokenType} {raw rest : List Char} {line column : Nat} {t : Lexed × Nat × Nat}
    (h : step u (raw ++ rest) line column = .ok (.ofLines line column t)) (h1 : t.1.2 = raw.length)
    (h2 : t.1.1.type = type) : Takes u type raw rest line column := ⟨_, _, h, h1, rfl, h2⟩

theorem span_append (p : Char → Bool) {w rest : List Char} (h : ∀ c ∈ w, p c = true)
    (hr : NotNext (fun c => p c = true) rest) : span p (w ++ rest) = w.length := by
  induction w with
  | nil =>
    cases rest with
    | nil => rfl
    | cons c cs => simp [span, hr c rfl]
  | cons c cs ih =>
    have := ih fun d hd => h d (List.mem_cons_of_mem _ hd)
    simp only [span, List.cons_append, List.takeWhile_cons, h c (by simp), if_true, List.length_cons] at this ⊢
    omega

theorem notNext_of {p q : Char → Prop} {rest : List Char} (h : NotNext p rest) (hi : ∀ c, q c → p c) :
    NotNext q rest := fun c hc hq => h c hc (hi c hq)

/-- The branch for words. -/
theorem step_alpha (u : Unicode) {c : Char} (h : c.isAlpha = true) (cs : List Char) (line column : Nat) :
    step u (c :: cs) line column =
      (getIdentifierOrKeywordToken (c :: cs) line column).bind fun t => .ok (.of line column t) := by
  have ne : ∀ d : Char, d.isAlpha = false → c ≠ d := fun d hd e => by rw [e, hd] at h; cases h
  have hs : singleCharType c = none := by
    unfold singleCharType
    split <;> first | rfl | exact absurd h (by decide)
  unfold step
  dsimp only
  rw [if_neg (by simp [ne ' ' (by decide), ne '\t' (by decide)]), if_neg (ne _ (by decide)), if_neg (ne _ (by decide)),
    if_neg (by simp [hs]), if_neg (by simp [ne '[' (by decide), ne ']' (by decide)]), if_neg (ne _ (by decide)),
    if_neg (ne _ (by decide)), if_pos (.inr h)]

/-- The branch for numbers. -/
theorem step_digit (u : Unicode) {c : Char} (h : c.isDigit = true) (cs : List Char) (line column : Nat) :
    step u (c :: cs) line column =
      (getNumberToken u (c :: cs) line column).bind fun t => .ok (.of line column t) := by
  have ne : ∀ d : Char, d.isDigit = false → c ≠ d := fun d hd e => by rw [e, hd] at h; cases h
  have hs : singleCharType c = none := by
    unfold singleCharType
    split <;> first | rfl | exact absurd h (by decide)
  have ha : c.isAlpha = false := by
    simp only [Char.isDigit, Bool.and_eq_true, decide_eq_true_eq, ge_iff_le] at h
    simp only [Char.isAlpha, Char.isUpper, Char.isLower, Bool.or_eq_false_iff, Bool.and_eq_false_iff, decide_eq_false_iff_not,
      ge_iff_le, UInt32.le_iff_toNat_le] at h ⊢
    simp at h ⊢
    omega
  unfold step
  dsimp only
  rw [if_neg (by simp [ne ' ' (by decide), ne '\t' (by decide)]), if_neg (ne _ (by decide)), if_neg (ne _ (by decide)),
    if_neg (by simp [hs]), if_neg (by simp [ne '[' (by decide), ne ']' (by decide)]), if_neg (ne _ (by decide)),
    if_neg (ne _ (by decide)), if_neg (by simp [ha, ne '&' (by decide)]), if_pos h]

theorem word_take {w rest : List Char} (hw : Word w) (hr : NotNext WordChar rest) :
    span (fun c => isWordChar c || decide (c = '-')) (w ++ rest) = w.length :=
  span_append _ (fun c hc => (wordChar_iff c).mpr (hw.2.1 c hc)) (notNext_of hr fun c h => (wordChar_iff c).mp h)

theorem getElem?_last {α : Type} (l rest : List α) (h : l ≠ []) : (l ++ rest)[l.length - 1]? = l.getLast? := by
  have := List.length_pos_iff.mpr h
  rw [List.getElem?_append_left (by omega), List.getLast?_eq_getElem?]

theorem takes_word (u : Unicode) {raw rest : List Char} (hw : Word raw)
    (ha : ∀ c, raw.head? = some c → c.isAlpha) (hr : NotNext WordChar rest) (line column : Nat) :
    Takes u (if KEYWORDS.any (fun kw => raw = kw.toList) then .keyword else .identifier) raw rest line column := by
  cases raw with
  | nil => exact absurd rfl hw.1
  | cons c cs =>
    have hc := ha c rfl
    have hand : c ≠ '&' := by rintro rfl; revert hc; decide
    have hsp := word_take hw hr
    have hlast := getElem?_last (c :: cs) rest (by simp)
    have hdd : hasDoubleDash (c :: cs) = false := by
      cases h : hasDoubleDash (c :: cs) with
      | false => rfl
      | true => exact absurd ((hasDoubleDash_iff _).mp h) hw.2.2.2
    have key : getIdentifierOrKeywordToken ((c :: cs) ++ rest) line column =
        .ok (oneLine (if KEYWORDS.any (fun kw => (c :: cs) = kw.toList) then .keyword else .identifier)
          ((c :: cs) ++ rest) line column (c :: cs).length) := by
      unfold getIdentifierOrKeywordToken
      rw [List.cons_append] at hsp hlast ⊢
      dsimp only
      rw [if_neg hand, List.drop_zero, hsp, Nat.zero_add, hlast]
      rw [if_neg (by simp), if_neg (by simp), if_neg hw.2.2.1, if_neg (by simp)]
      rw [← List.cons_append, List.take_left, hdd]
      simp
    refine Takes.of (t := oneLine (if KEYWORDS.any (fun kw => (c :: cs) = kw.toList) then .keyword else .identifier)
      ((c :: cs) ++ rest) line column (c :: cs).length) ?_ rfl rfl
    rw [List.cons_append, step_alpha u hc, ← List.cons_append, key]; rfl

theorem takes_and (u : Unicode) {w rest : List Char} (hw : Word w) (hr : NotNext WordChar rest) (line column : Nat) :
    Takes u .andIdentifier ('&' :: w) rest line column := by
  have hsp := word_take hw hr
  have hpos := List.length_pos_iff.mpr hw.1
  have hlast : ('&' :: (w ++ rest))[1 + w.length - 1]? = w.getLast? := by
    rw [← getElem?_last w rest hw.1]
    rw [show 1 + w.length - 1 = (w.length - 1) + 1 by omega]
    simp
  have hdd : hasDoubleDash ('&' :: w) = false := by
    cases h : hasDoubleDash w with
    | false => simpa [hasDoubleDash] using h
    | true => exact absurd ((hasDoubleDash_iff _).mp h) hw.2.2.2
  have key : getIdentifierOrKeywordToken ('&' :: (w ++ rest)) line column =
      .ok (oneLine .andIdentifier ('&' :: (w ++ rest)) line column (1 + w.length)) := by
    unfold getIdentifierOrKeywordToken
    dsimp only
    rw [if_pos rfl, List.drop_succ_cons, List.drop_zero, hsp, hlast]
    rw [if_neg (by rintro ⟨-, h⟩; simp only [List.length_cons, List.length_append] at h; omega), if_neg (by omega), if_neg hw.2.2.1, if_neg (by omega)]
    rw [Nat.add_comm 1, List.take_succ_cons, List.take_left, hdd]
    simp
  refine Takes.of (t := oneLine .andIdentifier ('&' :: (w ++ rest)) line column (1 + w.length)) ?_
    (by simp [oneLine, Nat.add_comm]) rfl
  rw [List.cons_append]
  unfold step
  dsimp only
  rw [if_neg (by decide), if_neg (by decide), if_neg (by decide), if_neg (by decide), if_neg (by decide), if_neg (by decide),
    if_neg (by decide), if_pos (.inl rfl), key]
  rfl

theorem takes_number (u : Unicode) {digits rest : List Char} (hd : ∃ c, digits.head? = some c ∧ c.isDigit)
    (hn : ∀ c ∈ digits, u.isNumeric c) (hr : NotNext (fun c => u.isNumeric c) rest) (line column : Nat) :
    Takes u .numberInt digits rest line column := by
  have hsp := span_append u.isNumeric hn hr
  obtain ⟨c, hc, hcd⟩ := hd
  cases digits with
  | nil => cases hc
  | cons d ds =>
    cases hc
    have hdash : c ≠ '-' := by rintro rfl; revert hcd; decide
    refine Takes.of (t := oneLine .numberInt (c :: (ds ++ rest)) line column (ds.length + 1)) ?_ rfl rfl
    rw [List.cons_append] at hsp ⊢
    rw [step_digit u hcd]
    unfold getNumberToken
    dsimp only
    rw [if_neg hdash, List.drop_zero, hsp, if_neg (by simp), Nat.zero_add]
    rfl

theorem takes_negative (u : Unicode) {digits rest : List Char} (hne : digits ++ rest ≠ [])
    (hd : NotNext (· = '-') (digits ++ rest))
    (hn : ∀ c ∈ digits, u.isNumeric c) (hr : NotNext (fun c => u.isNumeric c) rest) (line column : Nat) :
    Takes u .numberInt ('-' :: digits) rest line column := by
  have hsp := span_append u.isNumeric hn hr
  refine Takes.of (t := oneLine .numberInt ('-' :: (digits ++ rest)) line column (1 + digits.length)) ?_
    (by simp [oneLine, Nat.add_comm]) rfl
  rw [List.cons_append]
  have h1 : getMaybeCommentToken ('-' :: (digits ++ rest)) line column = .ok none := by
    unfold getMaybeCommentToken
    cases h : digits ++ rest with
    | nil => exact absurd h hne
    | cons c cs =>
      dsimp only
      rw [if_pos (hd c (by rw [h]; rfl))]
  have hl := List.length_pos_iff.mpr hne
  have h2 : getNumberToken u ('-' :: (digits ++ rest)) line column =
      .ok (oneLine .numberInt ('-' :: (digits ++ rest)) line column (1 + digits.length)) := by
    unfold getNumberToken
    dsimp only
    rw [if_pos rfl, List.drop_succ_cons, List.drop_zero, hsp, if_neg (by simp only [List.length_cons]; omega)]
  unfold step
  dsimp only
  rw [if_neg (by decide), if_neg (by decide), if_pos rfl, h1]
  dsimp only [Out.bind]
  rw [h2]

theorem takes_at (u : Unicode) {w rest : List Char} (hne : w ++ rest ≠ []) (hw : ∀ c ∈ w, WordChar c ∨ c = '.')
    (h1 : w.getLast? ≠ some '-') (h2 : w.getLast? ≠ some '.') (hr : NotNext (fun c => WordChar c ∨ c = '.') rest)
    (line column : Nat) : Takes u .atComponentIdList ('@' :: w) rest line column := by
  have hsp : span (fun c => isWordChar c || decide (c = '-') || decide (c = '.')) (w ++ rest) = w.length :=
    span_append _ (fun c hc => (wordDot_iff c).mpr (hw c hc)) (notNext_of hr fun c h => (wordDot_iff c).mp h)
  have hl := List.length_pos_iff.mpr hne
  have key : getAtComponentIdList ('@' :: (w ++ rest)) line column =
      .ok (oneLine .atComponentIdList ('@' :: (w ++ rest)) line column (1 + w.length)) := by
    unfold getAtComponentIdList
    rw [if_neg (by simp only [List.length_cons]; omega)]
    dsimp only
    rw [List.drop_succ_cons, List.drop_zero, hsp, Nat.add_sub_cancel_left]
    by_cases hw0 : w = []
    · subst hw0
      rfl
    · have hp := List.length_pos_iff.mpr hw0
      have : ('@' :: (w ++ rest))[w.length]? = w.getLast? := by
        rw [← getElem?_last w rest hw0]
        rw [show w.length = (w.length - 1) + 1 by omega]
        simp
      rw [this]
      cases hg : w.getLast? with
      | none => exact absurd (List.getLast?_eq_none_iff.mp hg) hw0
      | some c =>
        dsimp only
        rw [if_neg (by rintro (rfl | rfl) <;> contradiction)]
  refine Takes.of (t := oneLine .atComponentIdList ('@' :: (w ++ rest)) line column (1 + w.length)) ?_
    (by simp [oneLine, Nat.add_comm]) rfl
  rw [List.cons_append]
  unfold step
  dsimp only
  rw [if_neg (by decide), if_neg (by decide), if_neg (by decide), if_neg (by decide), if_neg (by decide), if_neg (by decide),
    if_neg (by decide), if_neg (by decide), if_neg (by decide), if_pos rfl, key]
  rfl

theorem closingQuote_quoted {mid : List Char} (h : Quoted mid) (rest : List Char) (hr : NotNext (· = '"') rest) (i : Nat) :
    closingQuote (mid ++ '"' :: rest) i = some (i + mid.length) := by
  induction h generalizing i with
  | nil =>
    cases rest with
    | nil => simp [closingQuote]
    | cons c cs => simp [closingQuote, hr c rfl]
  | @char c cs hc _ ih =>
    have hne : cs ++ '"' :: rest ≠ [] := by simp
    rw [List.cons_append]
    have ih := ih (i + 1)
    cases h : cs ++ '"' :: rest with
    | nil => exact absurd h hne
    | cons d ds =>
      rw [h] at ih
      rw [closingQuote, if_neg hc, ih]
      simp only [List.length_cons]
      congr 1
      omega
  | quote _ ih =>
    simp only [List.cons_append, closingQuote, if_true, ih, List.length_cons]
    congr 1
    omega

theorem takes_string (u : Unicode) {mid rest : List Char} (h : Quoted mid) (hr : NotNext (· = '"') rest)
    (line column : Nat) : Takes u .tString ('"' :: mid ++ ['"']) rest line column := by
  have hc := closingQuote_quoted h rest hr 1
  have hs : ('"' :: mid ++ ['"']) ++ rest = '"' :: (mid ++ '"' :: rest) := by simp
  unfold Takes
  rw [hs]
  unfold step
  dsimp only
  rw [if_neg (by decide), if_neg (by decide), if_neg (by decide), if_neg (by decide), if_neg (by decide), if_neg (by decide),
    if_neg (by decide), if_neg (by decide), if_neg (by decide), if_neg (by decide), if_neg (by decide), if_pos rfl]
  unfold getStringToken
  rw [if_neg (by simp), List.drop_succ_cons, List.drop_zero, hc]
  refine ⟨_, _, rfl, ?_, rfl, rfl⟩
  simp only [Step.ofLines, List.length_cons, List.length_append, List.length_nil]
  omega

theorem findIdx?_first {p : Char → Bool} {mid : List Char} (h : ∀ c ∈ mid, p c = false) {c : Char} (hc : p c = true)
    (rest : List Char) : (mid ++ c :: rest).findIdx? p = some mid.length := by
  induction mid with
  | nil => rw [List.nil_append, List.findIdx?_cons, hc]; rfl
  | cons d ds ih =>
    rw [List.cons_append, List.findIdx?_cons, h d (by simp)]
    simp [ih fun e he => h e (List.mem_cons_of_mem _ he)]

theorem takes_bitOrHex (u : Unicode) {mid rest : List Char} {c : Char} {type : TokenType}
    (hm : '\'' ∉ mid)
    (h : ((c = 'b' ∨ c = 'B') ∧ type = .bitString ∧ ∀ d ∈ mid, isWhitespace d ∨ d = '0' ∨ d = '1') ∨
      ((c = 'h' ∨ c = 'H') ∧ type = .hexString ∧ ∀ d ∈ mid, isWhitespace d ∨ isHexDigit d))
    (line column : Nat) : Takes u type ('\'' :: mid ++ ['\'', c]) rest line column := by
  have hs : ('\'' :: mid ++ ['\'', c]) ++ rest = '\'' :: (mid ++ '\'' :: c :: rest) := by simp
  have hf : (mid ++ '\'' :: c :: rest).findIdx? (fun x => decide (x = '\'')) = some mid.length :=
    findIdx?_first (fun d hd => by
      have : d ≠ '\'' := fun e => hm (e ▸ hd)
      simpa using this) (by simp) _
  have hget : ('\'' :: (mid ++ '\'' :: c :: rest))[mid.length + 1 + 1]? = some c := by
    simp
  have htake : ('\'' :: (mid ++ '\'' :: c :: rest)).take (mid.length + 1 + 1) = '\'' :: (mid ++ ['\'']) := by
    rw [List.take_succ_cons, List.take_append, List.take_of_length_le (by omega)]
    simp
  unfold Takes
  rw [hs]
  unfold step
  dsimp only
  rw [if_neg (by decide), if_neg (by decide), if_neg (by decide), if_neg (by decide), if_neg (by decide), if_neg (by decide),
    if_neg (by decide), if_neg (by decide), if_neg (by decide), if_neg (by decide), if_pos rfl]
  have key : ∃ lc text, getBitOrHexStringToken ('\'' :: (mid ++ '\'' :: c :: rest)) line column =
      .ok ((⟨type, ⟨line, column⟩, ⟨line + lc.1, lc.2⟩, text⟩, mid.length + 1 + 1 + 1), lc) := by
    unfold getBitOrHexStringToken
    rw [if_neg (by simp), List.drop_succ_cons, List.drop_zero, hf]
    dsimp only
    rw [hget]
    dsimp only
    rw [htake]
    rcases h with ⟨hc, rfl, hd⟩ | ⟨hc, rfl, hd⟩
    · have hh : ¬ (c = 'h' ∨ c = 'H') := by rcases hc with rfl | rfl <;> decide
      rw [if_neg hh, if_pos hc]
      dsimp only
      rw [if_neg, if_neg (by simp)]
      · exact ⟨_, _, rfl⟩
      · simp only [decide_true, Bool.true_and, Bool.not_eq_true, Bool.not_eq_false', List.all_eq_true, List.mem_filter]
        rintro d ⟨hd1, hd2⟩
        rcases List.mem_cons.mp hd1 with rfl | hd1
        · decide
        · rcases List.mem_append.mp hd1 with hd1 | hd1
          · rcases hd d hd1 with h | h | h
            · simp [h] at hd2
            · simp [h]
            · simp [h]
          · rcases List.mem_cons.mp hd1 with rfl | hd1
            · decide
            · cases hd1
    · rw [if_pos hc]
      dsimp only
      rw [if_neg (by simp), if_neg]
      · exact ⟨_, _, rfl⟩
      · simp only [decide_true, Bool.true_and, Bool.not_eq_true, Bool.not_eq_false', List.all_eq_true, List.mem_filter]
        rintro d ⟨hd1, hd2⟩
        rcases List.mem_cons.mp hd1 with rfl | hd1
        · decide
        · rcases List.mem_append.mp hd1 with hd1 | hd1
          · rcases hd d hd1 with h | h
            · simp [h] at hd2
            · simp [h]
          · rcases List.mem_cons.mp hd1 with rfl | hd1
            · decide
            · cases hd1
  obtain ⟨lc, text, key⟩ := key
  rw [key]
  refine ⟨_, _, rfl, ?_, rfl, rfl⟩
  simp only [Step.ofLines, List.length_cons, List.length_append, List.length_nil]

theorem commentEnd_closed (b rest : List Char) (hn : '\n' ∉ b) (hd : ¬ ['-', '-'] <:+: b ++ ['-']) (i : Nat) :
    commentEnd (b ++ '-' :: '-' :: rest) i = some (i + b.length + 2) := by
  induction b generalizing i with
  | nil => simp [commentEnd]
  | cons c b ih =>
    have ih := ih (fun h => hn (List.mem_cons_of_mem _ h)) (fun h => hd (h.trans (List.suffix_cons _ _).isInfix)) (i + 1)
    have hc : c ≠ '\n' := fun e => hn (by simp [e])
    cases b with
    | nil =>
      have : ¬ (c = '-' ∧ '-' = '-') := by
        rintro ⟨rfl, -⟩
        exact hd (List.infix_refl _)
      rw [List.cons_append, List.nil_append, commentEnd, if_neg hc, if_neg this]
      simp only [List.nil_append] at ih
      rw [ih]
      simp only [List.length_cons, List.length_nil]
    | cons d b =>
      have : ¬ (c = '-' ∧ d = '-') := by
        rintro ⟨rfl, rfl⟩
        exact hd ⟨[], b ++ ['-'], by simp⟩
      rw [List.cons_append, List.cons_append, commentEnd, if_neg hc, if_neg this, ← List.cons_append, ih]
      simp only [List.length_cons]
      congr 1
      omega

theorem commentEnd_line (b : List Char) (e : Char) (rest : List Char) (hn : '\n' ∉ b) (hd : ¬ ['-', '-'] <:+: b) (i : Nat) :
    commentEnd (b ++ '\n' :: e :: rest) i = some (i + b.length) := by
  induction b generalizing i with
  | nil => simp [commentEnd]
  | cons c b ih =>
    have ih := ih (fun h => hn (List.mem_cons_of_mem _ h)) (fun h => hd (h.trans (List.suffix_cons _ _).isInfix)) (i + 1)
    have hc : c ≠ '\n' := fun e => hn (by simp [e])
    cases b with
    | nil => simp [commentEnd, hc]
    | cons d b =>
      have : ¬ (c = '-' ∧ d = '-') := by
        rintro ⟨rfl, rfl⟩
        exact hd ⟨[], b, by simp⟩
      rw [List.cons_append, List.cons_append, commentEnd, if_neg hc, if_neg this, ← List.cons_append, ih]
      simp only [List.length_cons]
      congr 1
      omega

theorem commentEnd_open (b : List Char) (hn : '\n' ∉ b.dropLast) (hd : ¬ ['-', '-'] <:+: b) (i : Nat) :
    commentEnd b i = none := by
  induction b generalizing i with
  | nil => rfl
  | cons c b ih =>
    cases b with
    | nil => rfl
    | cons d b =>
      have ih := ih (fun h => hn (by rw [List.dropLast_cons_cons]; exact List.mem_cons_of_mem _ h))
        (fun h => hd (h.trans (List.suffix_cons _ _).isInfix)) (i + 1)
      have hc : c ≠ '\n' := fun e => hn (by simp [e])
      have : ¬ (c = '-' ∧ d = '-') := by
        rintro ⟨rfl, rfl⟩
        exact hd ⟨[], b, by simp⟩
      rw [commentEnd, if_neg hc, if_neg this, ih]

theorem takes_comment (u : Unicode) {body rest raw : List Char} {n : Nat} (hraw : raw.length = n)
    (h : n = (match commentEnd (body ++ rest) 0 with | some n => 2 + n | none => ('-' :: '-' :: (body ++ rest)).length))
    (hr : raw ++ rest = '-' :: '-' :: (body ++ rest))
    (line column : Nat) : Takes u .comment raw rest line column := by
  unfold Takes
  rw [hr]
  unfold step
  dsimp only
  rw [if_neg (by decide), if_neg (by decide), if_pos rfl]
  unfold getMaybeCommentToken
  dsimp only
  rw [if_neg (by decide)]
  refine ⟨_, _, rfl, ?_, rfl, rfl⟩
  rw [hraw, h]
  rfl

/-- The one-character tokens that need a character after them. -/
def short : List (List Char) := [['['], [']'], ['-'], ['@']]

theorem takes_shape (u : Unicode) {type : TokenType} {raw rest : List Char} (h : Shape u type raw rest)
    (hl : rest ≠ [] ∨ raw ∉ short)
    (hc : ¬ (type = .comment ∧ rest = ['\n'] ∧ ¬ ['-', '-'] <:+: raw.drop 2)) (line column : Nat) :
    Takes u type raw rest line column := by
  cases type
  case curlyBegin => cases h; exact .of (t := oneLine .curlyBegin _ _ _ 1) rfl rfl rfl
  case curlyEnd => cases h; exact .of (t := oneLine .curlyEnd _ _ _ 1) rfl rfl rfl
  case roundBegin => cases h; exact .of (t := oneLine .roundBegin _ _ _ 1) rfl rfl rfl
  case roundEnd => cases h; exact .of (t := oneLine .roundEnd _ _ _ 1) rfl rfl rfl
  case exceptionMarker => cases h; exact .of (t := oneLine .exceptionMarker _ _ _ 1) rfl rfl rfl
  case semiColon => cases h; exact .of (t := oneLine .semiColon _ _ _ 1) rfl rfl rfl
  case comma => cases h; exact .of (t := oneLine .comma _ _ _ 1) rfl rfl rfl
  case setUnionToken => cases h; exact .of (t := oneLine .setUnionToken _ _ _ 1) rfl rfl rfl
  case setIntersectionToken => cases h; exact .of (t := oneLine .setIntersectionToken _ _ _ 1) rfl rfl rfl
  case lessThan => cases h; exact .of (t := oneLine .lessThan _ _ _ 1) rfl rfl rfl
  case additionGroupsBegin => cases h; exact .of (t := oneLine .additionGroupsBegin _ _ _ 2) rfl rfl rfl
  case additionGroupsEnd => cases h; exact .of (t := oneLine .additionGroupsEnd _ _ _ 2) rfl rfl rfl
  case extension => cases h; exact .of (t := oneLine .extension _ _ _ 3) rfl rfl rfl
  case assignment => cases h; exact .of (t := oneLine .assignment _ _ _ 3) rfl rfl rfl
  case squareBegin =>
    obtain ⟨rfl, hn⟩ := h
    cases rest with
    | nil => exact absurd hl (by decide)
    | cons d ds =>
      refine .of (t := oneLine .squareBegin ('[' :: d :: ds) line column 1) ?_ rfl rfl
      simp [step, getSquareToken, hn d rfl, singleCharType, Out.bind]
  case squareEnd =>
    obtain ⟨rfl, hn⟩ := h
    cases rest with
    | nil => exact absurd hl (by decide)
    | cons d ds =>
      refine .of (t := oneLine .squareEnd (']' :: d :: ds) line column 1) ?_ rfl rfl
      simp [step, getSquareToken, hn d rfl, singleCharType, Out.bind]
  case rangeSeparator =>
    obtain ⟨rfl, hn⟩ := h
    cases rest with
    | nil => exact .of (t := oneLine .rangeSeparator _ _ _ 2) rfl rfl rfl
    | cons d ds =>
      refine .of (t := oneLine .rangeSeparator ('.' :: '.' :: d :: ds) line column 2) ?_ rfl rfl
      simp [step, getRangeOrExtensionToken, hn d rfl, singleCharType, Out.bind]
  case dot =>
    obtain ⟨rfl, hn⟩ := h
    refine .of (t := oneLine .dot ('.' :: rest) line column 1) ?_ rfl rfl
    rcases rest with _ | ⟨d, _ | ⟨e, es⟩⟩
    · rfl
    · simp [step, getRangeOrExtensionToken, hn d rfl, singleCharType, Out.bind]
    · simp [step, getRangeOrExtensionToken, hn d rfl, singleCharType, Out.bind]
  case colon =>
    obtain ⟨rfl, hn⟩ := h
    refine .of (t := oneLine .colon (':' :: rest) line column 1) ?_ rfl rfl
    rcases rest with _ | ⟨d, _ | ⟨e, es⟩⟩
    · rfl
    · simp [step, getAssignmentOrColonToken, hn d rfl, singleCharType, Out.bind]
    · simp [step, getAssignmentOrColonToken, hn d rfl, singleCharType, Out.bind]
  case identifier =>
    obtain ⟨hw, ha, hr, hk⟩ := h
    have := takes_word u hw ha hr line column
    have hk' : (KEYWORDS.any fun kw => decide (raw = kw.toList)) = false := by
      rw [List.any_eq_false]
      intro kw hkw
      simpa using hk kw hkw
    rw [hk'] at this
    exact this
  case keyword =>
    obtain ⟨hw, ha, hr, kw, hk, he⟩ := h
    have := takes_word u hw ha hr line column
    have hk' : (KEYWORDS.any fun kw => decide (raw = kw.toList)) = true := by
      rw [List.any_eq_true]
      exact ⟨kw, hk, by simpa using he⟩
    rw [hk'] at this
    exact this
  case andIdentifier =>
    obtain ⟨w, rfl, hw, hr⟩ := h
    exact takes_and u hw hr line column
  case numberInt =>
    obtain ⟨sign, digits, rfl, ⟨rfl, hd⟩ | ⟨rfl, hd⟩, hn, hr⟩ := h
    · refine takes_negative u ?_ hd hn hr line column
      intro e
      obtain ⟨rfl, rfl⟩ := List.append_eq_nil_iff.mp e
      exact absurd hl (by decide)
    · exact takes_number u hd hn hr line column
  case atComponentIdList =>
    obtain ⟨w, rfl, hw, h1, h2, hr⟩ := h
    refine takes_at u ?_ hw h1 h2 hr line column
    intro e
    obtain ⟨rfl, rfl⟩ := List.append_eq_nil_iff.mp e
    exact absurd hl (by decide)
  case tString =>
    obtain ⟨mid, rfl, hq, hr⟩ := h
    exact takes_string u hq hr line column
  case bitString =>
    obtain ⟨mid, c, rfl, hb, hm⟩ := h
    refine takes_bitOrHex u (fun hi => ?_) (.inl ⟨hb, rfl, hm⟩) line column
    have := hm _ hi
    revert this; decide
  case hexString =>
    obtain ⟨mid, c, rfl, hb, hm⟩ := h
    refine takes_bitOrHex u (fun hi => ?_) (.inr ⟨hb, rfl, fun d hd => ?_⟩) line column
    · have := hm _ hi
      revert this; decide
    · rcases hm d hd with h | h
      · exact .inl h
      · right
        have : ∀ d ∈ hexDigits, isHexDigit d = true := by decide
        exact this d h
  case comment =>
    obtain ⟨body, rfl, ⟨b, rfl, hn, hd⟩ | ⟨hn, hd, hr⟩ | ⟨rfl, hd, hn⟩⟩ := h
    · refine takes_comment u (body := b ++ ['-', '-']) rfl ?_ (by simp) line column
      rw [List.append_assoc]
      have := commentEnd_closed b rest hn hd 0
      simp only [List.cons_append, List.nil_append] at this ⊢
      rw [this]
      simp only [List.length_cons, List.length_append, List.length_nil]
      omega
    · rcases rest with _ | ⟨c, _ | ⟨e, rest⟩⟩
      · cases hr
      · cases hr
        exact absurd ⟨rfl, rfl, hd⟩ hc
      · cases hr
        refine takes_comment u (body := body) rfl ?_ (by simp) line column
        rw [commentEnd_line body e rest hn hd 0]
        simp only [List.length_cons]
        omega
    · refine takes_comment u (body := body) rfl ?_ (by simp) line column
      rw [List.append_nil, commentEnd_open body hn hd 0]

end Hampi.Compiler
