import Verif.Lemmas.TokensBack
/-!
# A token is determined by its source

What a turn of the loop returns depends on the characters that it consumes and the type of the token; what comes after
them only matters for where they end.
-/
namespace Hampi.Compiler
open Spec

/-- The turn that pushes the token with the source `raw`. -/
def formed (type : TokenType) (raw : List Char) (line column : Nat) : Step :=
  match type with
  | .tString =>
      .ofLines line column ((⟨.tString, ⟨line, column⟩, ⟨line + (linesAndColumn raw column).1, (linesAndColumn raw column).2⟩,
        ((splitLines raw).map trim).flatten⟩, raw.length), linesAndColumn raw column)
  | .bitString =>
      .ofLines line column ((⟨.bitString, ⟨line, column⟩, ⟨line + (linesAndColumn raw.dropLast column).1,
        (linesAndColumn raw.dropLast column).2⟩, raw.dropLast.filter (!isWhitespace ·)⟩, raw.length),
        linesAndColumn raw.dropLast column)
  | .hexString =>
      .ofLines line column ((⟨.hexString, ⟨line, column⟩, ⟨line + (linesAndColumn raw.dropLast column).1,
        (linesAndColumn raw.dropLast column).2⟩, raw.dropLast.filter (!isWhitespace ·)⟩, raw.length),
        linesAndColumn raw.dropLast column)
  | .comment => .of line column (⟨.comment, ⟨line, column⟩, ⟨line, raw.length⟩, raw⟩, raw.length)
  | type => .of line column (oneLine type raw line column raw.length)

/-- The types of the tokens made by `oneLine`. -/
def flatType : TokenType → Bool
  | .tString | .bitString | .hexString | .comment => false
  | _ => true

theorem formed_oneLine {type : TokenType} (h : flatType type = true) {chars : List Char} {n : Nat} (hn : n ≤ chars.length)
    (line column : Nat) :
    Step.of line column (oneLine type chars line column n) = formed type (chars.take n) line column := by
  have h1 : (chars.take n).length = n := by simp [Nat.min_eq_left hn]
  cases type <;> first | (cases h; done) | simp only [formed, oneLine, h1, List.take_take, Nat.min_self]

theorem singleChar_flat {c : Char} {type : TokenType} (h : singleCharType c = some type) : flatType type = true := by
  unfold singleCharType at h
  split at h <;> first | (cases h; rfl) | cases h

theorem step_formed (u : Unicode) {chars : List Char} {line column : Nat} {s : Step} {t : Token}
    (h : step u chars line column = .ok s) (ht : s.token = some t) :
    s = formed t.type (chars.take s.consumed) line column := by
  have hle := (step_good u h).le
  cases chars with
  | nil => cases h
  | cons c cs =>
  revert h
  have one : ∀ {type : TokenType} {n : Nat}, flatType type = true →
      (Out.ok (Step.of line column (oneLine type (c :: cs) line column n)) : Out TokenizeError Step) = .ok s →
      s = formed t.type ((c :: cs).take s.consumed) line column := by
    intro type n hf h
    cases h
    cases ht
    exact formed_oneLine hf hle line column
  refine step_cases u c cs line column (P := fun r => r = .ok s → s = formed t.type ((c :: cs).take s.consumed) line column)
    ?_ ?_ ?_ ?_ ?_ ?_ ?_ ?_ ?_ ?_ ?_ ?_ ?_ ?_
  · intro _ h; cases h; cases ht
  · intro _ h; cases h; cases ht
  · intro _ h
    obtain ⟨t?, h1, h2⟩ := Out.bind_eq_ok h
    cases t? with
    | none =>
      obtain ⟨x, h3, h4⟩ := Out.bind_eq_ok h2
      simp only [getNumberToken] at h3
      repeat' split at h3
      all_goals first | (cases h3; done) | skip
      all_goals (cases h3; exact one rfl h4)
    | some x =>
      cases h2
      cases cs with
      | nil => cases h1
      | cons d ds =>
        simp only [getMaybeCommentToken] at h1
        by_cases hd : d = '-'
        · subst hd
          simp only [ne_eq, not_true_eq_false, if_false] at h1
          cases h1
          cases ht
          simp only [Step.of, formed] at hle ⊢
          simp only [List.length_take, Nat.min_eq_left hle]
        · simp only [ne_eq, hd, not_false_eq_true, if_true] at h1
          cases h1
  · intro hc h
    cases hs : singleCharType c with
    | none => rw [hs] at hc; cases hc
    | some type =>
      rw [hs] at h
      exact one (singleChar_flat hs) h
  · intro _ h
    obtain ⟨x, h1, h2⟩ := Out.bind_eq_ok h
    cases cs with
    | nil => cases h1
    | cons d ds =>
      simp only [getSquareToken] at h1
      repeat' split at h1
      all_goals (cases h1; exact one rfl h2)
  · intro _ h
    obtain ⟨x, h1, h2⟩ := Out.bind_eq_ok h
    unfold getAssignmentOrColonToken at h1
    repeat' split at h1
    all_goals first | (cases h1; done) | skip
    all_goals (cases h1; exact one rfl h2)
  · intro _ h
    obtain ⟨x, h1, h2⟩ := Out.bind_eq_ok h
    unfold getRangeOrExtensionToken at h1
    repeat' split at h1
    all_goals first | (cases h1; done) | skip
    all_goals (cases h1; exact one rfl h2)
  · intro _ h
    obtain ⟨x, h1, h2⟩ := Out.bind_eq_ok h
    simp only [getIdentifierOrKeywordToken] at h1
    repeat' split at h1
    all_goals first | (cases h1; done) | skip
    all_goals (cases h1; exact one rfl h2)
  · intro _ h
    obtain ⟨x, h3, h4⟩ := Out.bind_eq_ok h
    simp only [getNumberToken] at h3
    repeat' split at h3
    all_goals first | (cases h3; done) | skip
    all_goals (cases h3; exact one rfl h4)
  · intro _ h
    obtain ⟨x, h3, h4⟩ := Out.bind_eq_ok h
    simp only [getAtComponentIdList] at h3
    repeat' split at h3
    all_goals first | (cases h3; done) | skip
    all_goals (cases h3; exact one rfl h4)
  · intro _ h
    obtain ⟨x, h3, h4⟩ := Out.bind_eq_ok h
    simp only [getBitOrHexStringToken] at h3
    split at h3
    · cases h3
    split at h3
    · cases h3
    rename_i last _
    split at h3
    · cases h3
    rename_i d hd
    have hdl : ∀ n, n + 1 ≤ (c :: cs).length → ((c :: cs).take (n + 1)).dropLast = (c :: cs).take n := by
      intro n hn
      rw [List.dropLast_eq_take, List.length_take, Nat.min_eq_left hn, List.take_take]
      congr 1
      omega
    have fin : ∀ type : TokenType, (type = .hexString ∨ type = .bitString) →
        (Out.ok ((⟨type, ⟨line, column⟩, ⟨line + (linesAndColumn ((c :: cs).take (last + 1 + 1)) column).1,
          (linesAndColumn ((c :: cs).take (last + 1 + 1)) column).2⟩,
          ((c :: cs).take (last + 1 + 1)).filter (!isWhitespace ·)⟩, last + 1 + 1 + 1),
          linesAndColumn ((c :: cs).take (last + 1 + 1)) column) : Out TokenizeError (Lexed × Nat × Nat)) = .ok x →
        s = formed t.type ((c :: cs).take s.consumed) line column := by
      intro type hty h3
      cases h3
      cases h4
      cases ht
      simp only [Step.ofLines] at hle ⊢
      rcases hty with e | e <;> subst e <;> simp only [formed, hdl _ hle, List.length_take, Nat.min_eq_left hle, Step.ofLines]
    split at h3
    · cases h3
    rename_i type hty
    split at h3
    · cases h3
    split at h3
    · cases h3
    refine fin type ?_ h3
    split at hty
    · cases hty; exact .inl rfl
    · split at hty
      · cases hty; exact .inr rfl
      · cases hty
  · intro _ h
    obtain ⟨x, h3, h4⟩ := Out.bind_eq_ok h
    simp only [getStringToken] at h3
    repeat' split at h3
    all_goals first | (cases h3; done) | skip
    cases h3
    cases h4
    cases ht
    simp only [Step.ofLines, formed] at hle ⊢
    simp only [List.length_take, Nat.min_eq_left hle]
  · intro _ h; cases h; cases ht
  · intro _ h; cases h

end Hampi.Compiler
