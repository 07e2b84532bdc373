import Verif.Spec.Tokens
/-!
# How a text is laid out
-/
namespace Hampi.Spec
open Hampi.Compiler

/-- A text consists of words, of the kinds that `Shape` gives, with blank characters between them. Character strings
are within one line. -/
inductive Worded (u : Unicode) : List Char → List (TokenType × List Char) → Prop
  | blank {gap} : (∀ c ∈ gap, Blank c) → Worded u gap []
  | word {gap raw rest type ws} : (∀ c ∈ gap, Blank c) → raw ≠ [] → Shape u type raw rest →
      (type = .tString → '\n' ∉ raw) → Worded u rest ws → Worded u (gap ++ raw ++ rest) ((type, raw) :: ws)

/-- The last character is blank. -/
def EndsBlank (text : List Char) : Prop := ∃ c, text.getLast? = some c ∧ Blank c

/-- Two texts that consist of the same words, but for comments. -/
def SameWords (u : Unicode) (text text' : List Char) : Prop :=
  ∃ ws ws', Worded u text ws ∧ Worded u text' ws' ∧
    ws.filter (fun w => w.1 ≠ .comment) = ws'.filter (fun w => w.1 ≠ .comment)

end Hampi.Spec
