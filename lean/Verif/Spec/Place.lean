import Verif.Spec.Tokens
/-!
# Where a text stops being made of tokens

`Cut u chars raws rest`: `chars` starts with the tokens `raws`, blank characters between and around them, and `rest` is
what is left. `NoToken`: nothing in front of `rest` is a token or blank. On the text alone, as in Spec/Tokens.lean.
-/
namespace Hampi.Spec

open Hampi.Compiler (TokenType Unicode)

/-- The text starts with these tokens, separated by blank characters, and then comes `rest`. -/
inductive Cut (u : Unicode) : (chars : List Char) → (raws : List (List Char)) → (rest : List Char) → Prop
  | here {rest : List Char} : Cut u rest [] rest
  | blank {c : Char} {cs rest : List Char} {raws : List (List Char)} :
      Blank c → Cut u cs raws rest → Cut u (c :: cs) raws rest
  | token {type : TokenType} {raw cs rest : List Char} {raws : List (List Char)} :
      raw ≠ [] → Shape u type raw cs → Cut u cs raws rest → Cut u (raw ++ cs) (raw :: raws) rest

/-- A character of ASN.1 comes next, but neither a blank character nor a token. (The sign `@` that ends a text is
counted here, too.) -/
def NoToken (u : Unicode) (rest : List Char) : Prop :=
  rest = ['@'] ∨
    ((∃ c cs, rest = c :: cs ∧ Starts c ∧ ¬ Blank c) ∧
      ∀ type raw tail, raw ≠ [] → rest = raw ++ tail → ¬ Shape u type raw tail)

end Hampi.Spec
