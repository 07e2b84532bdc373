import Verif.Spec.Tokens
import Verif.Spec.NotationDefs
import Verif.Lemmas.Resolve
/-!
# What a file says

`Spells u text ms`: the text of a file consists of tokens, separated by blank characters and with any
comments, that are a way to write the modules `ms`. It does not matter where in the file the tokens stand.
-/
namespace Hampi.Compiler.Spec

open Hampi.Spec (Tiles Same)

/-- The text is a way to write the modules. -/
def Spells (u : Unicode) (text : List Char) (ms : List ParsedModule) : Prop :=
  ∃ ts, Tiles u (fun _ _ => True) [] text ts ∧
    ∀ ts', All2 Same ts ts' → ModulesNote ms (ts'.filter fun t => !t.is .comment)

end Hampi.Compiler.Spec
