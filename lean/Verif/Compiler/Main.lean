import Verif.Compiler.Modules
import Verif.Compiler.Items
import Verif.Compiler.ParserDefs
/-!
# The compiler as a program (asn-compiler/src/bin/hampi-asn1c.rs)

The arguments of the program are the contents of the files they name. Left out: what is printed to the
standard error output, and rustfmt (compiler.rs:91-120), which is given the generated items and whose output
is printed; it is modelled by itself in Compiler/Rustfmt.lean.
-/
namespace Hampi.Compiler

/-- An argument of the program: a file that cannot be opened, one that is not UTF-8, or a text. -/
inductive Arg where
  | missing
  | binary
  | text (chars : List Char)

/-- Why `main` returns an error. -/
inductive MainErr where
  | open
  | tokenize (e : TokenizeError)
  | compile (e : Err)
deriving Repr, DecidableEq

/-- The `?` of `main` on a result of the parser, resolver or generator. -/
def Out.orCompile {α : Type} : Out Err α → Out MainErr α
  | .ok a => .ok a
  | .err e => .err (.compile e)
  | .panic => .panic
  | .diverge => .diverge

/-- The `?` of `main` on the result of the tokenizer. -/
def Out.orTokenize {α : Type} : Out TokenizeError α → Out MainErr α
  | .ok a => .ok a
  | .err e => .err (.tokenize e)
  | .panic => .panic
  | .diverge => .diverge

/-- The modules of one file (bin/hampi-asn1c.rs:15-18). The text is read as UTF-8 by `tokenize`
(tokenizer/mod.rs:811-812), which panics on anything else. -/
def readArg (u : Unicode) (n : Nat) : Arg → Out MainErr (List ParsedModule)
  | .missing => .err .open
  | .binary => .panic
  | .text cs => (tokenize u cs).orTokenize.bind fun ts => (parse n ts).orCompile

/-- The inner loop of `main` (bin/hampi-asn1c.rs:20-28): the modules are added from the last to the first. -/
def addModules (u : Unicode) (n : Nat) (ms : List Module) (pms : List ParsedModule) : List Module :=
  pms.reverse.foldl (fun ms pm => (addModule ms (pm.toModule u n)).1) ms

/-- The outer loop of `main` (bin/hampi-asn1c.rs:13-29). -/
def readArgs (u : Unicode) (n : Nat) : List Module → List Arg → Out MainErr (List Module)
  | ms, [] => .ok ms
  | ms, a :: as => (readArg u n a).bind fun pms => readArgs u n (addModules u n ms pms) as

/-- `main` (bin/hampi-asn1c.rs:8-35): `r` is a possible result, with the generated items. -/
def Runs (u : Unicode) (sp : Spelling) (n : Nat) (args : List Arg) (r : Out MainErr (List Item)) : Prop :=
  match readArgs u n [] args with
  | .ok ms => ∃ s, ResolvesModules n {} ms s ∧ r = (s.bind (generate sp)).orCompile
  | .err e => r = .err e
  | .panic => r = .panic
  | .diverge => r = .diverge

end Hampi.Compiler
