import Verif.Compiler.Rustfmt
/-!
# What a program does with an input, by itself

Without pipes and other threads: the program is given all of its input at once, as in `program < file > result`.
-/
namespace Hampi.Compiler.Spec
open Hampi.Compiler.Pipes

/-- From the state `c`, with this input left, the program prints `out` and ends with `code`. -/
inductive Prints (P : Prog) : P.State → List UInt8 → List UInt8 → Option Nat → Prop
  | exit {c inp n} : P.act c = .exit n → Prints P c inp [] n
  | read {c k b inp out n} : P.act c = .read k → Prints P (k (some b)) inp out n → Prints P c (b :: inp) out n
  | eof {c k out n} : P.act c = .read k → Prints P (k none) [] out n → Prints P c [] out n
  | write {c b c' inp out n} : P.act c = .write b c' → Prints P c' inp out n → Prints P c inp (b :: out) n
  | compute {c c' inp out n} : P.act c = .compute c' → Prints P c' inp out n → Prints P c inp out n

/-- Given `code`, the program prints `out` and ends with `n`. -/
def Formats (P : Prog) (code out : List UInt8) (n : Option Nat) : Prop := Prints P P.start code out n

end Hampi.Compiler.Spec
