import Verif.Spec.Ops
/-!
# The parameters with which a decode function can panic

Stated on the numbers given to the decode functions, and on what fits an `i128` and a `usize`.
-/
namespace Hampi.Spec

/-- The largest number that the field of a whole number with `range` values can hold. -/
def fieldTop (range : Int) : Int :=
  if range ≤ 1 then 0
  else if range ≤ 2 then 1
  else if range ≤ 4 then 3
  else if range ≤ 8 then 7
  else if range ≤ 16 then 15
  else if range ≤ 32 then 31
  else if range ≤ 64 then 63
  else if range ≤ 128 then 127
  else if range ≤ 256 then 255
  else if range ≤ 65536 then 65535
  else if range < 2 ^ 32 then 2 ^ 32 - 1
  else 2 ^ 64 - 1

/-- Bounds of a whole number for which some octets make the decoder panic: the number of values leaves an
`i128`; there are 2^64 or more and they do not start at 0; or the largest number the field can hold leaves an
`i128` when the lower bound is added. -/
def IntPanics (lb ub : Int) : Prop :=
  ub - lb < -(2 ^ 127) ∨ 2 ^ 127 ≤ ub - lb + 1 ∨
    (2 ^ 64 ≤ ub - lb + 1 ∧ lb ≠ 0) ∨
    (lb ≤ ub ∧ ub - lb + 1 < 2 ^ 64 ∧ 2 ^ 127 ≤ lb + fieldTop (ub - lb + 1))

/-- The same with bounds that may be absent: a lower bound alone is enough. -/
def IntegerPanics : Option Int → Option Int → Prop
  | none, _ => False
  | some _, none => True
  | some lb, some ub => IntPanics lb ub

/-- Not a `usize`. -/
def NotUsize (n : Int) : Prop := n < 0 ∨ 2 ^ 64 ≤ n

/-- Size bounds for which the decoder panics: they are no sizes, or they are out of order and below 65536. -/
def SizePanics (lb ub : Option Int) : Prop :=
  (∃ l, lb = some l ∧ NotUsize l) ∨ (∃ u, ub = some u ∧ NotUsize u) ∨
    ∃ l u, lb = some l ∧ ub = some u ∧ u < 65536 ∧ u < l

/-- The calls that some octets make panic. -/
def CanPanic : Kind → Prop
  | .integer lb ub _ => IntegerPanics lb ub
  | .enumerated lb ub ext => ext = true ∨ IntegerPanics lb ub
  | .choiceIdx lb ub ext => ext = true ∨ IntPanics lb ub
  | .sequenceHeader .. | .bool => False
  | .bitstring lb ub _ | .octetstring lb ub _ => SizePanics lb ub
  | .visibleString lb ub _ | .printableString lb ub _ | .utf8String lb ub _ => SizePanics lb ub
  | .length lb ub normallySmall => normallySmall = false ∧ SizePanics lb ub

/-- The bounds given to a call are `i128` numbers. -/
def I128Bounds : Kind → Prop
  | .choiceIdx lb ub _ => IsI128 lb ∧ IsI128 ub
  | .integer lb ub _ | .enumerated lb ub _ | .bitstring lb ub _ | .octetstring lb ub _ | .visibleString lb ub _
  | .printableString lb ub _ | .utf8String lb ub _ | .length lb ub _ =>
      (∀ l, lb = some l → IsI128 l) ∧ ∀ u, ub = some u → IsI128 u
  | .sequenceHeader .. | .bool => True

end Hampi.Spec
