import Verif.Compiler.Constraints
/-!
# What an INTEGER constraint means (X.680 clauses 50 and 51)

The set of integers a written constraint permits, read off the syntax tree alone.
-/
namespace Hampi.Spec

open Hampi.Compiler (Text AsnType Kind Constraint ElementSet Elements ConstraintValues)

/-- The number written by a string of decimal digits. -/
def decimal : Text → Nat
  | [] => 0
  | d :: ds => (d.toNat - 48) * 10 ^ ds.length + decimal ds

/-- A non-empty string of decimal digits. -/
def Digits (ds : Text) : Prop := ds ≠ [] ∧ ∀ c ∈ ds, c.isDigit = true

/-- `t` writes the number `v`: digits, perhaps after a sign (a plus sign is not ASN.1, but can only
mean one thing). -/
def Numeral (t : Text) (v : Int) : Prop :=
  (Digits t ∧ v = decimal t) ∨
    ∃ ds, Digits ds ∧ ((t = '-' :: ds ∧ v = -(decimal ds : Int)) ∨ (t = '+' :: ds ∧ v = decimal ds))

/-- The numeral of a natural number. -/
def natText (n : Nat) : Text :=
  if n < 10 then [Char.ofNat (48 + n)] else natText (n / 10) ++ [Char.ofNat (48 + n % 10)]
termination_by n
decreasing_by omega

/-- The numeral of an integer. -/
def intText (v : Int) : Text := if v < 0 then '-' :: natText v.natAbs else natText v.natAbs

/-- What the names in a constraint stand for: integer values, and sets of integers for types. -/
structure Names where
  int : Text → Option Int
  type : Text → Int → Prop

/-- No value is called by a numeral or by one of the words for no bound. -/
def Names.Proper (ns : Names) : Prop :=
  ∀ t v, ns.int t = some v → (∀ w, ¬ Numeral t w) ∧ t ≠ "MIN".toList ∧ t ≠ "MAX".toList

/-- `t` denotes the integer `v`: a numeral, or the name of an integer value. -/
def Denotes (ns : Names) (t : Text) (v : Int) : Prop := Numeral t v ∨ ns.int t = some v

/-- The reserved word for no lower bound. -/
def minWord : Text := "MIN".toList

/-- The reserved word for no upper bound. -/
def maxWord : Text := "MAX".toList

/-- `x` respects a lower bound. -/
def Above (ns : Names) (t : Text) (inclusive : Bool) (x : Int) : Prop :=
  t = minWord ∨ ∃ v, Denotes ns t v ∧ (v < x ∨ (inclusive = true ∧ v = x))

/-- `x` respects an upper bound. -/
def Below (ns : Names) (t : Text) (inclusive : Bool) (x : Int) : Prop :=
  t = maxWord ∨ ∃ v, Denotes ns t v ∧ (x < v ∨ (inclusive = true ∧ v = x))

/-- The integers a computed set stands for: its single values and its half-open ranges. -/
def Holds (s : ConstraintValues) (x : Int) : Prop :=
  x ∈ s.values ∨ ∃ r ∈ s.ranges, r.1 ≤ x ∧ x < r.2

mutual

/-- The values of an INTEGER type: all those every one of its constraints permits (X.680 50.8: serial
constraints intersect). -/
def TypePermits (ns : Names) : AsnType → Int → Prop
  | .mk (.integer _) none, _ => True
  | .mk (.integer _) (some cs), x => AllPermit ns cs x
  | .mk (.reference n) none, x => ns.type n x
  | .mk (.reference n) (some cs), x => ns.type n x ∧ AllPermit ns cs x
  | _, _ => False

/-- Every one of the constraints permits `x`. -/
def AllPermit (ns : Names) : List Constraint → Int → Prop
  | [], _ => True
  | c :: cs, x => ConstraintPermits ns c x ∧ AllPermit ns cs x

/-- The root values of a constraint. -/
def ConstraintPermits (ns : Names) : Constraint → Int → Prop
  | .subtype e, x => Permits ns e x
  | _, _ => False

/-- The root values of an element set: those of some member of the union. -/
def Permits (ns : Names) : ElementSet → Int → Prop
  | .mk root _, x => SomePermits ns root x

/-- The values an element set lists after its extension marker. -/
def PermitsExtension (ns : Names) : ElementSet → Int → Prop
  | .mk _ none, _ => False
  | .mk _ (some add), x => SomePermits ns add x

/-- Some member of a union permits `x`. -/
def SomePermits (ns : Names) : List (List Elements) → Int → Prop
  | [], _ => False
  | i :: is, x => EveryElement ns i x ∨ SomePermits ns is x

/-- Every element of an intersection permits `x`. -/
def EveryElement (ns : Names) : List Elements → Int → Prop
  | [], _ => True
  | e :: es, x => ElementPermits ns e x ∧ EveryElement ns es x

/-- A single value, a range, the values of a type, or a set in parentheses. Sizes and alphabets do
not constrain integers. -/
def ElementPermits (ns : Names) : Elements → Int → Prop
  | .single t, x => Denotes ns t x
  | .contained ty, x => TypePermits ns ty x
  | .range lo loIncl hi hiIncl, x => Above ns lo loIncl x ∧ Below ns hi hiIncl x
  | .set e, x => Permits ns e x ∨ PermitsExtension ns e x
  | _, _ => False

end

mutual

/-- A union: no `^`, no EXCEPT, no set in parentheses, and the same of the single constraint of an INTEGER
type it includes. -/
def UnionsOnly : ElementSet → Prop
  | .mk root none => UnionList root
  | .mk root (some add) => UnionList root ∧ UnionList add

/-- Every member of the union is one element. -/
def UnionList : List (List Elements) → Prop
  | [] => True
  | i :: is => OneElement i ∧ UnionList is

/-- One element. -/
def OneElement : List Elements → Prop
  | [e] => PlainElement e
  | _ => False

/-- A single value, a range, or an included INTEGER type. -/
def PlainElement : Elements → Prop
  | .single _ => True
  | .range .. => True
  | .contained (.mk (.integer _) (some [.subtype e])) => UnionsOnly e
  | _ => False

end

/-- The value `a`, written out. -/
def exactly (a : Int) : Elements := .single (intText a)

/-- The range `a..b`, written out. -/
def between (a b : Int) : Elements := .range (intText a) true (intText b) true

/-- `INTEGER` with constraints. -/
def integerType (cs : List Constraint) : AsnType := .mk (.integer none) (some cs)

/-- `INTEGER (..)` with a constraint without extension marker. -/
def integerOf (root : List (List Elements)) : AsnType := integerType [.subtype (.mk root none)]

/-- A union of single values and ranges. -/
def SimpleUnion (root : List (List Elements)) : Prop :=
  ∀ i ∈ root, (∃ t, i = [.single t]) ∨ ∃ lo li hi hj, i = [.range lo li hi hj]

/-- A union of single values. -/
def AllSingles (root : List (List Elements)) : Prop := ∀ i ∈ root, ∃ t, i = [.single t]

/-- A union of ranges. -/
def AllRanges (root : List (List Elements)) : Prop := ∀ i ∈ root, ∃ lo li hi hj, i = [.range lo li hi hj]

/-- Every element permits some value. -/
def Inhabited (ns : Names) (root : List (List Elements)) : Prop :=
  ∀ i ∈ root, ∃ x, EveryElement ns i x

/-- `t` denotes an integer that, and whose neighbours, are in the range of `i128`. -/
def Small (ns : Names) (t : Text) : Prop :=
  ∃ v, Denotes ns t v ∧ -(2 ^ 127) < v ∧ v + 1 < 2 ^ 127

mutual

/-- Every value and bound is small. -/
def SmallSet (ns : Names) : ElementSet → Prop
  | .mk root none => SmallUnion ns root
  | .mk root (some add) => SmallUnion ns root ∧ SmallUnion ns add

/-- Every value and bound is small. -/
def SmallUnion (ns : Names) : List (List Elements) → Prop
  | [] => True
  | i :: is => SmallAll ns i ∧ SmallUnion ns is

/-- Every value and bound is small. -/
def SmallAll (ns : Names) : List Elements → Prop
  | [] => True
  | e :: es => SmallElement ns e ∧ SmallAll ns es

/-- The value, both bounds, or those of an included INTEGER type. -/
def SmallElement (ns : Names) : Elements → Prop
  | .single t => Small ns t
  | .range lo _ hi _ => Small ns lo ∧ Small ns hi
  | .contained (.mk _ (some [.subtype e])) => SmallSet ns e
  | _ => True

end

end Hampi.Spec
