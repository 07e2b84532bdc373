import Verif.Compiler.Ast
/-!
# Value sets of constraints (asn-compiler/src/resolver/asn/types/constraints.rs)

`env` gives the integer values already resolved. Integers are `i128` in the code: arithmetic that
leaves that range panics (overflow checks on, as in a debug build).
-/
namespace Hampi.Compiler

/-- `Error` (asn-compiler/src/error.rs:9-37), without the messages. -/
inductive Err where
  | tokenize | unexpectedEnd | unexpectedToken | invalidToken | unknownOid | parse | resolve
  | constraint | codegen
deriving Repr, DecidableEq

/-- Range of `i128`. -/
def fits128 (v : Int) : Prop := -(2 ^ 127) ≤ v ∧ v < 2 ^ 127

instance (v : Int) : Decidable (fits128 v) := by unfold fits128; exact inferInstance

/-- An `i128` arithmetic result. -/
def checked128 (v : Int) : Out Err Int := if fits128 v then .ok v else .panic

/-- The value of a digit. -/
def digitVal (c : Char) : Nat := c.toNat - '0'.toNat

/-- The value of a string of decimal digits. -/
def digitsVal (ds : Text) : Nat := ds.foldl (fun n c => 10 * n + digitVal c) 0

/-- Non-empty, digits only. -/
def isDigits (ds : Text) : Bool := !ds.isEmpty && ds.all Char.isDigit

/-- `str::parse` for a signed integer type with the range `lo..hi`: an optional sign and digits. -/
def parseSigned (lo hi : Int) : Text → Option Int
  | '-' :: ds => if isDigits ds ∧ lo ≤ -(digitsVal ds : Int) then some (-(digitsVal ds)) else none
  | '+' :: ds => if isDigits ds ∧ (digitsVal ds : Int) < hi then some (digitsVal ds) else none
  | ds => if isDigits ds ∧ (digitsVal ds : Int) < hi then some (digitsVal ds) else none

/-- `str::parse` for an unsigned integer type with values below `hi`. -/
def parseUnsigned (hi : Nat) : Text → Option Nat
  | '+' :: ds => if isDigits ds ∧ digitsVal ds < hi then some (digitsVal ds) else none
  | ds => if isDigits ds ∧ digitsVal ds < hi then some (digitsVal ds) else none

/-- `value.parse::<i128>()`. -/
def parseI128 : Text → Option Int := parseSigned (-(2 ^ 127)) (2 ^ 127)

/-- `ConstraintValues` (resolver/asn/structs/types/constraints.rs:5-9): half-open ranges and single
values. -/
structure ConstraintValues where
  ranges : List (Int × Int) := []
  values : List Int := []
deriving Repr, DecidableEq

/-- `ConstraintValues::append` (resolver/asn/structs/types/constraints.rs:19-22). -/
def ConstraintValues.append (a b : ConstraintValues) : ConstraintValues :=
  ⟨a.ranges ++ b.ranges, a.values ++ b.values⟩

/-- `ConstraintValues::is_empty` (resolver/asn/structs/types/constraints.rs:24-26). -/
def ConstraintValues.isEmpty (a : ConstraintValues) : Bool := a.values.isEmpty && a.ranges.isEmpty

/-- `Iterator::min`. -/
def minOf : List Int → Option Int
  | [] => none
  | x :: xs => some (xs.foldl min x)

/-- `Iterator::max`. -/
def maxOf : List Int → Option Int
  | [] => none
  | x :: xs => some (xs.foldl max x)

/-- `ConstraintValues::min` (resolver/asn/structs/types/constraints.rs:28-38). -/
def ConstraintValues.min (a : ConstraintValues) : Option Int :=
  match minOf a.values, minOf (a.ranges.map (·.1)) with
  | none, r => r
  | some v, none => some v
  | some v, some r => some (Min.min r v)

/-- `ConstraintValues::max` (resolver/asn/structs/types/constraints.rs:40-50), which takes the
smaller one when there are both values and ranges. `r.end - 1` cannot overflow: ranges are made with
`upper_value + 1` (types/constraints.rs:326-329). -/
def ConstraintValues.max (a : ConstraintValues) : Option Int :=
  match maxOf a.values, maxOf (a.ranges.map (·.2 - 1)) with
  | none, r => r
  | some v, none => some v
  | some v, some r => some (Min.min r v)

/-- `Asn1ConstraintValueSet` (resolver/asn/structs/types/constraints.rs:52-56). -/
structure ValueSet where
  root : ConstraintValues
  additional : Option ConstraintValues
deriving Repr, DecidableEq

/-- `parse_or_resolve_value` (types/constraints.rs:348-376). -/
def parseOrResolve (env : Text → Option Int) (t : Text) : Out Err Int :=
  match parseI128 t with
  | some v => .ok v
  | none =>
    match env t with
    | some v => .ok v
    | none => .err .constraint

/-- The body of the loop of `IntersectionSet::get_integer_valueset` (types/constraints.rs:243-257). -/
def intersectStep (acc e : ConstraintValues) : ConstraintValues :=
  if acc.isEmpty then acc.append e
  else ⟨acc.ranges.filter (fun r => e.ranges.contains r),
        acc.values.filter (fun v => e.values.contains v)⟩

mutual

/-- `Asn1Type::get_integer_valueset_from_constraint` (types/int.rs:25-43): of a built-in INTEGER the
first constraint, which must be there. -/
def AsnType.valueset (env : Text → Option Int) : AsnType → Out Err ValueSet
  | .mk (.integer _) (some (c :: _)) => c.valueset env
  | .mk (.integer _) _ => .panic
  | _ => .err .constraint

/-- `Asn1Constraint::get_integer_valueset` (types/constraints.rs:83-94). -/
def Constraint.valueset (env : Text → Option Int) : Constraint → Out Err ValueSet
  | .subtype e => e.valueset env
  | _ => .err .constraint

/-- `ElementSet::get_integer_valueset` (types/constraints.rs:179-202). -/
def ElementSet.valueset (env : Text → Option Int) : ElementSet → Out Err ValueSet
  | .mk root none =>
      (unionValues env root).bind fun r => .ok ⟨r, none⟩
  | .mk root (some add) =>
      (unionValues env root).bind fun r =>
        (unionValues env add).bind fun a => .ok ⟨r, some a⟩

/-- The loops of types/constraints.rs:181-184 and 189-192. -/
def unionValues (env : Text → Option Int) : List (List Elements) → Out Err ConstraintValues
  | [] => .ok {}
  | i :: is =>
      (interValues env {} i).bind fun a => (unionValues env is).bind fun b => .ok (a.append b)

/-- The loop of `IntersectionSet::get_integer_valueset` (types/constraints.rs:239-260). -/
def interValues (env : Text → Option Int) (acc : ConstraintValues) :
    List Elements → Out Err ConstraintValues
  | [] => .ok acc
  | e :: es => (e.values env).bind fun s => interValues env (intersectStep acc s) es

/-- `Elements::get_integer_valueset` and `SubtypeElements::get_integer_valueset`
(types/constraints.rs:282-289, 300-346). -/
def Elements.values (env : Text → Option Int) : Elements → Out Err ConstraintValues
  | .single t => (parseOrResolve env t).bind fun v => .ok { values := [v] }
  | .contained ty => (ty.valueset env).bind fun s => .ok s.root
  | .range lo loIncl hi hiIncl =>
      (parseOrResolve env lo).bind fun l =>
        (if loIncl then .ok l else checked128 (l + 1)).bind fun l =>
          (parseOrResolve env hi).bind fun h =>
            (if hiIncl then .ok h else checked128 (h - 1)).bind fun h =>
              (checked128 (h + 1)).bind fun e => .ok { ranges := [(l, e)] }
  | .size e =>
      (e.valueset env).bind fun s =>
        .ok (match s.additional with
          | some a => s.root.append a
          | none => s.root)
  | .alphabet _ => .err .constraint
  | .set _ => .err .constraint

end

/-- `Asn1Constraint::is_size_constraint` (types/constraints.rs:111-125). `elements[0]` of an empty
intersection panics in the code; the parser makes none, and the model says no. -/
def Constraint.isSize : Constraint → Bool
  | .subtype (.mk [(.size _ :: _)] _) => true
  | _ => false

/-- `Asn1Constraint::get_size_valueset` (types/constraints.rs:127-157). -/
def Constraint.sizeValueset (env : Text → Option Int) : Constraint → Out Err ValueSet
  | .subtype (.mk [(.size e :: _)] _) => e.valueset env
  | _ => .err .constraint

end Hampi.Compiler
