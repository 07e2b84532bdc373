import Verif.Compiler.Constraints
/-!
# Resolved types (asn-compiler/src/resolver/asn/structs, resolver/asn/types/base)

The names given to resolved constructed types (`name: None` everywhere, types/constructed.rs:83, 120,
140, 190) are left out, as are `named_values` of integers (never set), `excepts` (never set) and the
numbers collected in `root_values` and `ext_values` of enumerations (used by nothing).
-/
namespace Hampi.Compiler

/-- `ResolvedBaseType` with its payloads (structs/types/base.rs:6-101). -/
inductive RBase where
  | integer (bits : Nat) (signed : Bool) (constraints : Option ValueSet)
  | enumerated (bits : Nat) (signed : Bool) (extensible : Bool) (root ext : List (Text × Int))
  | bitString (size : Option ValueSet) (named : List (Text × Nat))
  | boolean
  | octetString (size : Option ValueSet)
  | characterString (strType : Text) (size : Option ValueSet)
  | objectIdentifier
  | null
deriving Repr, DecidableEq

mutual

/-- `Asn1ResolvedType` with `ResolvedConstructedType` and `ResolvedSetType`
(structs/types/mod.rs:13-34, structs/types/constructed.rs:5-22). The types of a set are always
references (types/constructed.rs:269), kept as `(name, key, type)` in the order of the `BTreeMap`. -/
inductive RType where
  | base (b : RBase)
  | choice (root : List RComponent) (additions : Option (List RComponent))
  | sequence (extensible : Bool) (components : List RSeqComponent)
  | sequenceOf (ty : RType) (size : Option ValueSet)
  | reference (name : Text)
  | set (setref : Text) (types : List (Text × Text × Text))

/-- `ResolvedComponent` (structs/types/constructed.rs:30-34). -/
inductive RComponent where
  | mk (id : Text) (ty : RType)

/-- `ResolvedSeqComponent` (structs/types/constructed.rs:36-44), without `class_field_type` (used by
nothing). -/
inductive RSeqComponent where
  | mk (id : Text) (ty : RType) (optional keyField : Bool)

end

/-- Number of bits of a natural number: `128 - v.leading_zeros()` for `0 ≤ v`. -/
def bitLen (n : Nat) : Nat := if n = 0 then 0 else n.log2 + 1

/-- `128 - v.leading_zeros()` for an `i128`: a negative number has no leading zeros. -/
def bitLen128 (v : Int) : Nat := if v < 0 then 128 else bitLen v.toNat

/-- The rounding of types/base/integer.rs:50-60. -/
def roundBits (n : Nat) : Nat :=
  if n ≤ 8 then 8 else if n ≤ 16 then 16 else if n ≤ 32 then 32 else if n ≤ 64 then 64 else 128

/-- `i128::abs`: overflow panics. -/
def abs128 (v : Int) : Out Err Int := checked128 v.natAbs

/-- `Asn1ResolvedInteger::resolve_integer` (types/base/integer.rs:11-67), once the value set is
known. -/
def integerOfValueset (vs : ValueSet) : Out Err RBase :=
  let signed := match vs.root.min with
    | some x => decide (x < 0)
    | none => true
  let width : Out Err Nat :=
    if signed then
      match vs.root.min, vs.root.max with
      | some mn, some mx =>
          (abs128 mx).bind fun a => (abs128 mn).bind fun b => .ok (Max.max (bitLen128 b) (bitLen128 a))
      | _, _ => .panic
    else
      match vs.root.max with
      | some mx => .ok (bitLen128 mx)
      | none => .panic
  width.bind fun w => .ok (.integer (roundBits w) signed (some vs))

/-- `Asn1ResolvedInteger::resolve_integer` (types/base/integer.rs:11-67). -/
def resolveInteger (env : Text → Option Int) (ty : AsnType) : Out Err RBase :=
  match ty with
  | .mk _ none => .ok (.integer 64 true none)
  | .mk _ (some []) => .ok (.integer 64 true none)
  | .mk _ (some (_ :: _)) => (ty.valueset env).bind integerOfValueset

/-- `s.parse::<i128>().unwrap()` for every value with an explicit number
(types/base/enumerated.rs:29-35, 46-52): whether there is one. -/
def explicitNumbers : List EnumValue → Out Err Bool
  | [] => .ok false
  | ⟨_, some (.number s)⟩ :: vs =>
      match parseI128 s with
      | some _ => (explicitNumbers vs).bind fun _ => .ok true
      | none => .panic
  | _ :: vs => explicitNumbers vs

/-- The names numbered from 0 (types/base/enumerated.rs:38-42, 55-59). -/
def numbered (vs : List EnumValue) : List (Text × Int) :=
  vs.zipIdx.map fun p => (p.1.name, (p.2 : Int))

/-- `Asn1ResolvedEnumerated::resolve_enumerated` (types/base/enumerated.rs:16-70). -/
def resolveEnumerated (root : List EnumValue) (marker : Option Nat) (ext : List EnumValue) :
    Out Err RBase :=
  (explicitNumbers root).bind fun r =>
    (explicitNumbers ext).bind fun e =>
      .ok (.enumerated 8 false marker.isSome (if r then [] else numbered root)
        (if e then [] else numbered ext))

/-- `v.parse::<u8>().unwrap()` for every named bit (types/base/bitstring.rs:36-45). -/
def resolveNamedBits : List (Text × NamedValue) → Out Err (List (Text × Nat))
  | [] => .ok []
  | (n, .number s) :: rest =>
      match parseUnsigned 256 s with
      | some v => (resolveNamedBits rest).bind fun r => .ok ((n, v) :: r)
      | none => .panic
  | _ :: rest => resolveNamedBits rest

/-- The size of a bit or octet string (types/base/bitstring.rs:22-34, octetstring.rs:16-28): the first
constraint, dropped when it is not a size constraint. -/
def lenientSize (env : Text → Option Int) : Option (List Constraint) → Out Err (Option ValueSet)
  | some (c :: _) => if c.isSize then (c.sizeValueset env).bind fun v => .ok (some v) else .ok none
  | _ => .ok none

/-- The size of a character string (types/base/charstring.rs:19-34): the first constraint, which must
be a size constraint. -/
def strictSize (env : Text → Option Int) : Option (List Constraint) → Out Err (Option ValueSet)
  | some (c :: _) =>
      if c.isSize then (c.sizeValueset env).bind fun v => .ok (some v) else .err .constraint
  | _ => .ok none

/-- `resolve_base_type` (types/base/mod.rs:26-62). -/
def resolveBase (env : Text → Option Int) (ty : AsnType) : Out Err RBase :=
  match ty with
  | .mk (.integer _) _ => resolveInteger env ty
  | .mk (.enumerated r m e) _ => resolveEnumerated r m e
  | .mk (.bitString named) cs =>
      (lenientSize env cs).bind fun size =>
        (resolveNamedBits (named.getD [])).bind fun ns => .ok (.bitString size ns)
  | .mk .boolean _ => .ok .boolean
  | .mk .octetString cs => (lenientSize env cs).bind fun size => .ok (.octetString size)
  | .mk (.characterString st) cs =>
      (strictSize env cs).bind fun size => .ok (.characterString st size)
  | .mk .objectIdentifier _ => .ok .objectIdentifier
  | .mk .null _ => .ok .null
  | _ => .err .resolve

end Hampi.Compiler
