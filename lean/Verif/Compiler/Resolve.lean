import Verif.Compiler.Defs
import Verif.Compiler.Resolved
import Verif.Compiler.Sort
/-!
# The resolver (asn-compiler/src/resolver)

Recursion that may not end is bounded by a number of nested calls; exceeding it is `.diverge` (the
code overflows its stack). Left out: what is printed, `class_field_type`, `decoder_ty`, the names of
objects (used by nothing).

Parsing inside the resolver is a parameter: a parameterized definition is the function that
substitutes and parses (`apply_params`, parser/asn/defs.rs:63-87), and `Module.readObject`,
`Module.readSet` read objects once their class is known (`resolve_object_class`,
parser/asn/defs.rs:46-62).
-/
namespace Hampi.Compiler

/-- `Asn1ResolvedValue` (structs/values.rs:42-50), without the types of the values. -/
inductive RValue where
  | reference (name : Text)
  | referencedType (typeref : Text) (value : RValue)
  | integer (v : Int)
  | enum (v : Int)
deriving Repr

/-- `get_base_integer_value` (structs/values.rs:53-59). -/
def RValue.baseInteger : RValue → Option Int
  | .integer v => some v
  | .referencedType _ v => v.baseInteger
  | _ => none

/-- `ResolvedFieldSpec` (structs/types/ioc.rs:6-15). -/
inductive RField where
  | type (ty : Option RType)
  | fixedTypeValue (ty : RType) (value : Option RValue)

/-- `Asn1ResolvedObject` (structs/types/ioc.rs:17-21). -/
structure RObject where
  fields : List (Text × RField)

/-- `ResolvedObjectSet` (structs/types/ioc.rs:28-33); `ResolvedObjectSetElement` is always an object.
The table is keyed by the number, as text, and the name of the value that stands for it. -/
structure RObjectSet where
  elements : List RObject
  table : List ((Text × Text) × RObject)

/-- `Asn1ResolvedDefinition` (structs/defs.rs:5-11). -/
inductive RDef where
  | type (ty : RType)
  | value (v : RValue)
  | objectSet (s : RObjectSet)
  | object (o : RObject)

/-- What a parameterized definition is used for: `apply_params` (parser/asn/defs.rs:63-87). -/
abbrev Expand := List ActualParam → Out Err AsnType

/-- `Resolver` (int.rs:13-23). -/
structure Resolver where
  resolved : List (Text × RDef) := []
  params : List (Text × Expand) := []
  classes : List (Text × List (Text × ClassField)) := []

/-- `BTreeMap::insert` and `HashMap::insert`: by key, in the order of the keys (`String` compares by
code points). -/
def put {α : Type} : List (Text × α) → Text → α → List (Text × α)
  | [], k, v => [(k, v)]
  | (k', v') :: m, k, v =>
      if k = k' then (k, v) :: m
      else if k < k' then (k, v) :: (k', v') :: m
      else (k', v') :: put m k v

/-- `resolved_defs.get(name)` when it is an integer value (types/constraints.rs:354-372). -/
def Resolver.env (R : Resolver) (t : Text) : Option Int :=
  match get R.resolved t with
  | some (.value (.integer v)) => some v
  | _ => none

/-- A `for` loop collecting results, left at the first error. -/
def mapOut {ε α β : Type} (f : α → Out ε β) : List α → Out ε (List β)
  | [] => .ok []
  | x :: xs => (f x).bind fun y => (mapOut f xs).bind fun ys => .ok (y :: ys)

/-- `types.insert((key.1, key.0), (key.0, ty))` (types/constructed.rs:270-273): ordered by name, then
number. -/
def putType : List (Text × Text × Text) → Text × Text × Text → List (Text × Text × Text)
  | [], e => [e]
  | f :: m, e =>
      if (e.1, e.2.1) = (f.1, f.2.1) then e :: m
      else if e.1 < f.1 ∨ (e.1 = f.1 ∧ e.2.1 < f.2.1) then e :: f :: m
      else f :: putType m e

/-- `get_seq_component_for_object_set` (types/constructed.rs:260-279). -/
def setTypes (field : Text) (s : RObjectSet) : List (Text × Text × Text) :=
  s.table.foldl (fun m (e : (Text × Text) × RObject) =>
    match get e.2.fields field with
    | some (.type (some (.reference t))) => putType m (e.1.2, e.1.1, t)
    | _ => m) []

/-- `ty.constraints.as_ref().unwrap()[0]` (types/constructed.rs:173, 220). -/
def AsnType.firstConstraint : AsnType → Out Err Constraint
  | .mk _ (some (c :: _)) => .ok c
  | _ => .panic

/-- One turn of the loop of `resolve_seq_components_for_objects` (types/constructed.rs:213-253); `none`
for a component that is not a class field, which is dropped. -/
def objectComponent (setref : Text) (s : RObjectSet) (first : RObject) (id : Text) (ty : AsnType) :
    Out Err (Option RSeqComponent) :=
  match ty with
  | .mk (.classField _ field) _ =>
      match get first.fields field with
      | some (.fixedTypeValue t _) =>
          ty.firstConstraint.bind fun c => .ok (some (.mk id t false c.compReference.isNone))
      | _ => .ok (some (.mk id (.set setref (setTypes field s)) false false))
  | _ => .ok none

/-- `resolve_seq_components_for_objects` (types/constructed.rs:203-258). -/
def objectComponents (setref : Text) (s : RObjectSet) (cs : List (Text × AsnType)) :
    Out Err (List RSeqComponent) :=
  match s.elements with
  | [] => .ok []
  | first :: _ =>
      (mapOut (fun c => objectComponent setref s first c.1 c.2) cs).bind fun l => .ok (l.filterMap id)

/-- The components of a SEQUENCE, with those of its additions (types/constructed.rs:150-163). -/
def allComponents (root : List SeqComponent) (adds : List SeqGroup) : List (Text × AsnType) :=
  (root ++ adds.flatMap fun | .mk _ cs => cs).map fun | .mk id ty _ _ => (id, ty)

/-- `resolve_sequence_classfield_components` (types/constructed.rs:146-201). -/
def resolveClassFields (R : Resolver) (root : List SeqComponent) (adds : List SeqGroup) (ext : Bool) :
    Out Err RType :=
  match allComponents root adds with
  | [] => .err .resolve
  | c :: cs =>
      c.2.firstConstraint.bind fun k => k.setReference.bind fun setref =>
        match get R.resolved setref with
        | some (.objectSet s) => (objectComponents setref s (c :: cs)).bind fun l => .ok (.sequence ext l)
        | _ => .err .resolve

/-- One turn of the loops of `resolve_choice_type` (types/constructed.rs:57-63, 68-77). -/
def resolveAlternative (f : AsnType → Out Err RType) : Component → Out Err RComponent
  | .mk id ty => (f ty).bind fun t => .ok (.mk id t)

/-- One turn of the loop of `resolve_sequence_type` (types/constructed.rs:94-108). -/
def resolveComponent (f : AsnType → Out Err RType) : SeqComponent → Out Err RSeqComponent
  | .mk id ty opt _ => (f ty).bind fun t => .ok (.mk id t opt false)

/-- The components in the addition groups of a CHOICE (types/constructed.rs:68-77). -/
def groupComponents (gs : List ChoiceGroup) : List Component := gs.flatMap fun | .mk _ cs => cs

/-- `resolve_type` with `resolve_reference_type`, `resolve_constructed_type`, `resolve_choice_type`,
`resolve_sequence_type`, `resolve_sequence_of_type` (types/int.rs:46-102, types/constructed.rs:28-144).
The first argument bounds the nesting of calls. -/
def resolveType : Nat → Resolver → AsnType → Out Err RType
  | 0, _, _ => .diverge
  | n + 1, R, .mk kind cs =>
    match kind with
    | .reference r =>
        match get R.resolved r with
        | some (.type _) => .ok (.reference r)
        | _ => .err .resolve
    | .parameterized t ps =>
        match get R.params t with
        | some expand => (expand ps).bind (resolveType n R)
        | none => .err .resolve
    | .classField .. => .err .resolve
    | .choice root adds =>
        (mapOut (resolveAlternative (resolveType n R)) root).bind fun r =>
          match adds with
          | none => .ok (.choice r none)
          | some gs =>
              (mapOut (resolveAlternative (resolveType n R)) (groupComponents gs)).bind fun a =>
                .ok (.choice r (some a))
    | .sequence root adds ext =>
        match mapOut (resolveComponent (resolveType n R)) root with
        | .ok cs => .ok (.sequence ext cs)
        | .err _ => resolveClassFields R root adds ext
        | .panic => .panic
        | .diverge => .diverge
    | .sequenceOf size ty =>
        (resolveType n R ty).bind fun t =>
          match size with
          | none => .ok (.sequenceOf t none)
          | some c => (c.sizeValueset R.env).bind fun v => .ok (.sequenceOf t (some v))
    | .set => .err .resolve
    | .setOf => .err .resolve
    | _ => (resolveBase R.env (.mk kind cs)).bind fun b => .ok (.base b)

/-- `resolve_value` (values.rs:17-84); `parse().unwrap()` panics on what is not a number. -/
def resolveValue : Nat → Resolver → Text → RType → Out Err RValue
  | 0, _, _, _ => .diverge
  | n + 1, R, v, ty =>
    match get R.resolved v with
    | some (.value _) => .ok (.reference v)
    | some _ => .err .resolve
    | none =>
      match ty with
      | .base (.integer ..) =>
          match parseI128 v with
          | some i => .ok (.integer i)
          | none => .panic
      | .base (.enumerated ..) => .ok (.enum 0)
      | .reference r =>
          match get R.resolved r with
          | some (.type t) => (resolveValue n R v t).bind fun x => .ok (.referencedType r x)
          | _ => .err .resolve
      | _ => .err .resolve

/-- The value of an optional field (types/ioc.rs:202-210). -/
def resolveFieldValue (n : Nat) (R : Resolver) (ty : RType) : Option Text → Out Err (Option RValue)
  | some v => (resolveValue n R v ty).bind fun x => .ok (some x)
  | none => .ok none

/-- One turn of the loop of `resolve_object` (types/ioc.rs:189-218). -/
def resolveField (n : Nat) (R : Resolver) : ObjectField → Out Err RField
  | .type none => .ok (.type none)
  | .type (some ty) => (resolveType n R ty).bind fun t => .ok (.type (some t))
  | .fixedTypeValue ty v =>
      (resolveType n R ty).bind fun t =>
        (resolveFieldValue n R t v).bind fun x => .ok (.fixedTypeValue t x)

/-- `resolve_object` (types/ioc.rs:182-229). -/
def resolveObject (n : Nat) (R : Resolver) : ObjectValue → Out Err RObject
  | .fields fs =>
      (mapOut (fun p => (resolveField n R p.2).bind fun f => .ok (p.1, f)) fs).bind fun l => .ok ⟨l⟩
  | .input _ => .err .resolve

/-- `get_first_unique_field_id` (parser/asn/structs/types/ioc.rs:67-76), of a `HashMap`. -/
def firstUnique (fields : List (Text × ClassField)) : Option Text :=
  (fields.find? fun p => match p.2 with
    | .fixedTypeValue _ _ unique _ _ _ => unique
    | .type .. => false).map (·.1)

/-- `format!("{}", v)` for an `i128`. -/
def showInt (v : Int) : Text := (toString v).toList

/-- `lookup_table.insert` (types/ioc.rs:120-121, 161). -/
def tablePut (t : List ((Text × Text) × RObject)) (k : Text × Text) (o : RObject) :
    List ((Text × Text) × RObject) := (k, o) :: t.filter fun e => e.1 != k

/-- Adding one object to the set (types/ioc.rs:92-126, 137-166). Without a unique field nothing is
added to the table; without the field, its value, or with a reference to what is not an integer value
the code panics. -/
def addObject (R : Resolver) (unique : Option Text) (s : RObjectSet) (o : RObject) : Out Err RObjectSet :=
  let s' : RObjectSet := { s with elements := s.elements ++ [o] }
  match unique with
  | none => .ok s'
  | some u =>
      match get o.fields u with
      | none => .panic
      | some (.type _) => .ok s'
      | some (.fixedTypeValue _ none) => .panic
      | some (.fixedTypeValue _ (some (.reference name))) =>
          match get R.resolved name with
          | some (.value v) =>
              match v.baseInteger with
              | some i => .ok { s' with table := tablePut s'.table (showInt i, name) o }
              | none => .panic
          | some _ => .ok s'
          | none => .panic
      | some (.fixedTypeValue _ (some _)) => .ok s'

/-- One turn of the loop of `resolve_object_set` (types/ioc.rs:54-169). -/
def addElement (n : Nat) (R : Resolver) (unique : Option Text) (s : RObjectSet) :
    SetElement → Out Err RObjectSet
  | .setRef r =>
      match get R.resolved r with
      | some (.objectSet o) =>
          .ok ⟨s.elements ++ o.elements, o.table.foldr (fun e t => tablePut t e.1 e.2) s.table⟩
      | _ => .err .resolve
  | .objectRef r =>
      match get R.resolved r with
      | some (.object o) => addObject R unique s o
      | _ => .err .resolve
  | .object v => (resolveObject n R v).bind fun o => addObject R unique s o

/-- The loop of `resolve_object_set`. -/
def addElements (n : Nat) (R : Resolver) (unique : Option Text) (s : RObjectSet) :
    List SetElement → Out Err RObjectSet
  | [] => .ok s
  | e :: es => (addElement n R unique s e).bind fun s' => addElements n R unique s' es

/-- `resolve_object_set` (types/ioc.rs:26-180). -/
def resolveObjectSet (n : Nat) (R : Resolver) (cls : Text) (root add : List SetElement) :
    Out Err RObjectSet :=
  match get R.classes cls with
  | none => .err .resolve
  | some fields => addElements n R (firstUnique fields) ⟨[], []⟩ (root ++ add)

/-- `resolve_definition` (defs.rs:18-67). -/
def resolveDefinition (n : Nat) (R : Resolver) : Assignment → Out Err RDef
  | .value ty v =>
      (resolveType n R ty).bind fun t => (resolveValue n R v t).bind fun x => .ok (.value x)
  | .type ty => (resolveType n R ty).bind fun t => .ok (.type t)
  | .objectSet cls root add => (resolveObjectSet n R cls root add).bind fun s => .ok (.objectSet s)
  | .object _ v => (resolveObject n R v).bind fun o => .ok (.object o)
  | .class _ => .err .resolve

/-- `Asn1Definition` (parser/asn/structs/defs.rs:115-120). -/
structure Definition where
  kind : Assignment
  params : Option Expand

/-- `Asn1Module` (parser/asn/structs/module.rs:54-62) without the fields used by nothing, with the
functions that read an object or the objects of a set given the fields of the class. -/
structure Module where
  name : Text
  imports : List (Text × Text)
  definitions : List (Text × Definition)
  readObject : Text → List (Text × ClassField) → Out Err ObjectValue
  readSet : List SetElement × List SetElement → List (Text × ClassField) →
    Out Err (List SetElement × List SetElement)

/-- `resolve_classes_in_current_module` (int.rs:111-117). -/
def addClasses (R : Resolver) (defs : List (Text × Definition)) : Resolver :=
  { R with classes := defs.foldl (fun m d => match d.2.kind with
      | .class fs => put m d.1 fs
      | _ => m) R.classes }

/-- One turn of the loop of `resolve_object_classes` (parser/asn/module.rs:24-40). -/
def readDefinition (R : Resolver) (M : Module) (d : Text × Definition) :
    Out Err (Text × Definition) :=
  match d.2.kind with
  | .object cls (.input s) =>
      match get R.classes cls with
      | none => .err .parse
      | some fs => (M.readObject s fs).bind fun v => .ok (d.1, { d.2 with kind := .object cls v })
  | .object cls (.fields _) => if (get R.classes cls).isSome then .ok d else .err .parse
  | .objectSet cls root add =>
      match get R.classes cls with
      | none => .err .parse
      | some fs =>
          (M.readSet (root, add) fs).bind fun v => .ok (d.1, { d.2 with kind := .objectSet cls v.1 v.2 })
  | _ => .ok d

/-- What `definitions_sorted` gives to the sort (parser/asn/structs/module.rs:94-101). -/
def needsOf (imports : List (Text × Text)) (defs : List (Text × Definition)) :
    List (Text × List Text) :=
  defs.map fun d => (d.1, d.2.kind.refs.filter fun r => (get imports r).isNone)

/-- The body of the loop of `resolve_definitions` (int.rs:56-76). -/
def resolveOne (n : Nat) (defs : List (Text × Definition)) (R : Resolver) (k : Text) : Out Err Resolver :=
  match get defs k with
  | none => .ok R
  | some d =>
      match d.params with
      | some e => .ok { R with params := put R.params k e }
      | none =>
          match d.kind with
          | .class fs => .ok { R with classes := put R.classes k fs }
          | kind => (resolveDefinition n R kind).bind fun x => .ok { R with resolved := put R.resolved k x }

/-- The loop of `resolve_definitions` (int.rs:54-77). -/
def resolveInOrder (n : Nat) (defs : List (Text × Definition)) (R : Resolver) :
    List Text → Out Err Resolver
  | [] => .ok R
  | k :: ks => (resolveOne n defs R k).bind fun R' => resolveInOrder n defs R' ks

/-- `Resolver::resolve_definitions` (int.rs:48-99): `r` is a possible result. -/
def ResolvesModule (n : Nat) (R : Resolver) (M : Module) (r : Out Err Resolver) : Prop :=
  match mapOut (readDefinition (addClasses R M.definitions) M) M.definitions with
  | .ok defs => ∃ order, Sorted (needsOf M.imports defs) order ∧
      r = resolveInOrder n defs (addClasses R M.definitions) order
  | .err e => r = .err e
  | .panic => r = .panic
  | .diverge => r = .diverge

end Hampi.Compiler
