import Verif.Spec.Endless
/-!
# Why the compiler panics on a schema

`Trips ms` lists the reasons, in terms of what is written in the modules `ms`. A few depend on what has been resolved
before (`Met`).
-/
namespace Hampi.Compiler.Spec

/-- The type is that of an alternative of the CHOICE, a component of the SEQUENCE, an element of the SEQUENCE OF. -/
inductive PartOf (p : AsnType) : AsnType → Prop
  | alternative {root adds id cs} : Component.mk id p ∈ root → PartOf p (.mk (.choice root adds) cs)
  | addition {root gs v alts id cs} : ChoiceGroup.mk v alts ∈ gs → Component.mk id p ∈ alts →
      PartOf p (.mk (.choice root (some gs)) cs)
  | component {root adds ext id opt d cs} : SeqComponent.mk id p opt d ∈ root → PartOf p (.mk (.sequence root adds ext) cs)
  | element {size cs} : PartOf p (.mk (.sequenceOf size p) cs)

/-- The type stands in the schema: it is written there, or is a part of such a type, or what an instance of a parameterized
type stands for. -/
inductive Appears (ms : List Module) : AsnType → Prop
  | written {ty} : TypeIn ms ty → Appears ms ty
  | part {p ty} : Appears ms ty → PartOf p ty → Appears ms p
  | expansion {t ps cs M d e ty} : Appears ms (.mk (.parameterized t ps) cs) → M ∈ ms → (t, d) ∈ M.definitions →
      d.params = some e → e ps = .ok ty → Appears ms ty

/-- The object is written in the schema, by itself or in a set. -/
inductive ObjectIn (ms : List Module) (o : ObjectValue) : Prop
  | object {M k cls s fs} : M ∈ ms → (k, ⟨.object cls (.input s), none⟩) ∈ M.definitions → IsClass ms fs →
      M.readObject s fs = .ok o → ObjectIn ms o
  | fields {M k cls} : M ∈ ms → (k, ⟨.object cls o, none⟩) ∈ M.definitions → ObjectIn ms o
  | set {M k cls root add fs r} : M ∈ ms → (k, ⟨.objectSet cls root add, none⟩) ∈ M.definitions → IsClass ms fs →
      M.readSet (root, add) fs = .ok r → SetElement.object o ∈ r.1 ++ r.2 → ObjectIn ms o

/-- The value is written in the schema: as that of a value definition, or of a field of an object. -/
inductive ValueIn (ms : List Module) (v : Text) : Prop
  | value {M k ty} : M ∈ ms → (k, ⟨.value ty v, none⟩) ∈ M.definitions → ValueIn ms v
  | field {fs x ty} : ObjectIn ms (.fields fs) → (x, ObjectField.fixedTypeValue ty (some v)) ∈ fs → ValueIn ms v

/-- A number at the very ends of what 128 bits can hold, with sign. -/
def Huge (v : Int) : Prop := v ≤ -(2 ^ 127) + 1 ∨ 2 ^ 127 - 1 ≤ v

mutual

/-- The numbers and names of values in a constraint of an INTEGER type. -/
def boundsOfType : AsnType → List Text
  | .mk (.integer _) (some (c :: _)) => boundsOfConstraint c
  | _ => []

/-- The numbers and names of values in a constraint. -/
def boundsOfConstraint : Constraint → List Text
  | .subtype e => boundsOfSet e
  | _ => []

/-- Those of the root and of the additions. -/
def boundsOfSet : ElementSet → List Text
  | .mk root none => boundsOfUnion root
  | .mk root (some add) => boundsOfUnion root ++ boundsOfUnion add

/-- Those of all operands of the union. -/
def boundsOfUnion : List (List Elements) → List Text
  | [] => []
  | i :: is => boundsOfIntersection i ++ boundsOfUnion is

/-- Those of all operands of the intersection. -/
def boundsOfIntersection : List Elements → List Text
  | [] => []
  | e :: es => boundsOfElements e ++ boundsOfIntersection es

/-- Single values, ends of ranges, and those of a size or contained type. -/
def boundsOfElements : Elements → List Text
  | .single t => [t]
  | .contained ty => boundsOfType ty
  | .range lo _ hi _ => [lo, hi]
  | .size e => boundsOfSet e
  | _ => []

end

mutual

/-- The types included in a constraint of an INTEGER type. -/
def includedInType : AsnType → List AsnType
  | .mk (.integer _) (some (c :: _)) => includedInConstraint c
  | _ => []

/-- The types included in a constraint. -/
def includedInConstraint : Constraint → List AsnType
  | .subtype e => includedInSet e
  | _ => []

/-- Those of the root and of the additions. -/
def includedInSet : ElementSet → List AsnType
  | .mk root none => includedInUnion root
  | .mk root (some add) => includedInUnion root ++ includedInUnion add

/-- Those of all operands of the union. -/
def includedInUnion : List (List Elements) → List AsnType
  | [] => []
  | i :: is => includedInIntersection i ++ includedInUnion is

/-- Those of all operands of the intersection. -/
def includedInIntersection : List Elements → List AsnType
  | [] => []
  | e :: es => includedInElements e ++ includedInIntersection es

/-- An included type with those included in its constraint, and those in a size. -/
def includedInElements : Elements → List AsnType
  | .contained ty => ty :: includedInType ty
  | .size e => includedInSet e
  | _ => []

end

mutual

/-- There is an intersection of several operands in the constraint of the INTEGER type, or a union or intersection of none. -/
def crossedType : AsnType → Bool
  | .mk (.integer _) (some (c :: _)) => crossedConstraint c
  | _ => false

/-- There is an intersection of several operands in the constraint, or a union or intersection of none. -/
def crossedConstraint : Constraint → Bool
  | .subtype e => crossedSet e
  | _ => false

/-- The same for the root of an element set. -/
def crossedSet : ElementSet → Bool
  | .mk root _ => root.isEmpty || crossedUnion root

/-- The same for the operands of a union. -/
def crossedUnion : List (List Elements) → Bool
  | [] => false
  | [e] :: is => crossedElements e || crossedUnion is
  | _ :: _ => true

/-- The same inside of a size or a contained type. -/
def crossedElements : Elements → Bool
  | .contained ty => crossedType ty
  | .size e => crossedSet e
  | _ => false

end

/-- The type has no constraint. -/
def Unconstrained : AsnType → Prop
  | .mk _ (some (_ :: _)) => False
  | _ => True

/-- The components of a SEQUENCE with those of its additions, in order. -/
def componentTypes (root : List SeqComponent) (adds : List SeqGroup) : List AsnType :=
  (root ++ adds.flatMap fun | .mk _ cs => cs).map fun | .mk _ ty _ _ => ty

/-- States of the resolver while it goes through the modules, one definition after another. -/
inductive Met (n : Nat) (ms : List Module) : Resolver → Prop
  | start : Met n ms {}
  | classes {R M} : Met n ms R → M ∈ ms → Met n ms (addClasses R M.definitions)
  | definition {R R0 R' M defs k} : Met n ms R → M ∈ ms → mapOut (readDefinition R0 M) M.definitions = .ok defs →
      resolveOne n defs R k = .ok R' → Met n ms R'

/-- The resolver has the object, or makes it of one that is written in the schema. -/
def HasObject (ms : List Module) (R : Resolver) (o : RObject) : Prop :=
  (∃ r, get R.resolved r = some (.object o)) ∨ ∃ n v, ObjectIn ms v ∧ resolveObject n R v = .ok o

/-- The object lacks the field `u`, or its value, or that value is the name of something that is not an integer. -/
def Keyless (R : Resolver) (o : RObject) (u : Text) : Prop :=
  get o.fields u = none ∨ (∃ t, get o.fields u = some (.fixedTypeValue t none)) ∨
    ∃ t x, get o.fields u = some (.fixedTypeValue t (some (.reference x))) ∧
      ∀ v i, get R.resolved x = some (.value v) → v.baseInteger ≠ some i

/-- The reasons. -/
inductive Trips (n : Nat) (ms : List Module) : Prop
  /-- Reading what an instance of a parameterized type stands for panics. -/
  | expansion {t ps cs M d e} : Appears ms (.mk (.parameterized t ps) cs) → M ∈ ms → (t, d) ∈ M.definitions →
      d.params = some e → e ps = .panic → Trips n ms
  /-- Reading an object panics. -/
  | object {M k cls s p fs} : M ∈ ms → (k, ⟨.object cls (.input s), p⟩) ∈ M.definitions → IsClass ms fs →
      M.readObject s fs = .panic → Trips n ms
  /-- Reading an object set panics. -/
  | set {M k cls root add p fs} : M ∈ ms → (k, ⟨.objectSet cls root add, p⟩) ∈ M.definitions → IsClass ms fs →
      M.readSet (root, add) fs = .panic → Trips n ms
  /-- A huge number in a constraint. -/
  | bound {kind cs c t v} : Appears ms (.mk kind cs) → (cs.getD []).head? = some c ∨ (∃ ty, kind = .sequenceOf (some c) ty) →
      t ∈ boundsOfConstraint c → parseI128 t = some v → Huge v → Trips n ms
  /-- A constraint that includes INTEGER itself, without a constraint. -/
  | included {kind cs c nm cs'} : Appears ms (.mk kind cs) →
      (cs.getD []).head? = some c ∨ (∃ ty, kind = .sequenceOf (some c) ty) →
      .mk (.integer nm) cs' ∈ includedInConstraint c → Unconstrained (.mk (.integer nm) cs') → Trips n ms
  /-- A huge number as a value. -/
  | value {t v} : ValueIn ms t → parseI128 t = some v → Huge v → Trips n ms
  /-- An intersection in the constraint of an INTEGER. -/
  | crossed {named cs} : Appears ms (.mk (.integer named) cs) → crossedType (.mk (.integer named) cs) = true → Trips n ms
  /-- An ENUMERATED with a number in the root. -/
  | numbered {root m ext cs x s} : Appears ms (.mk (.enumerated root m ext) cs) → ⟨x, some (.number s)⟩ ∈ root → Trips n ms
  /-- An ENUMERATED without values in the root. -/
  | noValues {m ext cs} : Appears ms (.mk (.enumerated [] m ext) cs) → Trips n ms
  /-- An ENUMERATED with an addition whose number does not fit in 128 bits. -/
  | addition {root m ext cs x s} : Appears ms (.mk (.enumerated root m ext) cs) → ⟨x, some (.number s)⟩ ∈ ext →
      parseI128 s = none → Trips n ms
  /-- A named bit whose number does not fit in 8 bits, without sign. -/
  | bit {named cs x s} : Appears ms (.mk (.bitString (some named)) cs) → (x, .number s) ∈ named →
      parseUnsigned 256 s = none → Trips n ms
  /-- A CHOICE without alternatives in the root. -/
  | noAlternatives {adds cs} : Appears ms (.mk (.choice [] adds) cs) → Trips n ms
  /-- A SEQUENCE with a component that is refused (a class field, or a mistake) whose first component, or a component that
  is a class field, has no constraint. -/
  | refused {root adds ext cs id p opt d R m e} : Appears ms (.mk (.sequence root adds ext) cs) →
      SeqComponent.mk id p opt d ∈ root → Met n ms R → resolveType m R p = .err e →
      (∃ ty, (componentTypes root adds).head? = some ty ∧ Unconstrained ty) ∨
        (∃ c f cs, .mk (.classField c f) cs ∈ componentTypes root adds ∧ Unconstrained (.mk (.classField c f) cs)) →
      Trips n ms
  /-- A value that is neither an integer of 128 bits nor the name of something resolved before. -/
  | unknown {v R} : ValueIn ms v → Met n ms R → get R.resolved v = none → parseI128 v = none → Trips n ms
  /-- An object in a set of a class with a UNIQUE field, without an integer for that field. -/
  | keyless {M k d cls root add fs u id ty opt df w R o} : M ∈ ms → (k, d) ∈ M.definitions →
      d.kind = .objectSet cls root add → IsClass ms fs → (u, .fixedTypeValue id ty true opt df w) ∈ fs → Met n ms R →
      HasObject ms R o → Keyless R o u → Trips n ms

end Hampi.Compiler.Spec
