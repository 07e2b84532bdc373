import Verif.Compiler.Modules
/-!
# Instances of parameterized types that lead to one another

An instance is a parameterized type with its actual parameters, `P {A, 5}`. Its expansion is the type that stands for
it; that type may contain instances again.
-/
namespace Hampi.Compiler.Spec

/-- The name of a parameterized type and the actual parameters. -/
abbrev Instance := Text × List ActualParam

/-- The instance stands in a type: it is the type, or that of an alternative of a CHOICE, a component of a SEQUENCE
(additions, which are not looked at, are left out) or
an element of a SEQUENCE OF, at any depth. -/
inductive Occurs (a : Instance) : AsnType → Prop
  | here {cs} : Occurs a (.mk (.parameterized a.1 a.2) cs)
  | alternative {root adds id ty cs} : Component.mk id ty ∈ root → Occurs a ty → Occurs a (.mk (.choice root adds) cs)
  | addition {root gs v alts id ty cs} : ChoiceGroup.mk v alts ∈ gs → Component.mk id ty ∈ alts → Occurs a ty →
      Occurs a (.mk (.choice root (some gs)) cs)
  | component {root adds ext id ty opt d cs} : SeqComponent.mk id ty opt d ∈ root → Occurs a ty →
      Occurs a (.mk (.sequence root adds ext) cs)
  | element {size ty cs} : Occurs a ty → Occurs a (.mk (.sequenceOf size ty) cs)

/-- The type is that of a field of the object. -/
inductive FieldType (ty : AsnType) : ObjectValue → Prop
  | type {x fs} : (x, ObjectField.type (some ty)) ∈ fs → FieldType ty (.fields fs)
  | value {x v fs} : (x, ObjectField.fixedTypeValue ty v) ∈ fs → FieldType ty (.fields fs)

/-- The fields are those of a class of the schema. -/
def IsClass (ms : List Module) (fs : List (Text × ClassField)) : Prop :=
  ∃ M ∈ ms, ∃ c d, (c, d) ∈ M.definitions ∧ d.kind = .class fs

/-- The types that are written in the schema, outside the parameterized definitions: types of types, of values and of
the fields of objects, by themselves or in a set. -/
inductive TypeIn (ms : List Module) (ty : AsnType) : Prop
  | type {M k} : M ∈ ms → (k, ⟨.type ty, none⟩) ∈ M.definitions → TypeIn ms ty
  | value {M k v} : M ∈ ms → (k, ⟨.value ty v, none⟩) ∈ M.definitions → TypeIn ms ty
  | object {M k cls s fs o} : M ∈ ms → (k, ⟨.object cls (.input s), none⟩) ∈ M.definitions → IsClass ms fs →
      M.readObject s fs = .ok o → FieldType ty o → TypeIn ms ty
  | fields {M k cls o} : M ∈ ms → (k, ⟨.object cls o, none⟩) ∈ M.definitions → FieldType ty o → TypeIn ms ty
  | set {M k cls root add fs r o} : M ∈ ms → (k, ⟨.objectSet cls root add, none⟩) ∈ M.definitions → IsClass ms fs →
      M.readSet (root, add) fs = .ok r → SetElement.object o ∈ r.1 ++ r.2 → FieldType ty o → TypeIn ms ty

/-- The instance `b` stands in the expansion of the instance `a`. -/
def Unfolds (ms : List Module) (a b : Instance) : Prop :=
  ∃ M ∈ ms, ∃ d e ty, (a.1, d) ∈ M.definitions ∧ d.params = some e ∧ e a.2 = .ok ty ∧ Occurs b ty

/-- Instances that are written in the schema or stand in the expansion of such an instance, and so on. -/
inductive Arises (ms : List Module) : Instance → Prop
  | written {a ty} : TypeIn ms ty → Occurs a ty → Arises ms a
  | unfolded {a b} : Arises ms a → Unfolds ms a b → Arises ms b

/-- There are instances `f 0`, `f 1`, ... without end, the first written in the schema and each of the others in the
expansion of the one before. -/
def Endless (ms : List Module) : Prop :=
  ∃ f : Nat → Instance, (∃ ty, TypeIn ms ty ∧ Occurs (f 0) ty) ∧ ∀ i, Unfolds ms (f i) (f (i + 1))

/-- Reading ends: that of the expansions of the instances of the schema, and that of its objects and object sets. -/
structure ReadingEnds (ms : List Module) : Prop where
  expansion : ∀ a, Arises ms a → ∀ M ∈ ms, ∀ d e, (a.1, d) ∈ M.definitions → d.params = some e → e a.2 ≠ .diverge
  object : ∀ M ∈ ms, ∀ k cls s p fs, (k, ⟨.object cls (.input s), p⟩) ∈ M.definitions → IsClass ms fs →
    M.readObject s fs ≠ .diverge
  set : ∀ M ∈ ms, ∀ k cls root add p fs, (k, ⟨.objectSet cls root add, p⟩) ∈ M.definitions → IsClass ms fs →
    M.readSet (root, add) fs ≠ .diverge

end Hampi.Compiler.Spec
