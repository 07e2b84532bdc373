import Verif.Spec.Plain
import Verif.Spec.Newer
/-!
# Newer versions of a schema, as it is written

What may be added to a schema for the next version: values after the marker of an ENUMERATED, alternatives after the
marker of a CHOICE, objects in object sets, imports and definitions. Everything else stays.
-/
namespace Hampi.Compiler.Spec

/-- The alternatives after the marker of a CHOICE. -/
def added (groups : List ChoiceGroup) : List Component := groups.flatMap fun | .mk _ alts => alts

mutual

/-- The second type is the first in a newer version of the schema. -/
inductive NewerType : AsnType → AsnType → Prop
  | same (ty) : NewerType ty ty
  | enumerated {root m add more cs} :
      NewerType (.mk (.enumerated root (some m) add) cs) (.mk (.enumerated root (some m) (add ++ more)) cs)
  | sequence {comps comps' ext cs} : NewerComponents comps comps' →
      NewerType (.mk (.sequence comps [] ext) cs) (.mk (.sequence comps' [] ext) cs)
  | sequenceOf {size ty ty' cs} : NewerType ty ty' →
      NewerType (.mk (.sequenceOf size ty) cs) (.mk (.sequenceOf size ty') cs)
  | choice {root root' cs} : NewerAlternatives root root' →
      NewerType (.mk (.choice root none) cs) (.mk (.choice root' none) cs)
  | extensibleChoice {root root' groups groups' alts more cs} : NewerAlternatives root root' →
      NewerAlternatives (added groups) alts → added groups' = alts ++ more →
      NewerType (.mk (.choice root (some groups)) cs) (.mk (.choice root' (some groups')) cs)

/-- The components of a SEQUENCE, one by one. -/
inductive NewerComponents : List SeqComponent → List SeqComponent → Prop
  | nil : NewerComponents [] []
  | cons {id ty ty' opt d cs cs'} : NewerType ty ty' → NewerComponents cs cs' →
      NewerComponents (.mk id ty opt d :: cs) (.mk id ty' opt d :: cs')

/-- The alternatives of a CHOICE, one by one. -/
inductive NewerAlternatives : List Component → List Component → Prop
  | nil : NewerAlternatives [] []
  | cons {id ty ty' cs cs'} : NewerType ty ty' → NewerAlternatives cs cs' →
      NewerAlternatives (.mk id ty :: cs) (.mk id ty' :: cs')

end

/-- The second definition is the first in a newer version: a type; a parameterized type, which gives newer instances
for the same parameters; an object set with all the elements it had; or what it was. -/
inductive NewerDefinition : Definition → Definition → Prop
  | same (d) : NewerDefinition d d
  | type {ty ty'} : NewerType ty ty' → NewerDefinition ⟨.type ty, none⟩ ⟨.type ty', none⟩
  | parameterized {body body' f f'} :
      (∀ ps ty ty', f ps = .ok ty → f' ps = .ok ty' → NewerType ty ty') →
      NewerDefinition ⟨.type body, some f⟩ ⟨.type body', some f'⟩
  | objectSet {cls root add root' add'} : (∀ e ∈ root ++ add, e ∈ root' ++ add') →
      NewerDefinition ⟨.objectSet cls root add, none⟩ ⟨.objectSet cls root' add', none⟩

/-- The second module is the first in a newer version. -/
structure NewerModule (M M' : Module) : Prop where
  name : M'.name = M.name
  imports : ∀ i ∈ M.imports, i ∈ M'.imports
  definitions : ∀ x d, (x, d) ∈ M.definitions → ∃ d', (x, d') ∈ M'.definitions ∧ NewerDefinition d d'

/-- The second schema is a newer version of the first. -/
def NewerSchema (ms ms' : List Module) : Prop := ∀ M ∈ ms, ∃ M' ∈ ms', NewerModule M M'

/-- Object sets without objects have none in the newer version. -/
def StillEmpty (ms ms' : List Module) : Prop :=
  ∀ M ∈ ms, ∀ M' ∈ ms', ∀ S cls root add root' add', (S, ⟨.objectSet cls root add, none⟩) ∈ M.definitions →
    (S, ⟨.objectSet cls root' add', none⟩) ∈ M'.definitions → Objects ms cls M (root ++ add) [] →
    Objects ms' cls M' (root' ++ add') []

end Hampi.Compiler.Spec
