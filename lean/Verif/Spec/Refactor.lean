import Verif.Spec.Plain
/-!
# A schema that is written differently
-/
namespace Hampi.Compiler.Spec
open Hampi.Spec (Names)

/-- A table of values that are defined here. -/
def ValuesOf (defs : List (Text × Definition)) (ns : Names) : Prop :=
  ∀ x v, ns.int x = some v → ∃ a, (x, ⟨a, none⟩) ∈ defs ∧ DefinesInteger a v

mutual

/-- `ty'` is the type `ty` of a module with the definitions `olds`, written differently in a module with the definitions
`defs`: parts of it, or all of it, can be given by name, if the name is defined in the module as that part, itself
possibly written differently; what was given by name can be written in place; components, alternatives and the values
of enumerations can have other identifiers, and INTEGER other named numbers; constraints can be replaced by others with
the same least and greatest value and the same extension marker, with values of the module for bounds or without. -/
inductive Rewritten (olds defs : List (Text × Definition)) : AsnType → AsnType → Prop
  | direct {ty ty'} : Restated olds defs ty ty' → Rewritten olds defs ty ty'
  | named {ty ty' r} : (r, ⟨.type ty', none⟩) ∈ defs → Rewritten olds defs ty ty' →
      Rewritten olds defs ty (.mk (.reference r) none)

/-- Only parts of the type are given by a name that is new. -/
inductive Restated (olds defs : List (Text × Definition)) : AsnType → AsnType → Prop
  | same {ty} : Restated olds defs ty ty
  | inlined {ty ty' r} : (r, ⟨.type ty, none⟩) ∈ olds → Rewritten olds defs ty ty' →
      Restated olds defs (.mk (.reference r) none) ty'
  | enumerated {vs vs' marker cs} : vs'.length = vs.length → (∀ v ∈ vs ++ vs', v.value = none) →
      Restated olds defs (.mk (.enumerated vs marker []) cs) (.mk (.enumerated vs' marker []) cs)
  | numbers {named named' cs} : Restated olds defs (.mk (.integer named) cs) (.mk (.integer named') cs)
  | bounds {named named' e e' ns ns' lb ub ext} : ValuesOf olds ns → Bounded ns e lb ub ext → ValuesOf defs ns' →
      Bounded ns' e' lb ub ext →
      Restated olds defs (.mk (.integer named) (some [.subtype e])) (.mk (.integer named') (some [.subtype e']))
  | octets {cs cs' ns ns' lb ub ext} : ValuesOf olds ns → Sized ns cs lb ub ext → ValuesOf defs ns' →
      Sized ns' cs' lb ub ext → Restated olds defs (.mk .octetString cs) (.mk .octetString cs')
  | bits {cs cs' ns ns' lb ub ext} : ValuesOf olds ns → Sized ns cs lb ub ext → ValuesOf defs ns' →
      Sized ns' cs' lb ub ext → Restated olds defs (.mk (.bitString none) cs) (.mk (.bitString none) cs')
  | characters {st cs cs' ns ns' lb ub ext} : ValuesOf olds ns → Sized ns cs lb ub ext → ValuesOf defs ns' →
      Sized ns' cs' lb ub ext → Restated olds defs (.mk (.characterString st) cs) (.mk (.characterString st) cs')
  | sequence {comps comps' ext cs} : RewrittenFields olds defs comps comps' →
      Restated olds defs (.mk (.sequence comps [] ext) cs) (.mk (.sequence comps' [] ext) cs)
  | sequenceOf {size ty ty' cs} : Rewritten olds defs ty ty' →
      Restated olds defs (.mk (.sequenceOf size ty) cs) (.mk (.sequenceOf size ty') cs)
  | count {size size' ty ty' cs lb ub ext} : Sized noNames (size.map fun c => [c]) lb ub ext →
      Sized noNames (size'.map fun c => [c]) lb ub ext → Rewritten olds defs ty ty' →
      Restated olds defs (.mk (.sequenceOf size ty) cs) (.mk (.sequenceOf size' ty') cs)
  | choice {root root' cs} : RewrittenAlts olds defs root root' →
      Restated olds defs (.mk (.choice root none) cs) (.mk (.choice root' none) cs)
  | extensibleChoice {root root' groups groups' cs} : RewrittenAlts olds defs root root' →
      RewrittenAlts olds defs (groups.flatMap fun | .mk _ alts => alts) (groups'.flatMap fun | .mk _ alts => alts) →
      Restated olds defs (.mk (.choice root (some groups)) cs) (.mk (.choice root' (some groups')) cs)

/-- The components of a SEQUENCE. Fields of classes are kept as they are. -/
inductive RewrittenFields (olds defs : List (Text × Definition)) : List SeqComponent → List SeqComponent → Prop
  | nil : RewrittenFields olds defs [] []
  | keep {c rest rest'} : RewrittenFields olds defs rest rest' → RewrittenFields olds defs (c :: rest) (c :: rest')
  | change {id id' ty ty' optional d rest rest'} : (∀ c f cs, ty ≠ .mk (.classField c f) cs) →
      Rewritten olds defs ty ty' → RewrittenFields olds defs rest rest' →
      RewrittenFields olds defs (.mk id ty optional d :: rest) (.mk id' ty' optional d :: rest')

/-- The alternatives of a CHOICE. -/
inductive RewrittenAlts (olds defs : List (Text × Definition)) : List Component → List Component → Prop
  | nil : RewrittenAlts olds defs [] []
  | cons {id id' ty ty' rest rest'} : Rewritten olds defs ty ty' → RewrittenAlts olds defs rest rest' →
      RewrittenAlts olds defs (.mk id ty :: rest) (.mk id' ty' :: rest')

end

/-- The definition of a type can be written differently; others are the same. -/
inductive RewrittenDefinition (olds defs : List (Text × Definition)) : Definition → Definition → Prop
  | same {d} : RewrittenDefinition olds defs d d
  | type {ty ty'} : Rewritten olds defs ty ty' → RewrittenDefinition olds defs ⟨.type ty, none⟩ ⟨.type ty', none⟩

/-- `M'` has what the module `M` defines, possibly written differently, and perhaps more. -/
structure RewrittenModule (M M' : Module) : Prop where
  name : M'.name = M.name
  imports : ∀ i ∈ M.imports, i ∈ M'.imports
  definitions : ∀ x d, (x, d) ∈ M.definitions →
    ∃ d', (x, d') ∈ M'.definitions ∧ RewrittenDefinition M.definitions M'.definitions d d'

/-- `ms'` is the schema `ms`, written differently, and perhaps more. -/
def SchemaRewritten (ms ms' : List Module) : Prop := ∀ M ∈ ms, ∃ M' ∈ ms', RewrittenModule M M'

end Hampi.Compiler.Spec
