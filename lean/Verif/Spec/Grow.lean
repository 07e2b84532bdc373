import Verif.Compiler.Modules
/-!
# A schema that grows
-/
namespace Hampi.Compiler.Spec

/-- `M'` is the module `M` with more definitions and imports. -/
structure Extends (M M' : Module) : Prop where
  name : M'.name = M.name
  imports : ∀ i ∈ M.imports, i ∈ M'.imports
  definitions : ∀ d ∈ M.definitions, d ∈ M'.definitions

/-- `ms'` has the modules of `ms`, with more definitions and imports, and more modules. -/
def SchemaGrows (ms ms' : List Module) : Prop := ∀ M ∈ ms, ∃ M' ∈ ms', Extends M M'

end Hampi.Compiler.Spec
