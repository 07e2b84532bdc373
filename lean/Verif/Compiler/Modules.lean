import Verif.Compiler.Resolve
/-!
# Resolving all modules (asn-compiler/src/compiler.rs)

`modules` is a list of modules with different names (`add_module`, compiler.rs:55-59, inserts by
name into a `HashMap`). Printing is left out.
-/
namespace Hampi.Compiler

/-- `self.modules.get(name)`. -/
def getModule (ms : List Module) (name : Text) : Option Module := ms.find? fun M => M.name == name

/-- `add_module` (compiler.rs:55-59): the modules afterwards, and what is returned. -/
def addModule (ms : List Module) (M : Module) : List Module × Bool :=
  (M :: ms.filter fun N => N.name != M.name, (getModule ms M.name).isSome)

/-- `resolve_imports` (compiler.rs:122-137): every module imported from is there. -/
def importsFound (ms : List Module) : Bool :=
  ms.all fun M => M.imports.all fun i => (getModule ms i.2).isSome

/-- What `sorted_modules` gives to the sort (compiler.rs:142-148). -/
def moduleNeeds (ms : List Module) : List (Text × List Text) :=
  ms.map fun M => (M.name, M.imports.map (·.2))

/-- The loop of `resolve_definitions` (compiler.rs:163-169): `r` is a possible result. -/
def ResolvesOrder (n : Nat) (ms : List Module) : List Text → Resolver → Out Err Resolver → Prop
  | [], R, r => r = .ok R
  | k :: ks, R, r =>
      match getModule ms k with
      | none => r = .panic
      | some M => ∃ r1, ResolvesModule n R M r1 ∧
          match r1 with
          | .ok R1 => ResolvesOrder n ms ks R1 r
          | .err e => r = .err e
          | .panic => r = .panic
          | .diverge => r = .diverge

/-- `resolve_modules` (compiler.rs:70-73) starting from `R`: `r` is a possible result. -/
def ResolvesModules (n : Nat) (R : Resolver) (ms : List Module) (r : Out Err Resolver) : Prop :=
  if importsFound ms then
    ∃ order, Sorted (moduleNeeds ms) order ∧ ResolvesOrder n ms order R r
  else r = .err .resolve

end Hampi.Compiler
