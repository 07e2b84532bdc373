import Verif.Lemmas.Resolve
import Verif.Compiler.Modules
import Verif.Compiler.Items
/-!
# The compiler as a library (asn-compiler/src/compiler.rs)

`Asn1Compiler` keeps its modules, the resolver and the generator between calls. The model follows calls that return `Ok`. `resolve_modules`
also replaces, in the modules it keeps, the objects it has read (parser/asn/module.rs:24-40); the model leaves open which modules it has
come to and with which classes it has read them, so that what is proved holds for any of these.
-/
namespace Hampi.Compiler

/-- A line of the generated file: the `use` lines (generator/int.rs:133-144), or an item. -/
inductive Line where
  | uses
  | item (i : Item)

/-- `Generator` (generator/int.rs:13-26) without its name, which is not used. -/
structure Generator where
  items : List Line
  gen : Gen

/-- `Generator::new` (generator/int.rs:29-36). -/
def Generator.new : Generator := ⟨[], .new⟩

/-- `Generator::generate` (generator/int.rs:40-66): the text, as a list of lines, and the generator afterwards. -/
def Generator.generate (sp : Spelling) (R : Resolver) (G : Generator) : Out Err (List Line × Generator) :=
  (genAll sp (resolvedTypes R.resolved) G.gen).bind fun p =>
    let items := G.items ++ [.uses] ++ (p.1 ++ p.2.aux).map .item
    .ok (items, ⟨items, p.2⟩)

/-- `Asn1Compiler` (compiler.rs:23-34). -/
structure Session where
  modules : List Module
  resolver : Resolver
  generator : Generator

/-- `Asn1Compiler::new` (compiler.rs:44-50). -/
def Session.new : Session := ⟨[], {}, .new⟩

/-- What `resolve_definitions` does to a module that is kept (compiler.rs:163-169,
parser/asn/module.rs:24-40): nothing, if it does not come to it, or its objects and sets have been read. -/
def ReadLater (M M' : Module) : Prop :=
  M' = M ∨ ∃ R defs, mapOut (readDefinition R M) M.definitions = .ok defs ∧ M' = { M with definitions := defs }

/-- A call that returns `Ok` (compiler.rs:55-59, 70-73, 76-89), and the text generated by it. -/
inductive Call (sp : Spelling) (n : Nat) : Session → Session → Option (List Line) → Prop
  | add (S : Session) (M : Module) : Call sp n S { S with modules := (addModule S.modules M).1 } none
  | resolve {S : Session} {R : Resolver} (ms : List Module) (hm : All2 ReadLater S.modules ms)
      (h : ResolvesModules n S.resolver S.modules (.ok R)) :
      Call sp n S { S with modules := ms, resolver := R } none
  | generate {S : Session} {out : List Line} {G : Generator} (h : S.generator.generate sp S.resolver = .ok (out, G)) :
      Call sp n S { S with generator := G } (some out)

end Hampi.Compiler
