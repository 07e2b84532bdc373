import Verif.Compiler.Ast
/-!
# Order of definitions and modules

`definitions_sorted` (asn-compiler/src/parser/asn/structs/module.rs:91-113) and `sorted_modules`
(asn-compiler/src/compiler.rs:139-160) use `TopologicalSort` of the crate topological-sort, which is not
in /repo. The model follows its documentation: `add_dependency(prec, succ)` registers both elements
and their order (once), `insert` registers an element, `pop_all` removes and returns all elements
without a registered predecessor among those left. It keeps its elements in a `HashMap`, whose
iteration order is not specified: `PopsAll` is a relation, and what is proved for it holds for every
such order. The order in which `definitions` and `modules`, also `HashMap`s, are visited is that of the
list given.
-/
namespace Hampi.Compiler

/-- `TopologicalSort<String>`: elements, and registered pairs (predecessor, successor). -/
structure Graph where
  nodes : List Text := []
  edges : List (Text × Text) := []
deriving Repr

/-- `TopologicalSort::insert`. -/
def Graph.insert (g : Graph) (k : Text) : Graph :=
  if k ∈ g.nodes then g else { g with nodes := g.nodes ++ [k] }

/-- `TopologicalSort::add_dependency`. -/
def Graph.addDependency (g : Graph) (prec succ : Text) : Graph :=
  let g := (g.insert prec).insert succ
  if (prec, succ) ∈ g.edges then g else { g with edges := g.edges ++ [(prec, succ)] }

/-- The elements without predecessor. -/
def Graph.ready (g : Graph) : List Text := g.nodes.filter fun k => !g.edges.any fun e => e.2 == k

/-- Removing elements, and with them the pairs in which they come first. -/
def Graph.remove (g : Graph) (ks : List Text) : Graph :=
  ⟨g.nodes.filter (fun k => !ks.contains k), g.edges.filter fun e => !ks.contains e.1⟩

/-- The loop around `pop_all` (parser/asn/structs/module.rs:103-112, compiler.rs:150-159): `out` is a
possible result. -/
inductive PopsAll : Graph → List Text → Prop
  | done {g : Graph} (h : g.ready = []) : PopsAll g []
  | round {g : Graph} {popped rest : List Text} (hp : popped.Perm g.ready) (hne : g.ready ≠ [])
      (hr : PopsAll (g.remove popped) rest) : PopsAll g (popped ++ rest)

/-- The graph of a list of names with what each one needs (parser/asn/structs/module.rs:94-101 and
compiler.rs:142-148). -/
def graphOf (needs : List (Text × List Text)) : Graph :=
  needs.foldl (fun g p => (p.2.foldl (fun g r => g.addDependency r p.1) g).insert p.1) {}

/-- A possible order (`definitions_sorted`, `sorted_modules`). -/
def Sorted (needs : List (Text × List Text)) (out : List Text) : Prop := PopsAll (graphOf needs) out

end Hampi.Compiler
