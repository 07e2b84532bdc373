import Verif.Props.Bounds
import Verif.Compiler.Resolve
import Verif.Compiler.Items
/-!
# C69: the sizes of a SEQUENCE OF
-/
namespace Hampi.Compiler

open Hampi.Spec (Permits AllSingles AllRanges)

/-- **C69 (part).** For `SEQUENCE (SIZE (..)) OF ..`, where the size is a union of single values or a union of ranges,
none of them empty, the bounds in the generated item are the least and the greatest permitted number of elements, and
the item is extensible exactly when there is a marker inside SIZE. -/
theorem C69_sequence_of_partial {ns : Hampi.Spec.Names} (hn : ns.Proper) {root : List (List Elements)}
    {add : Option (List (List Elements))} (hne : root ≠ []) (hk : AllSingles root ∨ AllRanges root)
    (hi : Hampi.Spec.Inhabited ns root) {R : Resolver} (he : R.env = ns.int) {n : Nat} {ty : AsnType}
    {cs : Option (List Constraint)} {rt : RType} {sp : Spelling} {name : Text} {g g' : Gen} {item : Item}
    (hr : resolveType n R (.mk (.sequenceOf (some (sizeConstraint (.mk root add))) ty) cs) = .ok rt)
    (hg : genItem sp name rt g = .ok (item, g')) :
    ∃ lb ub entry, item = .vec (typeIdent name) (some lb) (some ub) add.isSome entry ∧
      Permits ns (.mk root add) lb ∧ Permits ns (.mk root add) ub ∧
      ∀ x, Permits ns (.mk root add) x → lb ≤ x ∧ x ≤ ub := by
  cases n with
  | zero => cases hr
  | succ n =>
    simp only [resolveType, Out.bind_ok, he] at hr
    obtain ⟨t, -, vs, hv, e⟩ := hr
    injection e with e; subst e
    obtain ⟨lb, ub, hb, hx, hp⟩ := size_bounds hn hne hk hi hv
    simp only [genItem, Out.bind_ok, hb, hx] at hg
    obtain ⟨p, -, e⟩ := hg
    injection e with e
    exact ⟨lb, ub, p.1, (congrArg Prod.fst e).symm, hp⟩

/-- The hypotheses are met by `SEQUENCE (SIZE (3..9 | 20..300, ...)) OF BOOLEAN` in a schema without named values. -/
example (sp : Spelling) : ∃ rt, resolveType 2 {} (.mk (.sequenceOf
      (some (sizeConstraint (.mk exampleRoot (some [])))) (.mk .boolean none)) none) = .ok rt ∧
    ∃ p, genItem sp "Flags".toList rt Gen.new = .ok p := by
  have e1 := between_values (Resolver.env {}) (a := 3) (b := 9) (by decide) (by decide) (by decide)
  have e2 := between_values (Resolver.env {}) (a := 20) (b := 300) (by decide) (by decide) (by decide)
  refine ⟨.sequenceOf (.base .boolean) (some ⟨{ ranges := [(3, 10), (20, 301)] }, some {}⟩), ?_⟩
  refine ⟨?_, ?_⟩
  · simp [resolveType, resolveBase, sizeConstraint, Constraint.sizeValueset, exampleRoot, ElementSet.valueset,
      unionValues, interValues, Out.bind, e1, e2, intersectStep, ConstraintValues.isEmpty, ConstraintValues.append]
  · simp only [genItem, withIdent, genBase, Out.bind]
    exact ⟨_, rfl⟩

end Hampi.Compiler
