import Verif.Compiler.Resolve
import Verif.Lemmas.ParserMono
/-! # More steps do not change the result of resolving a type -/
namespace Hampi.Compiler
open Out (Le)

theorem mapOut_mono {ε α β : Type} {f g : α → Out ε β} (h : ∀ x, Le (f x) (g x)) (l : List α) :
    Le (mapOut f l) (mapOut g l) := by
  induction l with
  | nil => exact .refl _
  | cons x xs ih => exact .bind (h x) fun y => .bind ih fun ys => .refl _

theorem resolveType_mono (R : Resolver) (n : Nat) :
    ∀ ty, Le (resolveType n R ty) (resolveType (n + 1) R ty) := by
  induction n with
  | zero => exact fun _ => .bot _
  | succ n ih =>
    have halt : ∀ c, Le (resolveAlternative (resolveType n R) c) (resolveAlternative (resolveType (n + 1) R) c) := by
      rintro ⟨id, ty⟩
      exact .bind (ih ty) fun _ => .refl _
    have hcomp : ∀ c, Le (resolveComponent (resolveType n R) c) (resolveComponent (resolveType (n + 1) R) c) := by
      rintro ⟨id, ty, opt, d⟩
      exact .bind (ih ty) fun _ => .refl _
    rintro ⟨kind, cs⟩
    cases kind with
    | parameterized t ps =>
      simp only [resolveType]
      split
      · exact .bind (.refl _) fun ty => ih ty
      · exact .refl _
    | choice root adds =>
      simp only [resolveType]
      refine .bind (mapOut_mono halt _) fun r => ?_
      cases adds with
      | none => exact .refl _
      | some gs => exact .bind (mapOut_mono halt _) fun _ => .refl _
    | sequence root adds ext =>
      simp only [resolveType]
      rcases mapOut_mono hcomp root with h | h
      · rw [h]; exact .bot _
      · rw [h]; exact .refl _
    | sequenceOf size ty =>
      simp only [resolveType]
      exact .bind (ih ty) fun _ => .refl _
    | _ => exact .refl _

/-- A result that is there with `n` steps is there with more. -/
theorem resolveType_more {R : Resolver} {n m : Nat} (h : n ≤ m) {ty : AsnType} {rt : RType}
    (hr : resolveType n R ty = .ok rt) : resolveType m R ty = .ok rt := by
  induction h with
  | refl => exact hr
  | step _ ih =>
    rcases resolveType_mono R _ ty with h | h
    · rw [h] at ih; cases ih
    · rw [← h]; exact ih

end Hampi.Compiler
