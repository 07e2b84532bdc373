import Verif.Compiler.Items
/-!
# Names of a schema and identifiers of Rust

`Ident::new` of the crate proc-macro2 panics on a text that is not an identifier.
-/
namespace Hampi.Compiler.Spec

/-- A name of ASN.1, whatever it is the name of: an ASCII letter, and then letters, digits and hyphens. -/
def Name (x : Text) : Prop :=
  ∃ c cs, x = c :: cs ∧ c.isAlpha = true ∧ ∀ d ∈ cs, d.isAlphanum = true ∨ d = '-'

/-- An identifier of Rust: a letter, and then letters, digits and underscores. (More texts are identifiers; these are
the ones needed here.) -/
def Identifier (x : Text) : Prop :=
  ∃ c cs, x = c :: cs ∧ c.isAlpha = true ∧ ∀ d ∈ cs, d.isAlphanum = true ∨ d = '_'

/-- The crate heck makes identifiers of names. -/
structure Spelling.Sane (sp : Spelling) : Prop where
  snake : ∀ x, Name x → Identifier (sp.snake x)
  shouty : ∀ x, Name x → Identifier (sp.shouty x)

/-- All names in the item are identifiers: its own, those of its fields, variants and constants, and those of the types
it mentions. -/
def Item.Identifiers : Item → Prop
  | .newtype i _ consts => Identifier i ∧ ∀ c ∈ consts, Identifier c.1
  | .struct i _ _ fields => Identifier i ∧ ∀ f ∈ fields, Identifier f.ident ∧ Identifier f.ty
  | .vec i _ _ _ elem => Identifier i ∧ Identifier elem
  | .choice i _ _ _ variants => Identifier i ∧ ∀ v ∈ variants, Identifier v.ident ∧ Identifier v.ty
  | .openEnum i _ variants => Identifier i ∧ ∀ v ∈ variants, Identifier v.ident ∧ Identifier v.ty
  | .alias i target => Identifier i ∧ Identifier target

end Hampi.Compiler.Spec

namespace Hampi.Compiler
open Hampi.Compiler.Spec

/-- The names of the values of an ENUMERATED. -/
def RBase.Named : RBase → Prop
  | .enumerated _ _ _ root _ => ∀ p ∈ root, Name p.1
  | _ => True

mutual

/-- All names in a resolved type are names. -/
def RType.Named : RType → Prop
  | .base b => b.Named
  | .choice root none => namedAlternatives root
  | .choice root (some adds) => namedAlternatives root ∧ namedAlternatives adds
  | .sequence _ cs => namedComponents cs
  | .sequenceOf ty _ => ty.Named
  | .reference r => Name r
  | .set _ types => ∀ e ∈ types, Name e.1 ∧ Name e.2.2

/-- The same for alternatives. -/
def namedAlternatives : List RComponent → Prop
  | [] => True
  | .mk id ty :: cs => (Name id ∧ ty.Named) ∧ namedAlternatives cs

/-- The same for components. -/
def namedComponents : List RSeqComponent → Prop
  | [] => True
  | .mk id ty _ _ :: cs => (Name id ∧ ty.Named) ∧ namedComponents cs

end

end Hampi.Compiler
