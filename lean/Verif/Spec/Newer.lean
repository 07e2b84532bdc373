import Verif.Spec.Schema
import Verif.Spec.Derived
/-!
# Newer versions of a type and of a schema

`Ty.Newer t u`: `u` is `t` with alternatives added, at any depth: at the end of a CHOICE (where the index and its
bounds stay as they are), or anywhere in an open type under new keys. `Grown` is the same for resolved schema types:
what X.680 allows after `...` in a CHOICE, an ENUMERATED or an object set.
-/
namespace Hampi

mutual

/-- See the head of this file. -/
inductive Ty.Newer : Ty → Ty → Prop
  | same (t) : Ty.Newer t t
  | sequence {ext n fs gs} : Fields.Newer fs gs → Ty.Newer (.sequence ext n fs) (.sequence ext n gs)
  | sequenceOf {lb ub ext t u} : Ty.Newer t u → Ty.Newer (.sequenceOf lb ub ext t) (.sequenceOf lb ub ext u)
  | choice {lb ub ext as bs} : Alts.Newer as bs → Ty.Newer (.choice lb ub ext as) (.choice lb ub ext bs)
  | openType {as bs} : Alts.Newer as bs → Ty.Newer (.openType as) (.openType bs)

/-- Component by component. -/
inductive Fields.Newer : Fields → Fields → Prop
  | nil : Fields.Newer .nil .nil
  | required {k t u fs gs} : Ty.Newer t u → Fields.Newer fs gs → Fields.Newer (.required k t fs) (.required k u gs)
  | optional {i t u fs gs} : Ty.Newer t u → Fields.Newer fs gs → Fields.Newer (.optional i t fs) (.optional i u gs)

/-- More variants: at the end, or under a key that none of the following had. -/
inductive Alts.Newer : Alts → Alts → Prop
  | nil {bs} : Alts.Newer .nil bs
  | keep {k x t u as bs} : Ty.Newer t u → Alts.Newer as bs → Alts.Newer (.cons k x t as) (.cons k x u bs)
  | add {k x u as bs} : k ∉ as.keys → Alts.Newer as bs → Alts.Newer as (.cons k x u bs)

end

namespace Compiler.Spec

mutual

/-- A resolved type in a newer version of the schema. Names stay. -/
inductive Grown : RType → RType → Prop
  | same (ty) : Grown ty ty
  /-- `ENUMERATED { a, b, ..., c, d }`: values after the marker. -/
  | enumerated {bits signed root ext ext'} :
      Grown (.base (.enumerated bits signed true root ext)) (.base (.enumerated bits signed true root ext'))
  | sequence {ext cs ds} : GrownFields cs ds → Grown (.sequence ext cs) (.sequence ext ds)
  | sequenceOf {ty ty' size} : Grown ty ty' → Grown (.sequenceOf ty size) (.sequenceOf ty' size)
  | choice {cs ds} : GrownAlts cs ds → Grown (.choice cs none) (.choice ds none)
  /-- `CHOICE { a A, ..., b B, c C }`: alternatives after the marker. -/
  | choiceExt {cs ds as bs more} : GrownAlts cs ds → GrownAlts as bs →
      Grown (.choice cs (some as)) (.choice ds (some (bs ++ more)))
  /-- An object set with more objects, no two of the same number. -/
  | set {s s' types types'} : types.Sublist types' → (types'.map (·.2.1)).Nodup →
      Grown (.set s types) (.set s' types')

/-- Component by component. -/
inductive GrownFields : List RSeqComponent → List RSeqComponent → Prop
  | nil : GrownFields [] []
  | cons {id id' ty ty' o k cs ds} : Grown ty ty' → GrownFields cs ds →
      GrownFields (.mk id ty o k :: cs) (.mk id' ty' o k :: ds)

/-- Alternative by alternative. -/
inductive GrownAlts : List RComponent → List RComponent → Prop
  | nil : GrownAlts [] []
  | cons {id id' ty ty' cs ds} : Grown ty ty' → GrownAlts cs ds → GrownAlts (.mk id ty :: cs) (.mk id' ty' :: ds)

end

/-- A newer version of a schema: every type is still there, grown. There can be more. -/
def GrownSchema (R R' : Resolver) : Prop :=
  ∀ k ty, get R.resolved k = some (.type ty) → ∃ ty', get R'.resolved k = some (.type ty') ∧ Grown ty ty'

end Compiler.Spec

end Hampi
