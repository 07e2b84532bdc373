import Verif.Compiler.Items
import Verif.Compiler.Modules
import Verif.Spec.Resolved
import Verif.Spec.Derived
/-!
# What a resolved schema means, and what generated Rust means

`Means R ty t`: with the names of `R`, the resolved type `ty` is encoded as `t` describes. `Stands items
x t`: in a Rust file with these items, the type called `x` has the shape and attributes of `t`. The first
does not know how Rust types are named or which are split off; the second knows nothing about ASN.1.
-/
namespace Hampi.Compiler.Spec

mutual

/-- The encoding of a resolved type, with references looked up. -/
inductive Means (R : Resolver) : RType → Ty → Prop
  | base {b t} : b.attrs = .ok (some t) → Means R (.base b) t
  | reference {r ty t} : get R.resolved r = some (.type ty) → Means R ty t → Means R (.reference r) t
  /-- Optional components are numbered in the order of declaration; `n` is their number. -/
  | sequence {ext cs n fs} : MeansFields R 0 cs n fs → Means R (.sequence ext cs) (.sequence ext n fs)
  | sequenceOf {ty size t} : Means R ty t →
      Means R (.sequenceOf ty size) (.sequenceOf (boundsOf size).1 (boundsOf size).2 (extensibleOf size) t)
  /-- The alternatives are numbered from 0; the index goes up to the last one. -/
  | choice {c cs as} : MeansAlts R false 0 (c :: cs) .nil as →
      Means R (.choice (c :: cs) none) (.choice 0 cs.length false as)
  /-- The additions follow, numbered from 0 again. -/
  | choiceExt {c cs adds bs as} : MeansAlts R true 0 adds .nil bs → MeansAlts R false 0 (c :: cs) bs as →
      Means R (.choice (c :: cs) (some adds)) (.choice 0 cs.length true as)
  | set {s types as} : MeansOpen R types as → Means R (.set s types) (.openType as)

/-- The components of a SEQUENCE, the next optional one having number `i` and the last one `n - 1`. A key
component that is optional has no meaning: the attribute written for it is malformed (C101). -/
inductive MeansFields (R : Resolver) : Nat → List RSeqComponent → Nat → Fields → Prop
  | nil {n} : MeansFields R n [] n .nil
  | required {i id ty key cs n t fs} : Means R ty t → MeansFields R i cs n fs →
      MeansFields R i (.mk id ty false key :: cs) n (.required key t fs)
  | optional {i id ty cs n t fs} : Means R ty t → MeansFields R (i + 1) cs n fs →
      MeansFields R i (.mk id ty true false :: cs) n (.optional i t fs)

/-- The alternatives of a CHOICE, numbered from `i` on, in front of `rest`. -/
inductive MeansAlts (R : Resolver) : Bool → Nat → List RComponent → Alts → Alts → Prop
  | nil {x i rest} : MeansAlts R x i [] rest rest
  | cons {x i id ty cs rest t as} : Means R ty t → MeansAlts R x (i + 1) cs rest as →
      MeansAlts R x i (.mk id ty :: cs) rest (.cons i x t as)

/-- The alternatives of an open type: `num` is the number of the object, in decimal. -/
inductive MeansOpen (R : Resolver) : List (Text × Text × Text) → Alts → Prop
  | nil : MeansOpen R [] .nil
  | cons {name : Text} {k : Nat} {r ts t as} : Means R (.reference r) t → MeansOpen R ts as →
      MeansOpen R ((name, (toString k).toList, r) :: ts) (.cons k false t as)

end

mutual

/-- The type called `x` in a Rust file. -/
inductive Stands (items : List Item) : Text → Ty → Prop
  | newtype {x t cs} : Item.newtype x (some t) cs ∈ items → Stands items x t
  | alias {x y t} : Item.alias x y ∈ items → Stands items y t → Stands items x t
  | struct {x ext n fs ts} : Item.struct x ext n fs ∈ items → StandsFields items fs ts →
      Stands items x (.sequence ext (n.getD 0) ts)
  | vec {x lb ub ext y t} : Item.vec x lb ub ext y ∈ items → Stands items y t →
      Stands items x (.sequenceOf lb ub ext t)
  | choice {x lb ub ext vs as} : Item.choice x lb ub ext vs ∈ items → StandsAlts items vs as →
      Stands items x (.choice lb ub ext as)
  | openEnum {x vs as} : Item.openEnum x true vs ∈ items → StandsOpen items vs as →
      Stands items x (.openType as)

/-- The fields of a `struct`: an `Option` field needs its index, and cannot be a key. -/
inductive StandsFields (items : List Item) : List FieldItem → Fields → Prop
  | nil : StandsFields items [] .nil
  | required {id y key fs t ts} : Stands items y t → StandsFields items fs ts →
      StandsFields items (⟨id, y, none, key⟩ :: fs) (.required key t ts)
  | optional {id y i fs t ts} : Stands items y t → StandsFields items fs ts →
      StandsFields items (⟨id, y, some i, false⟩ :: fs) (.optional i t ts)

/-- The variants of a CHOICE. -/
inductive StandsAlts (items : List Item) : List VariantItem → Alts → Prop
  | nil : StandsAlts items [] .nil
  | cons {id y k x vs t as} : Stands items y t → StandsAlts items vs as →
      StandsAlts items (⟨id, y, k, x⟩ :: vs) (.cons k x t as)

/-- The variants of an open type; the attribute `key` is a literal without sign. -/
inductive StandsOpen (items : List Item) : List OpenItem → Alts → Prop
  | nil : StandsOpen items [] .nil
  | cons {id y} {k : Nat} {vs t as} : Stands items y t → StandsOpen items vs as →
      StandsOpen items (⟨id, y, (toString k).toList⟩ :: vs) (.cons k false t as)

end

/-- No two items of the file define the same name: otherwise it does not compile. -/
def DistinctNames (items : List Item) : Prop := (items.map Item.ident).Nodup

/-! ## Schemas and values in the scope of the round trip -/

mutual

/-- The type uses what the generator and the derive macro support: known character string types,
enumerations with numbered values, CHOICE types with alternatives, open types keyed by natural
numbers. -/
def Supported : RType → Prop
  | .base b => ∃ t, b.attrs = .ok (some t)
  | .reference _ => True
  | .sequence _ cs => SupportedFields cs
  | .sequenceOf ty _ => Supported ty
  | .choice root none => root ≠ [] ∧ SupportedAlts root
  | .choice root (some adds) => root ≠ [] ∧ SupportedAlts root ∧ SupportedAlts adds
  | .set _ types => ∀ e ∈ types, ∃ k : Nat, e.2.1 = (toString k).toList

/-- All components do, and no key is optional. -/
def SupportedFields : List RSeqComponent → Prop
  | [] => True
  | .mk _ ty optional key :: cs => Supported ty ∧ ¬ (optional = true ∧ key = true) ∧ SupportedFields cs

/-- All alternatives do. -/
def SupportedAlts : List RComponent → Prop
  | [] => True
  | .mk _ ty :: cs => Supported ty ∧ SupportedAlts cs

end

/-- No type refers to itself, however indirectly: the names can be ranked. -/
def Founded (R : Resolver) : Prop :=
  ∃ rank : Text → Nat, ∀ k ty, get R.resolved k = some (.type ty) → ∀ r ∈ ty.names, rank r < rank k

/-- No name is defined in two modules. -/
def DistinctDefinitions (ms : List Module) : Prop :=
  ∀ M ∈ ms, ∀ N ∈ ms, ∀ k d e, (k, d) ∈ M.definitions → (k, e) ∈ N.definitions → M.name = N.name

/-- What the decoder needs of a text beyond its size: not one or two octets, unless the length that
precedes it is at an octet boundary (`C13_short_unaligned_violated`). -/
def TextCarried (lb ub : Option Int) (v : String) : Prop :=
  2 < (utf8 v).length ∨ utf8 v = [] ∨ lengthAligns lb ub = true

mutual

/-- The values that survive encoding and decoding: integers are values of their Rust type, below 2^63
when there is no lower bound (`C04_middle_values_violated`); no short texts; no empty lists
(`C40_empty_list_violated`). -/
def Carried : (t : Ty) → t.Val → Prop
  | .integer w lb _ _, v => IntValueOk w lb v
  | .enumerated w lb _ _, v => IntValueOk w lb v
  | .charstring _ lb ub _, v => TextCarried lb ub v
  | .sequence _ _ fs, v => CarriedFields fs v
  | .sequenceOf _ _ _ e, v => v ≠ [] ∧ ∀ x ∈ (show List e.Val from v), Carried e x
  | .choice _ _ _ as, v => CarriedAlts as v
  | .openType as, v => CarriedAlts as v
  | .boolean, _ | .null, _ | .bitstring .., _ | .octetstring .., _ | .objectIdentifier, _ => True

/-- Field by field. -/
def CarriedFields : (fs : Fields) → fs.Val → Prop
  | .nil, _ => True
  | .required _ t rest, v => Carried t v.1 ∧ CarriedFields rest v.2
  | .optional _ t rest, v => (match v.1 with | some x => Carried t x | none => True) ∧ CarriedFields rest v.2

/-- In the variant at hand. -/
def CarriedAlts : (as : Alts) → as.Val → Prop
  | .cons _ _ t _, .inl v => Carried t v
  | .cons _ _ _ rest, .inr v => CarriedAlts rest v

end

end Hampi.Compiler.Spec
