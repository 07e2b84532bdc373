import Verif.Compiler.Modules
import Verif.Spec.Constraints
import Verif.Spec.Schema
import Verif.Lemmas.Resolve
/-!
# What a schema means

Which encoding a type of a set of parsed modules has, read off X.680, X.681, X.683 and X.691: `Describes lax ms
σ ty t` says that the type `ty`, written in the scope `σ`, is encoded as `t` describes. Names are looked up in
the module and among its imports, bounds are the least and the greatest permitted number, components and
alternatives are numbered in the order in which they are written (as with automatic tags), the type of a field
of a class is looked up in the class, an open type has an alternative for every object that has a type for it.
It knows nothing of the order in which definitions are resolved, or of resolved definitions.

What hampi does not do as these standards say is left out; each case has its own property. These are
intersections, mixtures of values and ranges, serial constraints and bounds MIN and MAX (C54-C57, C68),
values that stand for other values (C69, C71), addition groups in a SEQUENCE (C75), enumerations with numbers
(C82), signed integers whose magnitude needs the sign bit of a narrower type (C57), objects that use what is
defined in their own module (C71). When `lax` is true, four kinds of types that hampi encodes in a way of its
own are included, with that encoding: those with constrained references (C70), DEFAULT components (C75), fields
of a class constrained by an object set without objects (C77), enumerations with additions (C30). So `Describes
false` is the meaning that the standards give, and `Describes true` the one hampi gives.
-/
namespace Hampi.Compiler.Spec

open Hampi.Spec (Names Permits SmallSet AllSingles AllRanges SimpleUnion Inhabited Numeral)

/-- No constraint. -/
def Bare (cs : Option (List Constraint)) : Prop := cs = none ∨ cs = some []

/-! ## Names -/

/-- The module `M` imports `x` from the module `N`, where it has this definition. -/
def Imports (ms : List Module) (M : Module) (x : Text) (N : Module) (d : Definition) : Prop :=
  (x, N.name) ∈ M.imports ∧ N ∈ ms ∧ (x, d) ∈ N.definitions

/-- In the module `M` the name `x` stands for a definition of the module `N`: one of its own, or one it
imports. -/
inductive Sees (ms : List Module) (M : Module) (x : Text) : Module → Definition → Prop
  | own {d} : (x, d) ∈ M.definitions → Sees ms M x M d
  | imported {N d} : Imports ms M x N d → Sees ms M x N d

/-- Where a type is written: in a module, or as an instance of a parameterized type of the module `inner`. In an
instance, the actual parameters are names of the scope that it is used in. -/
inductive Scope where
  | module (M : Module)
  | inst (args : List Text) (outer : Scope) (inner : Module)

/-- What a name stands for in a scope. -/
def Scope.Sees (ms : List Module) : Scope → Text → Module → Definition → Prop
  | .module M, x, N, d => Spec.Sees ms M x N d
  | .inst args outer inner, x, N, d =>
      (x ∈ args ∧ outer.Sees ms x N d) ∨ (x ∉ args ∧ Spec.Sees ms inner x N d)

/-- A name that is imported or a parameter, and what it stands for. -/
def Scope.Imports (ms : List Module) : Scope → Text → Module → Definition → Prop
  | .module M, x, N, d => Spec.Imports ms M x N d
  | .inst args outer inner, x, N, d =>
      (x ∈ args ∧ outer.Sees ms x N d) ∨ (x ∉ args ∧ Spec.Imports ms inner x N d)

/-- A name: letters, digits and hyphens, the first a letter. -/
def IsName (x : Text) : Prop :=
  (∃ c cs, x = c :: cs ∧ c.isAlpha = true) ∧ ∀ c ∈ x, c.isAlphanum = true ∨ c = '-'

/-! ## Values -/

/-- The definition of an integer value by a number. -/
def DefinesInteger (a : Assignment) (v : Int) : Prop :=
  ∃ named cs num, a = .value (.mk (.integer named) cs) num ∧ Bare cs ∧ Numeral num v ∧ fits128 v

/-- The kind of the type that a type is or, through references, refers to. -/
inductive Behind (ms : List Module) : Module → AsnType → Kind → Prop
  | here {M k cs} : (∀ r, k ≠ .reference r) → Behind ms M (.mk k cs) k
  | reference {M r cs N ty k} : Sees ms M r N ⟨.type ty, none⟩ → Behind ms N ty k →
      Behind ms M (.mk (.reference r) cs) k

/-- The definition by a number of a value whose type is an INTEGER or refers to one. -/
def DefinesNumber (ms : List Module) (M : Module) (a : Assignment) (v : Int) : Prop :=
  ∃ ty num named, a = .value ty num ∧ Behind ms M ty (.integer named) ∧ Numeral num v ∧ fits128 v

/-- A table of integer values that can be seen. -/
def InScope (sees : Text → Module → Definition → Prop) (ns : Names) : Prop :=
  ∀ x v, ns.int x = some v → ∃ N a, sees x N ⟨a, none⟩ ∧ DefinesInteger a v

/-! ## Bounds -/

/-- The constraint is a list of numbers, or one of ranges. The least number it permits is `lb`, the
greatest is `ub`, and `ext` says whether it has an extension marker. -/
inductive Bounded (ns : Names) : ElementSet → Int → Int → Bool → Prop
  | mk {root add lb ub} : AllSingles root ∨ AllRanges root → Inhabited ns root →
      (∀ a, add = some a → SimpleUnion a) → SmallSet ns (.mk root add) →
      Permits ns (.mk root add) lb → (∀ x, Permits ns (.mk root add) x → lb ≤ x) →
      Permits ns (.mk root add) ub → (∀ x, Permits ns (.mk root add) x → x ≤ ub) →
      Bounded ns (.mk root add) lb ub add.isSome

/-- The Rust type for the numbers from `lb` to `ub`: the narrowest that holds them. A signed type must not
be one where the magnitude of a bound also fits, without its sign, into half the bits (C57). -/
inductive Holder (lb ub : Int) : Width → Prop
  | unsigned {w : Width} : 0 ≤ lb → lb ≤ ub → w.signed = false → ub < 2 ^ w.bits →
      (w.bits = 8 ∨ 2 ^ (w.bits / 2) ≤ ub) → Holder lb ub w
  | signed {w : Width} : lb < 0 → lb ≤ ub → w.signed = true → -(2 ^ (w.bits - 1)) ≤ lb → ub < 2 ^ (w.bits - 1) →
      (w.bits = 8 ∨ 2 ^ (w.bits / 2) ≤ -lb ∨ 2 ^ (w.bits / 2) ≤ ub) → Holder lb ub w

/-- No size constraint, or one: `(SIZE (..))`. -/
inductive Sized (ns : Names) : Option (List Constraint) → Option Int → Option Int → Bool → Prop
  | any {cs} : Bare cs → Sized ns cs none none false
  | size {e lb ub ext} : Bounded ns e lb ub ext → 0 ≤ lb →
      Sized ns (some [.subtype (.mk [[.size e]] none)]) (some lb) (some ub) ext

/-- The character string types with a codec. -/
inductive TextType : Text → CharKind → Prop
  | utf8 : TextType "UTF8String".toList .utf8
  | printable : TextType "PrintableString".toList .printable
  | visible : TextType "VisibleString".toList .visible

/-- No values have names. -/
def noNames : Names := ⟨fun _ => none, fun _ _ => False⟩

/-! ## Objects -/

/-- The fields of an object, with the module it is written in. -/
abbrev Written := Module × List (Text × ObjectField)

/-- The objects of the class `cls` in a list of elements of an object set written in the module `M`, in the order
in which they are written. -/
inductive Objects (ms : List Module) (cls : Text) : Module → List SetElement → List Written → Prop
  | nil {M} : Objects ms cls M [] []
  | object {M fs es os} : Objects ms cls M es os → Objects ms cls M (.object (.fields fs) :: es) ((M, fs) :: os)
  | objectRef {M r N fs es os} : Sees ms M r N ⟨.object cls (.fields fs), none⟩ → Objects ms cls M es os →
      Objects ms cls M (.objectRef r :: es) ((N, fs) :: os)
  | setRef {M r N root add os es ps} : Sees ms M r N ⟨.objectSet cls root add, none⟩ →
      Objects ms cls N (root ++ add) os → Objects ms cls M es ps →
      Objects ms cls M (.setRef r :: es) (os ++ ps)

/-- `u` is the one field of the class that is declared UNIQUE. -/
def UniqueField (cf : List (Text × ClassField)) (u : Text) : Prop :=
  (∃ id ty opt d w, (u, .fixedTypeValue id ty true opt d w) ∈ cf) ∧
    ∀ f id ty opt d w, (f, .fixedTypeValue id ty true opt d w) ∈ cf → f = u

/-- The field `u` of an object is the imported value `name`, which is the number `k`. -/
def KeyOf (ms : List Module) (o : Written) (u name : Text) (k : Int) : Prop :=
  ∃ ty N a, (u, .fixedTypeValue ty (some name)) ∈ o.2 ∧ Imports ms o.1 name N ⟨a, none⟩ ∧ DefinesNumber ms N a k

/-- A table constraint, `({Set})` or `({Set}{@component})`. -/
inductive TableOf : Constraint → Text → Option Text → Prop
  | simple {S} : TableOf (.subtype (.mk [[.single ('{' :: ' ' :: (S ++ [' ', '}']))]] none)) S none
  | relation {S c} : TableOf (.tableRelation S ('@' :: c)) S (some c)

/-- What the components of a SEQUENCE constrained by an object set are looked up in: the set, the class, the module
of the class, its fields, the one that is UNIQUE, the objects of the set, and the component that holds the UNIQUE
field. -/
structure ObjectTable where
  set : Text
  cls : Text
  home : Module
  fields : List (Text × ClassField)
  unique : Text
  objects : List Written
  key : Text

/-- The table of a set that can be seen. Its objects, at least one, differ in their keys. -/
structure TableIn (ms : List Module) (σ : Scope) (T : ObjectTable) : Prop where
  seen : ∃ N root add, σ.Sees ms T.set N ⟨.objectSet T.cls root add, none⟩ ∧
    Sees ms N T.cls T.home ⟨.class T.fields, none⟩ ∧ Objects ms T.cls N (root ++ add) T.objects
  unique : UniqueField T.fields T.unique
  objects : T.objects ≠ []
  differ : ∀ o ∈ T.objects, ∀ p ∈ T.objects, ∀ n m k, KeyOf ms o T.unique n k → KeyOf ms p T.unique m k → o = p

/-- The alternatives of the open type for the field `field`, in the order of the names of their keys: name,
number, module and type of every object that has a type for the field. The types are references. -/
structure Alternatives (ms : List Module) (T : ObjectTable) (field : Text) (l : List (Text × Int × Module × AsnType)) :
    Prop where
  sorted : l.Pairwise fun a b => a.1 < b.1
  all : ∀ name k N ty, (name, k, N, ty) ∈ l ↔
    ∃ fs, (N, fs) ∈ T.objects ∧ KeyOf ms (N, fs) T.unique name k ∧ (field, .type (some ty)) ∈ fs
  references : ∀ name k N ty, (name, k, N, ty) ∈ l → ∃ r cs, ty = .mk (.reference r) cs ∧ Bare cs

/-! ## Types -/

mutual

/-- The encoding of a type written in the scope `σ`. -/
inductive Describes (lax : Bool) (ms : List Module) : Scope → AsnType → Ty → Prop
  | boolean {σ cs} : Bare cs → Describes lax ms σ (.mk .boolean cs) .boolean
  | null {σ cs} : Bare cs → Describes lax ms σ (.mk .null cs) .null
  | objectIdentifier {σ cs} : Bare cs → Describes lax ms σ (.mk .objectIdentifier cs) .objectIdentifier
  | integer {σ named cs} : Bare cs → Describes lax ms σ (.mk (.integer named) cs) (.integer .i64 none none false)
  | boundedInteger {σ : Scope} {named e ns lb ub ext w} : InScope (σ.Sees ms) ns → Bounded ns e lb ub ext →
      Holder lb ub w →
      Describes lax ms σ (.mk (.integer named) (some [.subtype e])) (.integer w (some lb) (some ub) ext)
  /-- The values are numbered in the order in which they are written. -/
  | enumerated {σ vs marker add cs} : vs ≠ [] → vs.length ≤ 256 → (∀ v ∈ vs, v.value = none) → Bare cs →
      add = [] ∨ lax = true ∧ (∀ v ∈ add, v.value = none) →
      Describes lax ms σ (.mk (.enumerated vs marker add) cs)
        (.enumerated .u8 (some 0) (some ((vs.length : Int) - 1)) marker.isSome)
  | bitString {σ : Scope} {cs ns lb ub ext} : InScope (σ.Sees ms) ns → Sized ns cs lb ub ext →
      Describes lax ms σ (.mk (.bitString none) cs) (.bitstring lb ub ext)
  | octetString {σ : Scope} {cs ns lb ub ext} : InScope (σ.Sees ms) ns → Sized ns cs lb ub ext →
      Describes lax ms σ (.mk .octetString cs) (.octetstring lb ub ext)
  /-- `OCTET STRING (CONTAINING ..)` is encoded like any other. -/
  | containing {σ ty} : Describes lax ms σ (.mk .octetString (some [.contents ty])) (.octetstring none none false)
  | characterString {σ : Scope} {st k cs ns lb ub ext} : TextType st k → InScope (σ.Sees ms) ns →
      Sized ns cs lb ub ext → Describes lax ms σ (.mk (.characterString st) cs) (.charstring k lb ub ext)
  | reference {σ : Scope} {r cs N ty t} : Bare cs ∨ lax = true → σ.Sees ms r N ⟨.type ty, none⟩ →
      Describes lax ms (.module N) ty t → Describes lax ms σ (.mk (.reference r) cs) t
  | sequence {σ comps ext cs n fs} : Bare cs → DescribesFields lax ms σ 0 comps n fs →
      Describes lax ms σ (.mk (.sequence comps [] ext) cs) (.sequence ext n fs)
  /-- A size of a SEQUENCE OF is written with numbers, imported names and parameters (C71). -/
  | sequenceOf {σ : Scope} {size ty cs ns lb ub ext t} : Bare cs → InScope (σ.Imports ms) ns →
      Sized ns (size.map fun c => [c]) lb ub ext → Describes lax ms σ ty t →
      Describes lax ms σ (.mk (.sequenceOf size ty) cs) (.sequenceOf lb ub ext t)
  | choice {σ root cs as} : Bare cs → root ≠ [] → DescribesAlts lax ms σ false 0 root .nil as →
      Describes lax ms σ (.mk (.choice root none) cs) (.choice 0 ((root.length : Int) - 1) false as)
  /-- The additions are numbered from 0 again. -/
  | extensibleChoice {σ root groups cs bs as} : Bare cs → root ≠ [] →
      DescribesAlts lax ms σ true 0 (groups.flatMap fun | .mk _ alts => alts) .nil bs →
      DescribesAlts lax ms σ false 0 root bs as →
      Describes lax ms σ (.mk (.choice root (some groups)) cs) (.choice 0 ((root.length : Int) - 1) true as)
  /-- An instance of a parameterized type is what the type is with the actual parameters in it. All names in it
  are parameters or occur in the parameterized type. -/
  | parameterized {σ : Scope} {P ps cs N body expand ty t} : Bare cs → σ.Sees ms P N ⟨.type body, some expand⟩ →
      expand ps = .ok ty → (∀ r ∈ ty.refs, r ∈ ps.map ActualParam.text ∨ r ∈ body.refs) →
      Describes lax ms (.inst (ps.map ActualParam.text) σ N) ty t →
      Describes lax ms σ (.mk (.parameterized P ps) cs) t
  /-- A SEQUENCE of fields of a class. -/
  | table {σ T comps ext cs fs} : Bare cs → comps ≠ [] → TableIn ms σ T → DescribesTable lax ms T comps fs →
      Describes lax ms σ (.mk (.sequence comps [] ext) cs) (.sequence ext 0 fs)
  /-- If the set has no objects, hampi drops the components. -/
  | emptyTable {σ : Scope} {id cls field k ks opt d comps ext cs S c N scls root add} : lax = true → Bare cs →
      TableOf k S c → σ.Sees ms S N ⟨.objectSet scls root add, none⟩ → Objects ms scls N (root ++ add) [] →
      Describes lax ms σ
        (.mk (.sequence (.mk id (.mk (.classField cls field) (some (k :: ks))) opt d :: comps) [] ext) cs)
        (.sequence ext 0 .nil)

/-- The components of a SEQUENCE; the next optional one has number `i`, the last one `n - 1`. -/
inductive DescribesFields (lax : Bool) (ms : List Module) : Scope → Nat → List SeqComponent → Nat → Fields → Prop
  | nil {σ n} : DescribesFields lax ms σ n [] n .nil
  /-- hampi treats a DEFAULT component like one that is required. -/
  | required {σ i id ty d rest n t fs} : d = none ∨ lax = true → Describes lax ms σ ty t →
      DescribesFields lax ms σ i rest n fs →
      DescribesFields lax ms σ i (.mk id ty false d :: rest) n (.required false t fs)
  | optional {σ i id ty rest n t fs} : Describes lax ms σ ty t → DescribesFields lax ms σ (i + 1) rest n fs →
      DescribesFields lax ms σ i (.mk id ty true none :: rest) n (.optional i t fs)

/-- Alternatives of a CHOICE, numbered from `i` on, in front of others. -/
inductive DescribesAlts (lax : Bool) (ms : List Module) : Scope → Bool → Nat → List Component → Alts → Alts → Prop
  | nil {σ x i rest} : DescribesAlts lax ms σ x i [] rest rest
  | cons {σ x i id ty comps rest t as} : Describes lax ms σ ty t →
      DescribesAlts lax ms σ x (i + 1) comps rest as →
      DescribesAlts lax ms σ x i (.mk id ty :: comps) rest (.cons i x t as)

/-- The fields of a class in a SEQUENCE, constrained by an object set. -/
inductive DescribesTable (lax : Bool) (ms : List Module) : ObjectTable → List SeqComponent → Fields → Prop
  | nil {T} : DescribesTable lax ms T [] .nil
  /-- The field that identifies an object. -/
  | key {T : ObjectTable} {ty t k rest fs id opt d w} : TableOf k T.set none →
      (T.unique, .fixedTypeValue id ty true opt d w) ∈ T.fields → Describes lax ms (.module T.home) ty t →
      DescribesTable lax ms T rest fs →
      DescribesTable lax ms T (.mk T.key (.mk (.classField T.cls T.unique) (some [k])) false none :: rest)
        (.required true t fs)
  /-- Another field with a value, in every object. -/
  | value {T : ObjectTable} {f field ty t k rest fs id u opt d w} : TableOf k T.set (some T.key) →
      (field, .fixedTypeValue id ty u opt d w) ∈ T.fields →
      (∀ o ∈ T.objects, ∃ ty v, (field, .fixedTypeValue ty v) ∈ o.2) → Describes lax ms (.module T.home) ty t →
      DescribesTable lax ms T rest fs →
      DescribesTable lax ms T (.mk f (.mk (.classField T.cls field) (some [k])) false none :: rest)
        (.required false t fs)
  /-- A field with a type: an open type. -/
  | openType {T : ObjectTable} {f field k l as rest fs id opt d w} : TableOf k T.set (some T.key) →
      (field, .type id opt d w) ∈ T.fields → Alternatives ms T field l → DescribesOpen lax ms l as →
      DescribesTable lax ms T rest fs →
      DescribesTable lax ms T (.mk f (.mk (.classField T.cls field) (some [k])) false none :: rest)
        (.required false (.openType as) fs)

/-- The alternatives of an open type, identified by their keys. -/
inductive DescribesOpen (lax : Bool) (ms : List Module) : List (Text × Int × Module × AsnType) → Alts → Prop
  | nil : DescribesOpen lax ms [] .nil
  | cons {name} {k : Nat} {N ty l t as} : Describes lax ms (.module N) ty t → DescribesOpen lax ms l as →
      DescribesOpen lax ms ((name, (k : Int), N, ty) :: l) (.cons k false t as)

end

/-! ## Schemas -/

/-- The value of a field of an object written in the module `M`, of the type `ty` written in the module `K` of the
class: an imported value, a number, or, if the type is an enumeration, a name that is not defined. -/
inductive FieldValue (ms : List Module) (M K : Module) (ty : AsnType) : Text → Prop
  | named {v N vty num} : Imports ms M v N ⟨.value vty num, none⟩ → FieldValue ms M K ty v
  | number {v k named} : Numeral v k → fits128 k → Behind ms K ty (.integer named) → FieldValue ms M K ty v
  | enumerated {v vs marker add} : (∀ N ∈ ms, ∀ d, (v, d) ∉ N.definitions) →
      Behind ms K ty (.enumerated vs marker add) → FieldValue ms M K ty v

/-- A field of an object of the class with the fields `cf`, defined in `K`: a type with a meaning, or a value of the
type that the class has for it. -/
inductive ProperField (ms : List Module) (M K : Module) (cf : List (Text × ClassField)) : Text × ObjectField → Prop
  | type {f ty t id opt d w} : (f, .type id opt d w) ∈ cf → Describes true ms (.module M) ty t →
      ProperField ms M K cf (f, .type (some ty))
  | value {f ty v id u opt d w} : (f, .fixedTypeValue id ty u opt d w) ∈ cf → FieldValue ms M K ty v →
      ProperField ms M K cf (f, .fixedTypeValue ty (some v))

/-- An object of the class, written in the module `M`. -/
def ProperObject (ms : List Module) (M K : Module) (cf : List (Text × ClassField)) (fs : List (Text × ObjectField)) :
    Prop := (fs.map (·.1)).Nodup ∧ ∀ f ∈ fs, ProperField ms M K cf f

/-- If the class has a UNIQUE field, it has only one, and the object has a key. -/
def ProperKey (ms : List Module) (cf : List (Text × ClassField)) (o : Written) : Prop :=
  (∀ f id ty opt d w, (f, .fixedTypeValue id ty true opt d w) ∉ cf) ∨
    ∃ u name k, UniqueField cf u ∧ KeyOf ms o u name k

/-- An element of an object set of the class `cls`, written in the module `M`. -/
inductive ProperElement (ms : List Module) (M : Module) (cls : Text) (K : Module) (cf : List (Text × ClassField)) :
    SetElement → Prop
  | setRef {r N root add} : Sees ms M r N ⟨.objectSet cls root add, none⟩ → ProperElement ms M cls K cf (.setRef r)
  | objectRef {r N fs} : Sees ms M r N ⟨.object cls (.fields fs), none⟩ → ProperKey ms cf (N, fs) →
      ProperElement ms M cls K cf (.objectRef r)
  | object {fs} : ProperObject ms M K cf fs → ProperKey ms cf (M, fs) →
      ProperElement ms M cls K cf (.object (.fields fs))

/-- The definition of `x` in the module `M`: a type with a meaning; a parameterized type; a value, whose name begins
with a small letter, given by a number; a class; an object that uses only types of other modules; an object set. -/
inductive ProperDefinition (ms : List Module) (M : Module) (x : Text) : Definition → Prop
  | type {ty t} : Describes true ms (.module M) ty t → ProperDefinition ms M x ⟨.type ty, none⟩
  | parameterized {body expand} : ProperDefinition ms M x ⟨.type body, some expand⟩
  | value {ty num t v} : (∃ c cs, x = c :: cs ∧ c.isLower = true) → Describes true ms (.module M) ty t →
      DefinesNumber ms M (.value ty num) v → ProperDefinition ms M x ⟨.value ty num, none⟩
  | class {cf} : (cf.map (·.1)).Nodup →
      (∀ f id ty u opt d w, (f, .fixedTypeValue id ty u opt d w) ∈ cf → ∃ t, Describes true ms (.module M) ty t) →
      ProperDefinition ms M x ⟨.class cf, none⟩
  | object {cls K cf fs} : Sees ms M cls K ⟨.class cf, none⟩ → ProperObject ms M K cf fs →
      (∀ f ty, (f, .type (some ty)) ∈ fs → ∀ r ∈ ty.refs, ∀ d, (r, d) ∉ M.definitions) →
      ProperDefinition ms M x ⟨.object cls (.fields fs), none⟩
  | objectSet {cls K cf root add} : Sees ms M cls K ⟨.class cf, none⟩ →
      (∀ e ∈ root ++ add, ProperElement ms M cls K cf e) →
      ProperDefinition ms M x ⟨.objectSet cls root add, none⟩

/-- A schema in which every definition has a meaning: the names of modules and definitions are different, no name is
both defined and imported, every module that is imported from is there, no module imports from itself, directly or
through others, and no definition of a module uses itself, directly or through others. -/
structure ProperSchema (ms : List Module) : Prop where
  modules : (ms.map Module.name).Nodup
  definitions : ∀ M ∈ ms, (M.definitions.map (·.1)).Nodup
  distinct : DistinctDefinitions ms
  names : ∀ M ∈ ms, ∀ d ∈ M.definitions, IsName d.1
  imports : ∀ M ∈ ms, ∀ i ∈ M.imports, (∃ N ∈ ms, N.name = i.2) ∧ ∀ d ∈ M.definitions, d.1 ≠ i.1
  order : ∃ rank : Text → Nat, ∀ M ∈ ms, ∀ i ∈ M.imports, rank i.2 < rank M.name
  acyclic : ∀ M ∈ ms, ∃ rank : Text → Nat, ∀ d ∈ M.definitions, ∀ e ∈ M.definitions, e.1 ∈ d.2.kind.refs →
    rank e.1 < rank d.1
  proper : ∀ M ∈ ms, ∀ d ∈ M.definitions, ProperDefinition ms M d.1 d.2

/-! ## Objects as they are written -/

/-- The definition with its objects read, as objects of the class that can be seen in the module `M`. -/
inductive ReadDefinition (ms : List Module) (M : Module) : Text × Definition → Text × Definition → Prop
  | object {x cls s K cf fs} : Sees ms M cls K ⟨.class cf, none⟩ → M.readObject s cf = .ok (.fields fs) →
      ReadDefinition ms M (x, ⟨.object cls (.input s), none⟩) (x, ⟨.object cls (.fields fs), none⟩)
  | objectSet {x cls root add K cf root' add'} : Sees ms M cls K ⟨.class cf, none⟩ →
      M.readSet (root, add) cf = .ok (root', add') →
      ReadDefinition ms M (x, ⟨.objectSet cls root add, none⟩) (x, ⟨.objectSet cls root' add', none⟩)
  | other {x d} : (∀ cls v, d.kind ≠ .object cls v) → (∀ cls root add, d.kind ≠ .objectSet cls root add) →
      ReadDefinition ms M (x, d) (x, d)

/-- The module with its objects read. -/
structure ReadModule (ms : List Module) (M M' : Module) : Prop where
  name : M'.name = M.name
  imports : M'.imports = M.imports
  definitions : All2 (ReadDefinition ms M) M.definitions M'.definitions

/-- The modules with their objects read. -/
def ReadAs (ms ms' : List Module) : Prop := All2 (ReadModule ms) ms ms'

end Hampi.Compiler.Spec
