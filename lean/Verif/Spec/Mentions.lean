import Verif.Compiler.Resolve
/-!
# The names a definition mentions

Where the name of a definition can stand in the text of another one. Some of these places are not looked at when the
order of definitions is determined: they are the ones with `hidden = true`. `InDefinition true d x` says that `x` stands
anywhere in `d`, `InDefinition false d x` that it stands in one of the other places.
-/
namespace Hampi.Compiler.Spec

/-- `x` is `t` without the characters `p` around it. -/
def Around (p : Char → Prop) (t x : Text) : Prop :=
  ∃ a b, t = a ++ (x ++ b) ∧ (∀ c ∈ a, p c) ∧ (∀ c ∈ b, p c) ∧ (∀ c, x.head? = some c → ¬ p c) ∧ ∀ c, x.getLast? = some c → ¬ p c

/-- A curly bracket. -/
def Curly (c : Char) : Prop := c = '{' ∨ c = '}'

/-- White space. -/
def White (c : Char) : Prop := c.isWhitespace = true

/-- `x` is `t`, or `t` is `x` in curly brackets. -/
def Bracketed (t x : Text) : Prop := ∃ y, Around Curly t y ∧ Around White y x

mutual

/-- In a type with its constraints. -/
inductive InType (hidden : Bool) : AsnType → Text → Prop
  | kind {k cs x} : InKind hidden k x → InType hidden (.mk k cs) x
  | constraint {k cs c x} : c ∈ cs → InConstraint hidden c x → InType hidden (.mk k (some cs)) x

/-- In a type without its constraints. -/
inductive InKind (hidden : Bool) : Kind → Text → Prop
  | reference {x} : InKind hidden (.reference x) x
  | class {x f} : InKind hidden (.classField x f) x
  | parameterized {x ps} : InKind hidden (.parameterized x ps) x
  | parameter {t ps p x} : p ∈ ps → p.text = x → InKind hidden (.parameterized t ps) x
  | alternative {root adds i ty x} : .mk i ty ∈ root → InType hidden ty x → InKind hidden (.choice root adds) x
  | addedAlternative {root gs v cs i ty x} : .mk v cs ∈ gs → .mk i ty ∈ cs → InType hidden ty x →
      InKind hidden (.choice root (some gs)) x
  | component {root adds e i ty o d x} : .mk i ty o d ∈ root → InType hidden ty x →
      InKind hidden (.sequence root adds e) x
  | addedComponent {root gs e v cs i ty o d x} : .mk v cs ∈ gs → .mk i ty o d ∈ cs → InType hidden ty x →
      InKind hidden (.sequence root gs e) x
  | element {s ty x} : InType hidden ty x → InKind hidden (.sequenceOf s ty) x
  | size {c ty x} : hidden = true → InConstraint hidden c x → InKind hidden (.sequenceOf (some c) ty) x
  | default {root adds e i ty o x} : hidden = true → .mk i ty o (some x) ∈ root →
      InKind hidden (.sequence root adds e) x
  | addedDefault {root gs e v cs i ty o x} : hidden = true → .mk v cs ∈ gs → .mk i ty o (some x) ∈ cs →
      InKind hidden (.sequence root gs e) x
  | namedNumber {vs n x} : hidden = true → (n, .valueRef x) ∈ vs → InKind hidden (.integer (some vs)) x
  | namedBit {vs n x} : hidden = true → (n, .valueRef x) ∈ vs → InKind hidden (.bitString (some vs)) x
  | enumeration {root m ext n x} : hidden = true → ⟨n, some (.valueRef x)⟩ ∈ root ++ ext →
      InKind hidden (.enumerated root m ext) x

/-- In a constraint. -/
inductive InConstraint (hidden : Bool) : Constraint → Text → Prop
  | subtype {e x} : InSet hidden e x → InConstraint hidden (.subtype e) x
  | table {s x} : Bracketed s x → InConstraint hidden (.tableSimple s) x
  | relation {s i x} : Bracketed s x → InConstraint hidden (.tableRelation s i) x
  | containing {x} : hidden = true → InConstraint hidden (.contents x) x

/-- In a set of values. -/
inductive InSet (hidden : Bool) : ElementSet → Text → Prop
  | root {us add is e x} : is ∈ us → e ∈ is → InElements hidden e x → InSet hidden (.mk us add) x
  | additional {root us is e x} : is ∈ us → e ∈ is → InElements hidden e x → InSet hidden (.mk root (some us)) x

/-- In a part of a set of values. -/
inductive InElements (hidden : Bool) : Elements → Text → Prop
  | single {v x} : Bracketed v x → InElements hidden (.single v) x
  | contained {ty x} : InType hidden ty x → InElements hidden (.contained ty) x
  | lower {lo a hi b x} : Around White lo x → InElements hidden (.range lo a hi b) x
  | upper {lo a hi b x} : Around White hi x → InElements hidden (.range lo a hi b) x
  | size {e x} : InSet hidden e x → InElements hidden (.size e) x
  | alphabet {e x} : hidden = true → InSet hidden e x → InElements hidden (.alphabet e) x
  | set {e x} : InSet hidden e x → InElements hidden (.set e) x

end

/-- In a field of an object. -/
inductive InField (hidden : Bool) : ObjectField → Text → Prop
  | type {ty x} : InType hidden ty x → InField hidden (.type (some ty)) x
  | valueType {ty v x} : InType hidden ty x → InField hidden (.fixedTypeValue ty v) x
  | value {ty x} : hidden = true → InField hidden (.fixedTypeValue ty (some x)) x

/-- In an element of an object set. -/
inductive InElement (hidden : Bool) : SetElement → Text → Prop
  | setRef {x} : InElement hidden (.setRef x) x
  | objectRef {x} : InElement hidden (.objectRef x) x
  | field {fs n f x} : (n, f) ∈ fs → InField hidden f x → InElement hidden (.object (.fields fs)) x

/-- In a definition. -/
inductive InDefinition (hidden : Bool) : Assignment → Text → Prop
  | valueType {ty v x} : InType hidden ty x → InDefinition hidden (.value ty v) x
  | value {ty x} : hidden = true → InDefinition hidden (.value ty x) x
  | type {ty x} : InType hidden ty x → InDefinition hidden (.type ty) x
  | fieldType {fs n i ty u o d w x} : (n, .fixedTypeValue i ty u o d w) ∈ fs → InType hidden ty x →
      InDefinition hidden (.class fs) x
  | fieldDefault {fs n i ty u o w x} : hidden = true → (n, .fixedTypeValue i ty u o (some x) w) ∈ fs →
      InDefinition hidden (.class fs) x
  | fieldDefaultType {fs n i o ty w x} : hidden = true → (n, .type i o (some ty) w) ∈ fs → InType hidden ty x →
      InDefinition hidden (.class fs) x
  | setClass {x root add} : InDefinition hidden (.objectSet x root add) x
  | element {cls root add e x} : e ∈ root ++ add → InElement hidden e x → InDefinition hidden (.objectSet cls root add) x
  | class {x v} : InDefinition hidden (.object x v) x
  | object {cls fs n f x} : hidden = true → (n, f) ∈ fs → InField hidden f x →
      InDefinition hidden (.object cls (.fields fs)) x

/-- Among these definitions `k` mentions `x` in a place that is not hidden, and `x` is not imported. -/
def Refers (imports : List (Text × Text)) (defs : List (Text × Definition)) (k x : Text) : Prop :=
  (∃ d, (k, d) ∈ defs ∧ InDefinition false d.kind x) ∧ ∀ m, (x, m) ∉ imports

/-- One or more steps. -/
inductive Leads (R : Text → Text → Prop) : Text → Text → Prop
  | one {a b : Text} : R a b → Leads R a b
  | more {a b c : Text} : R a b → Leads R b c → Leads R a c

end Hampi.Compiler.Spec
