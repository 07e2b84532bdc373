import Verif.Compiler.Ast
/-!
# How ASN.1 types are written

A relation between parsed types and the tokens that write them, after X.680: `TypeNote ty ts` says that
the tokens `ts` are a way to write the type `ty`. It does not mention the parser. The positions of the
tokens are free. Notation that hampi reads differently from X.680, or does not read, is not in it; the
properties about it are stated separately.
-/
namespace Hampi.Compiler.Spec

abbrev Tokens := List Token

/-! ## Words and names -/

/-- A reserved word. -/
def Word (w : String) (t : Token) : Prop := t.type = .keyword ∧ t.text = w.toList

/-- The name of a value, component or alternative: an identifier that starts with a small letter. -/
def LowerName (x : Text) (t : Token) : Prop :=
  t.type = .identifier ∧ t.text = x ∧ ∃ c cs, x = c :: cs ∧ c.isLower = true

/-- The name of a type, module, class or object set: an identifier that starts with a capital letter
and is not reserved. -/
def UpperName (x : Text) (t : Token) : Prop :=
  t.type = .identifier ∧ t.text = x ∧ (∃ c cs, x = c :: cs ∧ c.isUpper = true) ∧
    ∀ kw ∈ KEYWORDS, x ≠ kw.toList

/-- The name of a class: no small letters. -/
def ClassName (x : Text) (t : Token) : Prop :=
  UpperName x t ∧ ∀ c ∈ x, c.isUpper = true ∨ c.isDigit = true ∨ c = '-'

/-- The name of a field of a class: `&` and a letter. -/
def FieldName (x : Text) (t : Token) : Prop :=
  t.type = .andIdentifier ∧ t.text = x ∧
    ∃ c cs, x = '&' :: c :: cs ∧ (c.isUpper = true ∨ c.isLower = true)

/-- `xs` one after the other, with commas between them. -/
inductive Listed {α : Type} (P : α → Tokens → Prop) : List α → Tokens → Prop
  | one {x ts} : P x ts → Listed P [x] ts
  | more {x ts c xs us} : P x ts → c.type = .comma → Listed P xs us → Listed P (x :: xs) (ts ++ c :: us)

/-! ## Values -/

/-- Tokens in which every opening bracket is closed and every closing bracket is opened. -/
inductive Balanced (b e : TokenType) : Tokens → Prop
  | nil : Balanced b e []
  | other {t ts} : t.type ≠ b → t.type ≠ e → Balanced b e ts → Balanced b e (t :: ts)
  | nest {x ts y us} : x.type = b → Balanced b e ts → y.type = e → Balanced b e us →
      Balanced b e (x :: (ts ++ y :: us))

/-- The texts of the tokens, with blanks between them. -/
def spaced (ts : Tokens) : Text := [' '].intercalate (ts.map Token.text)

/-- A value of one token. -/
def WordValue (v : Text) (t : Token) : Prop :=
  t.text = v ∧ (t.type = .identifier ∨ t.type = .numberInt ∨ t.type = .bitString ∨
    t.type = .hexString ∨ t.type = .tString)

/-- A value in curly brackets; it is kept as its text. -/
inductive BracedValue : Text → Tokens → Prop
  | mk {x ts y} : x.type = .curlyBegin → Balanced .curlyBegin .curlyEnd ts → y.type = .curlyEnd →
      BracedValue (spaced (x :: (ts ++ [y]))) (x :: (ts ++ [y]))

/-- A value. -/
inductive ValueNote : Text → Tokens → Prop
  | word {v t} : WordValue v t → ValueNote v [t]
  | braces {v ts} : BracedValue v ts → ValueNote v ts

/-! ## Types without components -/

/-- `(5)` or `(five)`. -/
inductive NumberNote : NamedValue → Tokens → Prop
  | number {b v e} : b.type = .roundBegin → v.type = .numberInt → e.type = .roundEnd →
      NumberNote (.number v.text) [b, v, e]
  | reference {b v e x} : b.type = .roundBegin → LowerName x v → e.type = .roundEnd →
      NumberNote (.valueRef x) [b, v, e]

/-- `five (5)`. -/
inductive NamedNote : Text × NamedValue → Tokens → Prop
  | mk {x i v ts} : LowerName x i → NumberNote v ts → NamedNote (x, v) (i :: ts)

/-- `five` or `five (5)` in an ENUMERATED. -/
inductive EnumNote : EnumValue → Tokens → Prop
  | plain {x i} : LowerName x i → EnumNote ⟨x, none⟩ [i]
  | numbered {x i v ts} : LowerName x i → NumberNote v ts → EnumNote ⟨x, some v⟩ (i :: ts)

/-- An actual parameter: `5`, `Name`, `name` or one of those in curly brackets. -/
inductive ParamNote : ActualParam → Tokens → Prop
  | single {t} : t.type = .numberInt ∨ t.type = .identifier → ParamNote (.single t.text) [t]
  | set {b t e} : b.type = .curlyBegin → t.type = .numberInt ∨ t.type = .identifier →
      e.type = .curlyEnd → ParamNote (.set t.text) [b, t, e]

/-- Types without components, without their constraints. -/
inductive SimpleNote : Kind → Tokens → Prop
  | integer {t} : Word "INTEGER" t → SimpleNote (.integer none) [t]
  | namedInteger {t b vs ts e} : Word "INTEGER" t → b.type = .curlyBegin → Listed NamedNote vs ts →
      e.type = .curlyEnd → SimpleNote (.integer (some vs)) (t :: b :: (ts ++ [e]))
  | bitString {t u} : Word "BIT" t → Word "STRING" u → SimpleNote (.bitString none) [t, u]
  | namedBitString {t u b vs ts e} : Word "BIT" t → Word "STRING" u → b.type = .curlyBegin →
      Listed NamedNote vs ts → e.type = .curlyEnd →
      SimpleNote (.bitString (some vs)) (t :: u :: b :: (ts ++ [e]))
  | octetString {t u} : Word "OCTET" t → Word "STRING" u → SimpleNote .octetString [t, u]
  | characterString {t u} : Word "CHARACTER" t → Word "STRING" u →
      SimpleNote (.characterString "CHARACTER-STRING".toList) [t, u]
  | objectIdentifier {t u} : Word "OBJECT" t → Word "IDENTIFIER" u →
      SimpleNote .objectIdentifier [t, u]
  | boolean {t} : Word "BOOLEAN" t → SimpleNote .boolean [t]
  | null {t} : Word "NULL" t → SimpleNote .null [t]
  | string {w t} : w ∈ ["VisibleString", "UTF8String", "IA5String", "PrintableString"] → Word w t →
      SimpleNote (.characterString w.toList) [t]
  | enumerated {t b vs ts e} : Word "ENUMERATED" t → b.type = .curlyBegin → Listed EnumNote vs ts →
      e.type = .curlyEnd → SimpleNote (.enumerated vs none []) (t :: b :: (ts ++ [e]))
  | extensible {t b vs ts c x e} : Word "ENUMERATED" t → b.type = .curlyBegin → Listed EnumNote vs ts →
      c.type = .comma → x.type = .extension → e.type = .curlyEnd →
      SimpleNote (.enumerated vs (some (vs.length + 1)) []) (t :: b :: (ts ++ [c, x, e]))
  | extended {t b vs ts c x d ws us e} : Word "ENUMERATED" t → b.type = .curlyBegin →
      Listed EnumNote vs ts → c.type = .comma → x.type = .extension → d.type = .comma →
      Listed EnumNote ws us → e.type = .curlyEnd →
      SimpleNote (.enumerated vs (some (vs.length + 1)) ws)
        (t :: b :: (ts ++ c :: x :: d :: (us ++ [e])))
  | reference {x t} : UpperName x t → SimpleNote (.reference x) [t]
  | external {x y t d u} : UpperName x t → d.type = .dot → d.text = ['.'] → UpperName y u →
      SimpleNote (.reference (x ++ '.' :: y)) [t, d, u]
  | classField {x y t d u} : ClassName x t → d.type = .dot → FieldName y u →
      SimpleNote (.classField x y) [t, d, u]
  | parameterized {x t b ps ts e} : UpperName x t → b.type = .curlyBegin → Listed ParamNote ps ts →
      e.type = .curlyEnd → SimpleNote (.parameterized x ps) (t :: b :: (ts ++ [e]))

/-- An end point of a range. -/
inductive EndNote : Text → Tokens → Prop
  | value {v t} : WordValue v t → EndNote v [t]
  | min {t} : Word "MIN" t → EndNote "MIN".toList [t]
  | max {t} : Word "MAX" t → EndNote "MAX".toList [t]

/-- `<` or nothing: is the end point itself in the range. -/
inductive OpenNote : Bool → Tokens → Prop
  | closed : OpenNote true []
  | open {t} : t.type = .lessThan → OpenNote false [t]

/-- `|` or UNION. -/
def UnionSign (t : Token) : Prop := t.type = .setUnionToken ∨ Word "UNION" t

/-- `^` or INTERSECTION. -/
def IntersectionSign (t : Token) : Prop := t.type = .setIntersectionToken ∨ Word "INTERSECTION" t

/-- The number of an addition group, with its colon. -/
inductive VersionNote : Option Text → Tokens → Prop
  | none : VersionNote none []
  | some {v c} : v.type = .numberInt → c.type = .colon → VersionNote (some v.text) [v, c]

/-! ## Types, components and constraints -/

/-- The additions of a CHOICE: the groups, and the alternatives outside of groups as the last group. -/
def additionsOf (extensible : Bool) (groups : List ChoiceGroup) (bare : List Component) :
    Option (List ChoiceGroup) :=
  if extensible then some (groups ++ if bare.isEmpty then [] else [.mk none bare]) else none

mutual

/-- Types with their constraints. -/
inductive TypeNote : AsnType → Tokens → Prop
  | type {k ts cs us} : KindNote k ts → ConstraintsNote cs us → TypeNote (.mk k (some cs)) (ts ++ us)
  | sequenceOf {t o ty us} : Word "SEQUENCE" t → Word "OF" o → TypeNote ty us →
      TypeNote (.mk (.sequenceOf none ty) (some [])) (t :: o :: us)
  | sizedSequenceOf {t c ts o ty us} : Word "SEQUENCE" t → ConstraintNote c ts → Word "OF" o →
      TypeNote ty us → TypeNote (.mk (.sequenceOf (some c) ty) (some [])) (t :: (ts ++ o :: us))

/-- Types without their constraints. -/
inductive KindNote : Kind → Tokens → Prop
  | simple {k ts} : SimpleNote k ts → KindNote k ts
  | emptySequence {t b e} : Word "SEQUENCE" t → b.type = .curlyBegin → e.type = .curlyEnd →
      KindNote (.sequence [] [] false) [t, b, e]
  | sequence {t b cs gs j ts e} : Word "SEQUENCE" t → b.type = .curlyBegin → SeqItems 0 cs gs j ts →
      e.type = .curlyEnd → KindNote (.sequence cs gs (0 < j)) (t :: b :: (ts ++ [e]))
  | choice {t b cs gs bs x ts e} : Word "CHOICE" t → b.type = .curlyBegin → ChoiceItems 0 cs gs bs x ts →
      e.type = .curlyEnd → KindNote (.choice cs (additionsOf x gs bs)) (t :: b :: (ts ++ [e]))

/-- What stands between the brackets of a SEQUENCE, from some point on: the number of `...` before that
point, the components, the addition groups, and the number of `...` in all. Components stand before the
first `...` and after the second, groups between them. -/
inductive SeqItems : Nat → List SeqComponent → List SeqGroup → Nat → Tokens → Prop
  | component {k c ts cs gs j us} : k ≠ 1 → SeqCompNote c ts → SeqMore k cs gs j us →
      SeqItems k (c :: cs) gs j (ts ++ us)
  | group {g ts cs gs j us} : SeqGroupNote g ts → SeqMore 1 cs gs j us →
      SeqItems 1 cs (g :: gs) j (ts ++ us)
  | marker {k x cs gs j us} : k < 2 → x.type = .extension → SeqMore (k + 1) cs gs j us →
      SeqItems k cs gs j (x :: us)

/-- Nothing, or a comma and more of a SEQUENCE. -/
inductive SeqMore : Nat → List SeqComponent → List SeqGroup → Nat → Tokens → Prop
  | done {k} : SeqMore k [] [] k []
  | more {k c cs gs j us} : c.type = .comma → SeqItems k cs gs j us → SeqMore k cs gs j (c :: us)

/-- A component of a SEQUENCE. -/
inductive SeqCompNote : SeqComponent → Tokens → Prop
  | required {x i ty ts} : LowerName x i → TypeNote ty ts → SeqCompNote (.mk x ty false none) (i :: ts)
  | optional {x i ty ts o} : LowerName x i → TypeNote ty ts → Word "OPTIONAL" o →
      SeqCompNote (.mk x ty true none) (i :: (ts ++ [o]))
  | default {x i ty ts d v us} : LowerName x i → TypeNote ty ts → Word "DEFAULT" d → ValueNote v us →
      SeqCompNote (.mk x ty false (some v)) (i :: (ts ++ d :: us))

/-- `[[ ... ]]` in a SEQUENCE. -/
inductive SeqGroupNote : SeqGroup → Tokens → Prop
  | mk {b v ts cs us e} : b.type = .additionGroupsBegin → VersionNote v ts → SeqComps cs us →
      e.type = .additionGroupsEnd → SeqGroupNote (.mk v cs) (b :: (ts ++ (us ++ [e])))

/-- Components of a SEQUENCE, with commas. -/
inductive SeqComps : List SeqComponent → Tokens → Prop
  | one {c ts} : SeqCompNote c ts → SeqComps [c] ts
  | more {c ts x cs us} : SeqCompNote c ts → x.type = .comma → SeqComps cs us →
      SeqComps (c :: cs) (ts ++ x :: us)

/-- What stands between the brackets of a CHOICE, from some point on: where that point is (0 before
`...`, 1 after it, 2 after an addition outside of a group), the root alternatives, the groups, the
alternatives outside of groups, and is there a `...`. -/
inductive ChoiceItems : Nat → List Component → List ChoiceGroup → List Component → Bool → Tokens → Prop
  | root {c ts cs gs bs x us} : CompNote c ts → ChoiceMore 0 cs gs bs x us →
      ChoiceItems 0 (c :: cs) gs bs x (ts ++ us)
  | marker {m gs bs x us} : m.type = .extension → ChoiceMore 1 [] gs bs x us →
      ChoiceItems 0 [] gs bs x (m :: us)
  | group {g ts gs bs x us} : ChoiceGroupNote g ts → ChoiceMore 1 [] gs bs x us →
      ChoiceItems 1 [] (g :: gs) bs x (ts ++ us)
  | bare {k c ts bs x us} : 0 < k → CompNote c ts → ChoiceMore 2 [] [] bs x us →
      ChoiceItems k [] [] (c :: bs) x (ts ++ us)

/-- Nothing, or a comma and more of a CHOICE. -/
inductive ChoiceMore : Nat → List Component → List ChoiceGroup → List Component → Bool → Tokens → Prop
  | done {k} : ChoiceMore k [] [] [] (0 < k) []
  | more {k c cs gs bs x us} : c.type = .comma → ChoiceItems k cs gs bs x us →
      ChoiceMore k cs gs bs x (c :: us)

/-- An alternative of a CHOICE. -/
inductive CompNote : Component → Tokens → Prop
  | mk {x i ty ts} : LowerName x i → TypeNote ty ts → CompNote (.mk x ty) (i :: ts)

/-- `[[ ... ]]` in a CHOICE. -/
inductive ChoiceGroupNote : ChoiceGroup → Tokens → Prop
  | mk {b v ts cs us e} : b.type = .additionGroupsBegin → VersionNote v ts → Comps cs us →
      e.type = .additionGroupsEnd → ChoiceGroupNote (.mk v cs) (b :: (ts ++ (us ++ [e])))

/-- Alternatives of a CHOICE, with commas. -/
inductive Comps : List Component → Tokens → Prop
  | one {c ts} : CompNote c ts → Comps [c] ts
  | more {c ts x cs us} : CompNote c ts → x.type = .comma → Comps cs us → Comps (c :: cs) (ts ++ x :: us)

/-- The constraints of a type. -/
inductive ConstraintsNote : List Constraint → Tokens → Prop
  | nil : ConstraintsNote [] []
  | cons {c ts cs us} : ConstraintNote c ts → ConstraintsNote cs us →
      ConstraintsNote (c :: cs) (ts ++ us)

/-- A constraint. `({Set})` is the constraint to the value `{ Set }`. -/
inductive ConstraintNote : Constraint → Tokens → Prop
  | subtype {e ts} : SetNote e ts → ConstraintNote (.subtype e) ts
  | relation {a b x s c d i e z} : a.type = .roundBegin → b.type = .curlyBegin → UpperName x s →
      c.type = .curlyEnd → d.type = .curlyBegin → i.type = .atComponentIdList → e.type = .curlyEnd →
      z.type = .roundEnd → ConstraintNote (.tableRelation x i.text) [a, b, s, c, d, i, e, z]
  | containing {a c x t z} : a.type = .roundBegin → Word "CONTAINING" c → UpperName x t →
      z.type = .roundEnd → ConstraintNote (.contents x) [a, c, t, z]

/-- A set of values, in brackets. -/
inductive SetNote : ElementSet → Tokens → Prop
  | closed {b us ts e} : b.type = .roundBegin → UnionNote us ts → e.type = .roundEnd →
      SetNote (.mk us none) (b :: (ts ++ [e]))
  | extensible {b us ts c x e} : b.type = .roundBegin → UnionNote us ts → c.type = .comma →
      x.type = .extension → e.type = .roundEnd → e.text = [')'] →
      SetNote (.mk us (some [])) (b :: (ts ++ [c, x, e]))
  | extended {b us ts c x d ws ss e} : b.type = .roundBegin → UnionNote us ts → c.type = .comma →
      x.type = .extension → d.type = .comma → UnionNote ws ss → e.type = .roundEnd →
      SetNote (.mk us (some ws)) (b :: (ts ++ c :: x :: d :: (ss ++ [e])))

/-- A union of intersections. -/
inductive UnionNote : List (List Elements) → Tokens → Prop
  | one {is ts} : InterNote is ts → UnionNote [is] ts
  | more {is ts u us ss} : InterNote is ts → UnionSign u → UnionNote us ss →
      UnionNote (is :: us) (ts ++ u :: ss)

/-- An intersection. -/
inductive InterNote : List Elements → Tokens → Prop
  | one {e ts} : ElementsNote e ts → InterNote [e] ts
  | more {e ts s es us} : ElementsNote e ts → IntersectionSign s → InterNote es us →
      InterNote (e :: es) (ts ++ s :: us)

/-- Values, ranges, sizes, alphabets and types as parts of a set of values. The name of a type is read
as a value; only types that start with a reserved word are read as types. -/
inductive ElementsNote : Elements → Tokens → Prop
  | single {v ts} : ValueNote v ts → ElementsNote (.single v) ts
  | range {lo ts a us r b vs hi ws} : EndNote lo ts → OpenNote a us → r.type = .rangeSeparator →
      OpenNote b vs → EndNote hi ws → ElementsNote (.range lo a hi b) (ts ++ (us ++ r :: (vs ++ ws)))
  | size {s e ts} : Word "SIZE" s → SetNote e ts → ElementsNote (.size e) (s :: ts)
  | alphabet {s e ts} : Word "FROM" s → SetNote e ts → ElementsNote (.alphabet e) (s :: ts)
  | contained {ty t ts} : TypeNote ty (t :: ts) → t.type = .keyword → ElementsNote (.contained ty) (t :: ts)

end

end Hampi.Compiler.Spec
