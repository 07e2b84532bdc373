import Verif.Spec.Notation
import Verif.Compiler.ParserDefs
/-!
# How ASN.1 definitions and modules are written

The relation of `Notation` continued, after X.680, X.681 and X.683: `ModulesNote ms ts` says that the
tokens `ts` are a way to write the modules `ms`. Of the model of the parser only the types of its
results are used.
-/
namespace Hampi.Compiler.Spec

/-- `m` holds the entries `xs`, no two with the same key, in the order of the keys. -/
def Table {α : Type} (m xs : List (Text × α)) : Prop :=
  m.Perm xs ∧ m.Pairwise fun a b => a.1 < b.1

/-! ## Classes (X.681 9) -/

/-- `OPTIONAL`, `DEFAULT` and what `P` writes, or nothing. -/
inductive EndingNote {α : Type} (P : α → Tokens → Prop) : Bool → Option α → Tokens → Prop
  | none : EndingNote P false none []
  | optional {t} : Word "OPTIONAL" t → EndingNote P true none [t]
  | default {t d ts} : Word "DEFAULT" t → P d ts → EndingNote P false (some d) (t :: ts)

/-- `UNIQUE` or nothing. -/
inductive UniqueNote : Bool → Tokens → Prop
  | none : UniqueNote false []
  | unique {t} : Word "UNIQUE" t → UniqueNote true [t]

/-- `&` and a small letter. -/
def ValueFieldName (x : Text) (t : Token) : Prop :=
  t.type = .andIdentifier ∧ t.text = x ∧ ∃ c cs, x = '&' :: c :: cs ∧ c.isLower = true

/-- `&` and a capital letter. -/
def TypeFieldName (x : Text) (t : Token) : Prop :=
  t.type = .andIdentifier ∧ t.text = x ∧ ∃ c cs, x = '&' :: c :: cs ∧ c.isUpper = true

/-- A field of a class: `&id Type UNIQUE`, `&Type OPTIONAL`. -/
inductive FieldNote : Text × ClassField → Tokens → Prop
  | value {x i ty ts u us o d vs} : ValueFieldName x i → TypeNote ty ts → UniqueNote u us →
      EndingNote ValueNote o d vs → (u = true → d = none) →
      FieldNote (x, .fixedTypeValue x ty u o d none) (i :: (ts ++ (us ++ vs)))
  | type {x i o d vs} : TypeFieldName x i → EndingNote TypeNote o d vs →
      FieldNote (x, .type x o d none) (i :: vs)

/-- Words that may not stand in a `WITH SYNTAX` (X.681 10.6, but for OCTET, which hampi accepts:
`C91_octet_violated`). -/
def notInSyntax : List String := [
  "BIT", "BOOLEAN", "CHARACTER", "CHOICE", "EMBEDDED", "END", "ENUMERATED", "EXTERNAL", "FALSE",
  "INSTANCE", "INTEGER", "INTERSECTION", "MINUS-INFINITY", "NULL", "OBJECT", "PLUS-INFINITY", "REAL",
  "RELATIVE-OID", "SEQUENCE", "SET", "TRUE", "UNION"]

/-- A word of a `WITH SYNTAX`. -/
def SyntaxWord (t : Token) : Prop :=
  (t.type = .identifier ∨ t.type = .keyword) ∧ ∀ w ∈ notInSyntax, t.text ≠ w.toList

/-- A bracket of this type, or nothing. -/
inductive BracketNote (type : TokenType) : Bool → Tokens → Prop
  | none : BracketNote type false []
  | some {t} : t.type = type → BracketNote type true [t]

/-- What stands between the curly brackets of a `WITH SYNTAX`, from some point on: is a square bracket
open there, and the fields with their words and whether they are in square brackets. -/
inductive SyntaxNote : Bool → List (Text × Text × Bool) → Tokens → Prop
  | last {g opens closes a ws x f z} : ¬ (g = true ∧ opens = true) → (closes = (g || opens)) →
      BracketNote .squareBegin opens a → (∀ t ∈ ws, SyntaxWord t) → f.type = .andIdentifier → f.text = x →
      BracketNote .squareEnd closes z →
      SyntaxNote g [(x, spaced ws, g || opens)] (a ++ (ws ++ f :: z))
  | field {g opens closes a ws x f z l us} : ¬ (g = true ∧ opens = true) →
      (closes = true → (g || opens) = true) →
      BracketNote .squareBegin opens a → (∀ t ∈ ws, SyntaxWord t) → f.type = .andIdentifier → f.text = x →
      BracketNote .squareEnd closes z → SyntaxNote ((g || opens) && !closes) l us →
      SyntaxNote g ((x, spaced ws, g || opens) :: l) (a ++ (ws ++ f :: (z ++ us)))

/-- May a value for the field be left out. -/
def mayBeLeftOut : ClassField → Prop
  | .type _ o d _ => o = true ∨ d ≠ none
  | .fixedTypeValue _ _ _ o d _ => o = true ∨ d ≠ none

/-- The field with the words of its syntax. -/
def withWords (w : Option Text) : ClassField → ClassField
  | .type i o d _ => .type i o d w
  | .fixedTypeValue i ty u o d _ => .fixedTypeValue i ty u o d w

/-- The words for the field `x`, if there are any. -/
def wordsFor (l : List (Text × Text × Bool)) (x : Text) : Option Text :=
  (l.find? fun e => e.1 = x).map fun e => e.2.1

/-- A class without a syntax. -/
inductive BareClassNote : ParsedDef → Tokens → Prop
  | mk {x i a k b fs ts e m} : ClassName x i → a.type = .assignment → Word "CLASS" k →
      b.type = .curlyBegin → Listed FieldNote fs ts → e.type = .curlyEnd → Table m fs →
      BareClassNote ⟨x, .class m, none⟩ (i :: a :: k :: b :: (ts ++ [e]))

/-! ## Object sets (X.681 12) -/

/-- An element of an object set. -/
inductive SetElementNote : SetElement → Tokens → Prop
  | objectRef {x i} : LowerName x i → SetElementNote (.objectRef x) [i]
  | setRef {x i} : UpperName x i → SetElementNote (.setRef x) [i]
  | object {v ts} : BracedValue v ts → SetElementNote (.object (.input v)) ts

/-- Elements of an object set, with `|` between them. -/
inductive SetElements : List SetElement → Tokens → Prop
  | one {e ts} : SetElementNote e ts → SetElements [e] ts
  | more {e ts u es us} : SetElementNote e ts → UnionSign u → SetElements es us →
      SetElements (e :: es) (ts ++ u :: us)

/-- What stands between the brackets of an object set. -/
inductive ObjectSetNote : List SetElement → List SetElement → Tokens → Prop
  | closed {es ts} : SetElements es ts → ObjectSetNote es [] ts
  | extensible {es ts c x} : SetElements es ts → c.type = .comma → x.type = .extension →
      ObjectSetNote es [] (ts ++ [c, x])
  | extended {es ts c x d fs us} : SetElements es ts → c.type = .comma → x.type = .extension →
      d.type = .comma → SetElements fs us → ObjectSetNote es fs (ts ++ c :: x :: d :: us)
  | empty {x} : x.type = .extension → ObjectSetNote [] [] [x]
  | onlyAdditions {x d fs us} : x.type = .extension → d.type = .comma → SetElements fs us →
      ObjectSetNote [] fs (x :: d :: us)

/-! ## Definitions -/

/-- A formal parameter: `Name`, `Governor : Name` or `Governor : name` (X.683 8.3). -/
inductive FormalNote : Text → Tokens → Prop
  | plain {x t} : UpperName x t → FormalNote x [t]
  | governed {g c x t} : (∃ y, UpperName y g) ∨ Word "INTEGER" g ∨ Word "BOOLEAN" g ∨ Word "NULL" g →
      c.type = .colon → LowerName x t ∨ UpperName x t → FormalNote x [g, c, t]

/-- A definition. -/
inductive DefNote : ParsedDef → Tokens → Prop
  | value {x i ty ts a v t} : LowerName x i → TypeNote ty ts → a.type = .assignment → WordValue v t →
      DefNote ⟨x, .value ty v, none⟩ (i :: (ts ++ [a, t]))
  | bracedValue {x i ty ts a v us} : LowerName x i → TypeNote ty ts →
      (∀ t ∈ ts.head?, ∀ y, ¬ ClassName y t) → a.type = .assignment → BracedValue v us →
      DefNote ⟨x, .value ty v, none⟩ (i :: (ts ++ a :: us))
  | type {x i a ty ts} : UpperName x i → a.type = .assignment → TypeNote ty ts →
      DefNote ⟨x, .type ty, none⟩ (i :: a :: ts)
  | parameterized {x i b ps ws e a ty ts} : UpperName x i → b.type = .curlyBegin →
      Listed FormalNote ps ws → e.type = .curlyEnd → a.type = .assignment → TypeNote ty ts →
      DefNote ⟨x, .type ty, some (ps, ts.map Token.unplaced)⟩ (i :: b :: (ws ++ e :: a :: ts))
  | classWithSyntax {x i a k b fs ts e w s c l us z m} : ClassName x i → a.type = .assignment →
      Word "CLASS" k → b.type = .curlyBegin → Listed FieldNote fs ts → e.type = .curlyEnd →
      Word "WITH" w → Word "SYNTAX" s → c.type = .curlyBegin → SyntaxNote false l us → z.type = .curlyEnd →
      (l.map (·.1)).Nodup → (∀ y ∈ l, ∃ f, (y.1, f) ∈ fs ∧ (y.2.2 = true → mayBeLeftOut f)) →
      Table m (fs.map fun f => (f.1, withWords (wordsFor l f.1) f.2)) →
      DefNote ⟨x, .class m, none⟩ (i :: a :: k :: b :: (ts ++ e :: w :: s :: c :: (us ++ [z])))
  | object {x i c y a v us} : LowerName x i → ClassName y c → a.type = .assignment → BracedValue v us →
      DefNote ⟨x, .object y (.input v), none⟩ (i :: c :: a :: us)
  | objectSet {x i c y a b r s ts e} : UpperName x i → ClassName y c → a.type = .assignment →
      b.type = .curlyBegin → ObjectSetNote r s ts → e.type = .curlyEnd →
      DefNote ⟨x, .objectSet y r s, none⟩ (i :: c :: a :: b :: (ts ++ [e]))

/-- Definitions, one after the other. A class without a syntax is not the last. -/
inductive DefsNote : List ParsedDef → Tokens → Prop
  | nil : DefsNote [] []
  | cons {d ts ds us} : DefNote d ts → DefsNote ds us → DefsNote (d :: ds) (ts ++ us)
  | bareClass {d ts ds us} : BareClassNote d ts → DefsNote ds us → ds ≠ [] → DefsNote (d :: ds) (ts ++ us)

/-! ## Modules -/

/-- A number of at most nine digits. -/
def SmallNumber (t : Token) : Prop :=
  t.type = .numberInt ∧ t.text ≠ [] ∧ t.text.length ≤ 9 ∧ ∀ c ∈ t.text, c.isDigit = true

/-- A component of an object identifier: `3`, `asn1 (1)`, or a known name. -/
inductive OidCompNote : Tokens → Prop
  | number {t} : SmallNumber t → OidCompNote [t]
  | named {x i b t e} : LowerName x i → b.type = .roundBegin → SmallNumber t → e.type = .roundEnd →
      OidCompNote [i, b, t, e]
  | known {w i} : w ∈ ["iso", "itu-t", "ccitt", "joint-iso-itu-t", "joint-iso-ccitt",
      "identified-organization", "network-operator", "administration", "question"] →
      LowerName w.toList i → OidCompNote [i]

/-- Components of an object identifier. -/
inductive OidComps : Tokens → Prop
  | nil : OidComps []
  | cons {ts us} : OidCompNote ts → OidComps us → OidComps (ts ++ us)

/-- An object identifier, or nothing. -/
inductive OidNote : Tokens → Prop
  | none : OidNote []
  | some {b ts e} : b.type = .curlyBegin → OidComps ts → e.type = .curlyEnd → OidNote (b :: (ts ++ [e]))

/-- `AUTOMATIC TAGS` and the like, or nothing. -/
inductive TagsNote : Tokens → Prop
  | none : TagsNote []
  | some {t u} : Word "EXPLICIT" t ∨ Word "IMPLICIT" t ∨ Word "AUTOMATIC" t → Word "TAGS" u →
      TagsNote [t, u]

/-- `a, b, C FROM Module { ... }`: each name with the module. -/
inductive FromNote : List (Text × Text) → Tokens → Prop
  | mk {ns ts f m i os} : Listed (fun x us => ∃ t : Token, us = [t] ∧ t.type = .identifier ∧ t.text = x) ns ts →
      Word "FROM" f → UpperName m i → OidNote os →
      FromNote (ns.map fun n => (n, m)) (ts ++ f :: i :: os)

/-- Several of them. -/
inductive FromsNote : List (Text × Text) → Tokens → Prop
  | one {l ts} : FromNote l ts → FromsNote l ts
  | more {l ts ms us} : FromNote l ts → FromsNote ms us → FromsNote (l ++ ms) (ts ++ us)

/-- The imports of a module. -/
inductive ImportsNote : List (Text × Text) → Tokens → Prop
  | none : ImportsNote [] []
  | some {i l ts z} : Word "IMPORTS" i → FromsNote l ts → z.type = .semiColon →
      ImportsNote l (i :: (ts ++ [z]))

/-- A module. -/
inductive ModuleNote : ParsedModule → Tokens → Prop
  | mk {x n os d gs a b l is ds ts e imports defs} : UpperName x n → OidNote os → Word "DEFINITIONS" d →
      TagsNote gs → a.type = .assignment → Word "BEGIN" b → ImportsNote l is → DefsNote ds ts →
      Word "END" e → Table imports l → Table defs (ds.map fun d => (d.id, d)) →
      ModuleNote ⟨x, imports, defs⟩ (n :: (os ++ d :: (gs ++ a :: b :: (is ++ (ts ++ [e])))))

/-- Modules, one after the other. -/
inductive ModulesNote : List ParsedModule → Tokens → Prop
  | one {m ts} : ModuleNote m ts → ModulesNote [m] ts
  | more {m ts ms us} : ModuleNote m ts → ModulesNote ms us → ModulesNote (m :: ms) (ts ++ us)

end Hampi.Compiler.Spec
