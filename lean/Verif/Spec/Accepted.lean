import Verif.Spec.NotationDefs
/-!
# The notation that is accepted

`AccModules ms ts`: the tokens `ts` write the modules `ms` in the notation that the parser takes. It is the notation of
`Notation` and `NotationDefs` with liberties, each marked "liberty" below; a text that uses one of them is not ASN.1,
or means something else in ASN.1. Nothing here mentions the parser.
-/
namespace Hampi.Compiler.Spec

/-- The reserved words that types start with. -/
def typeWords : List String := [
  "INTEGER", "BOOLEAN", "ENUMERATED", "NULL", "UTF8String", "IA5String", "PrintableString",
  "VisibleString", "OBJECT", "OCTET", "BIT", "CHARACTER", "SEQUENCE", "SET", "CHOICE"]

/-- What holds of every token of a text: reserved words are keywords and identifiers are not reserved, a dot is a dot,
the name of a field starts with `&`, a number does not start with `+`. -/
structure Genuine (t : Token) : Prop where
  word : ∀ w ∈ typeWords, t.text = w.toList → t.type = .keyword
  name : t.type = .identifier → ∀ kw ∈ KEYWORDS, t.text ≠ kw.toList
  dot : t.type = .dot → t.text = ['.']
  field : t.type = .andIdentifier → ∃ w, t.text = '&' :: w
  number : t.type = .numberInt → t.text.head? ≠ some '+'

/-- A token of this type, or nothing. -/
inductive Perhaps (type : TokenType) : Tokens → Prop
  | none : Perhaps type []
  | some {t} : t.type = type → Perhaps type [t]

/-- `xs` one after the other, each with or without a comma after it. -/
inductive Followed {α : Type} (P : α → Tokens → Prop) : List α → Tokens → Prop
  | nil : Followed P [] []
  | cons {x ts cs xs us} : P x ts → Perhaps .comma cs → Followed P xs us → Followed P (x :: xs) (ts ++ (cs ++ us))

/-- `xs` one after the other, with commas anywhere between, before and after them. -/
inductive Strewn {α : Type} (P : α → Tokens → Prop) : List α → Tokens → Prop
  | nil : Strewn P [] []
  | comma {c xs us} : c.type = .comma → Strewn P xs us → Strewn P xs (c :: us)
  | cons {x ts xs us} : P x ts → Strewn P xs us → Strewn P (x :: xs) (ts ++ us)

/-! ## Values -/

/-- Something in curly brackets, or (liberty) in round brackets; it is kept as its text. -/
inductive AccGroup : Text → Tokens → Prop
  | curly {v ts} : BracedValue v ts → AccGroup v ts
  | round {x ts y} : x.type = .roundBegin → Balanced .roundBegin .roundEnd ts → y.type = .roundEnd →
      AccGroup (spaced (x :: (ts ++ [y]))) (x :: (ts ++ [y]))

/-- A value. -/
inductive AccValue : Text → Tokens → Prop
  | word {v t} : WordValue v t → AccValue v [t]
  | group {v ts} : AccGroup v ts → AccValue v ts

/-! ## Types without components -/

/-- The name of a type. Liberty: `SET` is a name. -/
inductive AccName : Text → Tokens → Prop
  | plain {x t} : UpperName x t → AccName x [t]
  | external {x y t d u} : UpperName x t → d.type = .dot → UpperName y u → AccName (x ++ '.' :: y) [t, d, u]
  | set {t} : Word "SET" t → AccName "SET".toList [t]

/-- Types without components, without their constraints. Liberties: after OCTET and CHARACTER comes any token; commas
between the values of an ENUMERATED and between actual parameters are not required, and there may be more of them; a list
of actual parameters may be empty, and is ignored then. -/
inductive AccSimple : Kind → Tokens → Prop
  | integer {t} : Word "INTEGER" t → AccSimple (.integer none) [t]
  | namedInteger {t b vs ts e} : Word "INTEGER" t → b.type = .curlyBegin → Listed NamedNote vs ts →
      e.type = .curlyEnd → AccSimple (.integer (some vs)) (t :: b :: (ts ++ [e]))
  | bitString {t u} : Word "BIT" t → Word "STRING" u → AccSimple (.bitString none) [t, u]
  | namedBitString {t u b vs ts e} : Word "BIT" t → Word "STRING" u → b.type = .curlyBegin →
      Listed NamedNote vs ts → e.type = .curlyEnd →
      AccSimple (.bitString (some vs)) (t :: u :: b :: (ts ++ [e]))
  | octetString {t u} : Word "OCTET" t → AccSimple .octetString [t, u]
  | characterString {t u} : Word "CHARACTER" t → AccSimple (.characterString "CHARACTER-STRING".toList) [t, u]
  | objectIdentifier {t u} : Word "OBJECT" t → Word "IDENTIFIER" u → AccSimple .objectIdentifier [t, u]
  | boolean {t} : Word "BOOLEAN" t → AccSimple .boolean [t]
  | null {t} : Word "NULL" t → AccSimple .null [t]
  | string {w t} : w ∈ ["VisibleString", "UTF8String", "IA5String", "PrintableString"] → Word w t →
      AccSimple (.characterString w.toList) [t]
  | enumerated {t b vs ts e} : Word "ENUMERATED" t → b.type = .curlyBegin → Followed EnumNote vs ts → vs ≠ [] →
      e.type = .curlyEnd → AccSimple (.enumerated vs none []) (t :: b :: (ts ++ [e]))
  | extensible {t b vs ts x cs ws us e} : Word "ENUMERATED" t → b.type = .curlyBegin → Followed EnumNote vs ts →
      vs ≠ [] → x.type = .extension → Perhaps .comma cs → Followed EnumNote ws us → e.type = .curlyEnd →
      AccSimple (.enumerated vs (some (vs.length + 1)) ws) (t :: b :: (ts ++ x :: (cs ++ (us ++ [e]))))
  | reference {x ts} : AccName x ts → AccSimple (.reference x) ts
  | noParameters {x ts b us e} : AccName x ts → b.type = .curlyBegin → Strewn ParamNote [] us →
      e.type = .curlyEnd → AccSimple (.reference x) (ts ++ b :: (us ++ [e]))
  | parameterized {x ts b ps us e} : AccName x ts → b.type = .curlyBegin → Strewn ParamNote ps us → ps ≠ [] →
      e.type = .curlyEnd → AccSimple (.parameterized x ps) (ts ++ b :: (us ++ [e]))
  | classField {x y t d u} : ClassName x t → d.type = .dot → FieldName y u → AccSimple (.classField x y) [t, d, u]

/-- An end point of a range. Liberty: it may be in brackets. -/
inductive AccEnd : Text → Tokens → Prop
  | value {v ts} : AccValue v ts → AccEnd v ts
  | min {t} : Word "MIN" t → AccEnd "MIN".toList [t]
  | max {t} : Word "MAX" t → AccEnd "MAX".toList [t]

/-- `..`, or `<` and (liberty) any token. -/
inductive AccLower : Bool → Tokens → Prop
  | closed {t} : t.type = .rangeSeparator → AccLower true [t]
  | open {t u} : t.type = .lessThan → AccLower false [t, u]

mutual

/-- Types with their constraints. -/
inductive AccType : AsnType → Tokens → Prop
  | mk {k ts cs us} : AccKind k ts → AccConstraints cs us → AccType (.mk k (some cs)) (ts ++ us)

/-- Types without their constraints. -/
inductive AccKind : Kind → Tokens → Prop
  | simple {k ts} : AccSimple k ts → AccKind k ts
  | sequence {t b cs gs j ts e} : Word "SEQUENCE" t → b.type = .curlyBegin → AccSeqItems 0 cs gs j ts →
      e.type = .curlyEnd → AccKind (.sequence cs gs (0 < j)) (t :: b :: (ts ++ [e]))
  | choice {t b cs gs bs x ts e} : Word "CHOICE" t → b.type = .curlyBegin → AccChoiceItems false cs gs bs x ts →
      e.type = .curlyEnd → AccKind (.choice cs (additionsOf x gs bs)) (t :: b :: (ts ++ [e]))
  | sequenceOf {t o ty us} : Word "SEQUENCE" t → Word "OF" o → AccType ty us →
      AccKind (.sequenceOf none ty) (t :: o :: us)
  | sizedSequenceOf {t c ts o ty us} : Word "SEQUENCE" t → AccConstraint c ts → Word "OF" o → AccType ty us →
      AccKind (.sequenceOf (some c) ty) (t :: (ts ++ o :: us))

/-- What stands between the brackets of a SEQUENCE, from a point on before which `...` stands `k` times: the
components, the groups, and how often `...` stands in all. Liberties: commas stand anywhere or nowhere; `...` stands any
number of times; components after `...` are components like the others. Groups stand after exactly one `...`. -/
inductive AccSeqItems : Nat → List SeqComponent → List SeqGroup → Nat → Tokens → Prop
  | done {k} : AccSeqItems k [] [] k []
  | comma {k c cs gs j us} : c.type = .comma → AccSeqItems k cs gs j us → AccSeqItems k cs gs j (c :: us)
  | marker {k x cs gs j us} : x.type = .extension → AccSeqItems (k + 1) cs gs j us → AccSeqItems k cs gs j (x :: us)
  | component {k c ts cs gs j us} : AccSeqComp c ts → AccSeqItems k cs gs j us →
      AccSeqItems k (c :: cs) gs j (ts ++ us)
  | group {g ts cs gs j us} : AccSeqGroup g ts → AccSeqItems 1 cs gs j us → AccSeqItems 1 cs (g :: gs) j (ts ++ us)

/-- A component of a SEQUENCE. -/
inductive AccSeqComp : SeqComponent → Tokens → Prop
  | required {x i ty ts} : LowerName x i → AccType ty ts → AccSeqComp (.mk x ty false none) (i :: ts)
  | optional {x i ty ts o} : LowerName x i → AccType ty ts → Word "OPTIONAL" o →
      AccSeqComp (.mk x ty true none) (i :: (ts ++ [o]))
  | default {x i ty ts d v us} : LowerName x i → AccType ty ts → Word "DEFAULT" d → AccValue v us →
      AccSeqComp (.mk x ty false (some v)) (i :: (ts ++ d :: us))

/-- `[[ ... ]]` in a SEQUENCE. Liberty: commas are not required. -/
inductive AccSeqGroup : SeqGroup → Tokens → Prop
  | mk {b v ts cs us e} : b.type = .additionGroupsBegin → VersionNote v ts → AccSeqComps cs us → cs ≠ [] →
      e.type = .additionGroupsEnd → AccSeqGroup (.mk v cs) (b :: (ts ++ (us ++ [e])))

/-- Components of a SEQUENCE, each with or without a comma after it. -/
inductive AccSeqComps : List SeqComponent → Tokens → Prop
  | nil : AccSeqComps [] []
  | cons {c ts ms cs us} : AccSeqComp c ts → Perhaps .comma ms → AccSeqComps cs us →
      AccSeqComps (c :: cs) (ts ++ (ms ++ us))

/-- What stands between the brackets of a CHOICE, from a point on before which `...` stands or does not: the root
alternatives, the groups, the alternatives outside of groups after `...`, and is there a `...` at all. Liberties: commas
stand anywhere or nowhere. -/
inductive AccChoiceItems : Bool → List Component → List ChoiceGroup → List Component → Bool → Tokens → Prop
  | done {k} : AccChoiceItems k [] [] [] k []
  | comma {k c cs gs bs x us} : c.type = .comma → AccChoiceItems k cs gs bs x us → AccChoiceItems k cs gs bs x (c :: us)
  | marker {m gs bs us} : m.type = .extension → AccChoiceItems true [] gs bs true us →
      AccChoiceItems false [] gs bs true (m :: us)
  | root {c ts cs gs bs x us} : AccComp c ts → AccChoiceItems false cs gs bs x us →
      AccChoiceItems false (c :: cs) gs bs x (ts ++ us)
  | bare {c ts gs bs us} : AccComp c ts → AccChoiceItems true [] gs bs true us →
      AccChoiceItems true [] gs (c :: bs) true (ts ++ us)
  | group {g ts gs bs us} : AccChoiceGroup g ts → AccChoiceItems true [] gs bs true us →
      AccChoiceItems true [] (g :: gs) bs true (ts ++ us)

/-- An alternative of a CHOICE. -/
inductive AccComp : Component → Tokens → Prop
  | mk {x i ty ts} : LowerName x i → AccType ty ts → AccComp (.mk x ty) (i :: ts)

/-- `[[ ... ]]` in a CHOICE. Liberty: commas stand anywhere or nowhere. -/
inductive AccChoiceGroup : ChoiceGroup → Tokens → Prop
  | mk {b v ts cs us e} : b.type = .additionGroupsBegin → VersionNote v ts → AccComps cs us → cs ≠ [] →
      e.type = .additionGroupsEnd → AccChoiceGroup (.mk v cs) (b :: (ts ++ (us ++ [e])))

/-- Alternatives of a CHOICE, with commas anywhere. -/
inductive AccComps : List Component → Tokens → Prop
  | nil : AccComps [] []
  | comma {c xs us} : c.type = .comma → AccComps xs us → AccComps xs (c :: us)
  | cons {c ts cs us} : AccComp c ts → AccComps cs us → AccComps (c :: cs) (ts ++ us)

/-- The constraints of a type. -/
inductive AccConstraints : List Constraint → Tokens → Prop
  | nil : AccConstraints [] []
  | cons {c ts cs us} : AccConstraint c ts → AccConstraints cs us → AccConstraints (c :: cs) (ts ++ us)

/-- A constraint. -/
inductive AccConstraint : Constraint → Tokens → Prop
  | subtype {e ts} : AccSet e ts → AccConstraint (.subtype e) ts
  | table {a b x s c z} : a.type = .roundBegin → b.type = .curlyBegin → UpperName x s → c.type = .curlyEnd →
      z.type = .roundEnd → AccConstraint (.tableSimple x) [a, b, s, c, z]
  | relation {a b x s c d i e z} : a.type = .roundBegin → b.type = .curlyBegin → UpperName x s →
      c.type = .curlyEnd → d.type = .curlyBegin → i.type = .atComponentIdList → e.type = .curlyEnd →
      z.type = .roundEnd → AccConstraint (.tableRelation x i.text) [a, b, s, c, d, i, e, z]
  | containing {a c x t z} : a.type = .roundBegin → Word "CONTAINING" c → UpperName x t →
      z.type = .roundEnd → AccConstraint (.contents x) [a, c, t, z]

/-- A set of values, in brackets. -/
inductive AccSet : ElementSet → Tokens → Prop
  | closed {b us ts e} : b.type = .roundBegin → AccUnion us ts → us ≠ [] → e.type = .roundEnd →
      AccSet (.mk us none) (b :: (ts ++ [e]))
  | extensible {b us ts c x ds ws ss e} : b.type = .roundBegin → AccUnion us ts → us ≠ [] → c.type = .comma →
      x.type = .extension → Perhaps .comma ds → AccUnion ws ss → e.type = .roundEnd →
      AccSet (.mk us (some ws)) (b :: (ts ++ c :: x :: (ds ++ (ss ++ [e]))))

/-- A union of intersections. Liberty: signs for the union may stand before and after them, and more than one between
them. -/
inductive AccUnion : List (List Elements) → Tokens → Prop
  | nil : AccUnion [] []
  | one {is ts} : AccInter is ts → AccUnion [is] ts
  | sign {u us ss} : UnionSign u → AccUnion us ss → AccUnion us (u :: ss)
  | more {is ts u us ss} : AccInter is ts → UnionSign u → AccUnion us ss → AccUnion (is :: us) (ts ++ u :: ss)

/-- An intersection. Liberty: a sign for the intersection may stand before it. -/
inductive AccInter : List Elements → Tokens → Prop
  | plain {is ts} : AccElementsList is ts → AccInter is ts
  | led {s is ts} : IntersectionSign s → AccElementsList is ts → AccInter is (s :: ts)

/-- Elements with signs for the intersection between them. -/
inductive AccElementsList : List Elements → Tokens → Prop
  | one {e ts} : AccElements e ts → AccElementsList [e] ts
  | more {e ts s es us} : AccElements e ts → IntersectionSign s → AccElementsList es us →
      AccElementsList (e :: es) (ts ++ s :: us)

/-- Parts of a set of values. Liberty: SIZE and FROM without brackets after them are ignored. -/
inductive AccElements : Elements → Tokens → Prop
  | size {s e ts} : Word "SIZE" s → AccSet e ts → AccElements (.size e) (s :: ts)
  | alphabet {s e ts} : Word "FROM" s → AccSet e ts → AccElements (.alphabet e) (s :: ts)
  | ignored {s e ts} : Word "SIZE" s ∨ Word "FROM" s → (∀ t ∈ ts.head?, t.type ≠ .roundBegin) → AccPart e ts →
      AccElements e (s :: ts)
  | part {e ts} : AccPart e ts → AccElements e ts

/-- Values, ranges, sets and types as parts of a set of values. -/
inductive AccPart : Elements → Tokens → Prop
  | single {v ts} : ValueNote v ts → AccPart (.single v) ts
  | range {lo ts a us b vs hi ws} : AccEnd lo ts → AccLower a us → OpenNote b vs → AccEnd hi ws →
      AccPart (.range lo a hi b) (ts ++ (us ++ (vs ++ ws)))
  | set {e ts} : AccSet e ts → AccPart (.set e) ts
  | contained {ty t ts} : AccType ty (t :: ts) → t.type = .keyword → AccPart (.contained ty) (t :: ts)

end

/-! ## Classes and object sets -/

/-- A field of a class. -/
inductive AccField : Text × ClassField → Tokens → Prop
  | value {x i ty ts u us o d vs} : ValueFieldName x i → AccType ty ts → UniqueNote u us →
      EndingNote AccValue o d vs → (u = true → d = none) →
      AccField (x, .fixedTypeValue x ty u o d none) (i :: (ts ++ (us ++ vs)))
  | type {x i o d vs} : TypeFieldName x i → EndingNote AccType o d vs → AccField (x, .type x o d none) (i :: vs)

/-- What stands between the curly brackets of a `WITH SYNTAX`, from some point on: is a square bracket open there, and
the fields with their words and whether they are in square brackets. Liberties: the words are any tokens whose text is
not among the reserved words; a bracket may be opened again inside one, which changes nothing; a comma may stand after a
field. -/
inductive AccSyntax : Bool → List (Text × Text × Bool) → Tokens → Prop
  | nil : AccSyntax false [] []
  | cons {g opens closes a ws x f cs z l us} : BracketNote .squareBegin opens a →
      (∀ t ∈ ws, t.type ≠ .andIdentifier ∧ ∀ w ∈ notInSyntax, t.text ≠ w.toList) →
      f.type = .andIdentifier → f.text = x → Perhaps .comma cs → (closes = true → (g || opens) = true) →
      BracketNote .squareEnd closes z → AccSyntax ((g || opens) && !closes) l us →
      AccSyntax g ((x, spaced ws, g || opens) :: l) (a ++ (ws ++ f :: (cs ++ (z ++ us))))

/-- `m` holds for each name the last of the entries `xs` with this name, and nothing else, in the order of the names. -/
def LastOf {α : Type} (m xs : List (Text × α)) : Prop :=
  (∀ k v, (k, v) ∈ m ↔ (xs.filter fun e => e.1 == k).getLast? = some (k, v)) ∧ m.Pairwise fun a b => a.1 < b.1

/-- The last words for the field `x`, if there are any. -/
def lastWords (l : List (Text × Text × Bool)) (x : Text) : Option Text :=
  ((l.filter fun e => e.1 == x).getLast?).map fun e => e.2.1

/-- A class. Liberty: of two fields with the same name the last counts, and of two words for a field as well. -/
inductive AccClass : List (Text × ClassField) → Tokens → Prop
  | bare {k b fs ts e m} : Word "CLASS" k → b.type = .curlyBegin → Listed AccField fs ts → e.type = .curlyEnd →
      LastOf m fs → AccClass m (k :: b :: (ts ++ [e]))
  | withSyntax {k b fs ts e w s c l us z m} : Word "CLASS" k → b.type = .curlyBegin → Listed AccField fs ts →
      e.type = .curlyEnd → Word "WITH" w → Word "SYNTAX" s → c.type = .curlyBegin → AccSyntax false l us → l ≠ [] →
      z.type = .curlyEnd →
      (∀ y ∈ l, ∃ f, (fs.filter fun e => e.1 == y.1).getLast? = some (y.1, f) ∧ (y.2.2 = true → mayBeLeftOut f)) →
      LastOf m (fs.map fun f => (f.1, withWords (lastWords l f.1) f.2)) →
      AccClass m (k :: b :: (ts ++ e :: w :: s :: c :: (us ++ [z])))

/-- An element of an object set. -/
inductive AccElement : SetElement → Tokens → Prop
  | objectRef {x i} : LowerName x i → AccElement (.objectRef x) [i]
  | setRef {x i} : UpperName x i → AccElement (.setRef x) [i]
  | object {v ts} : AccGroup v ts → AccElement (.object (.input v)) ts

/-- What stands between the brackets of an object set, from a point on before which `...` stands or does not: the
elements before and after `...`. Liberty: commas and signs for the union stand anywhere or nowhere. -/
inductive AccSetItems : Bool → List SetElement → List SetElement → Tokens → Prop
  | done {k} : AccSetItems k [] [] []
  | comma {k c r a us} : c.type = .comma → AccSetItems k r a us → AccSetItems k r a (c :: us)
  | sign {k u r a us} : UnionSign u → AccSetItems k r a us → AccSetItems k r a (u :: us)
  | marker {x a us} : x.type = .extension → AccSetItems true [] a us → AccSetItems false [] a (x :: us)
  | root {e ts r a us} : AccElement e ts → AccSetItems false r a us → AccSetItems false (e :: r) a (ts ++ us)
  | added {e ts a us} : AccElement e ts → AccSetItems true [] a us → AccSetItems true [] (e :: a) (ts ++ us)

/-! ## Definitions and modules -/

/-- A formal parameter. Liberty: any type may govern it. -/
inductive AccFormal : Text → Tokens → Prop
  | plain {x t} : UpperName x t → AccFormal x [t]
  | governed {g c x t} : (∃ y, UpperName y g) ∨ (∃ w ∈ typeWords, Word w g) → c.type = .colon →
      LowerName x t ∨ UpperName x t → AccFormal x [g, c, t]

/-- A definition. Liberties: an object may be in round brackets; commas between formal parameters are not required. -/
inductive AccDef : ParsedDef → Tokens → Prop
  | value {x i ty ts a v us} : LowerName x i → AccType ty ts → a.type = .assignment → AccValue v us →
      AccDef ⟨x, .value ty v, none⟩ (i :: (ts ++ a :: us))
  | type {x i a ty ts} : UpperName x i → a.type = .assignment → AccType ty ts →
      AccDef ⟨x, .type ty, none⟩ (i :: a :: ts)
  | parameterized {x i b ps ws e a ty ts} : UpperName x i → b.type = .curlyBegin → Followed AccFormal ps ws → ps ≠ [] →
      e.type = .curlyEnd → a.type = .assignment → AccType ty ts →
      AccDef ⟨x, .type ty, some (ps, ts.map Token.unplaced)⟩ (i :: b :: (ws ++ e :: a :: ts))
  | class {x i a m ts} : ClassName x i → a.type = .assignment → AccClass m ts →
      AccDef ⟨x, .class m, none⟩ (i :: a :: ts)
  | object {x i c y a v us} : LowerName x i → ClassName y c → a.type = .assignment → AccGroup v us →
      AccDef ⟨x, .object y (.input v), none⟩ (i :: c :: a :: us)
  | objectSet {x i c y a b r s ts e} : UpperName x i → ClassName y c → a.type = .assignment → b.type = .curlyBegin →
      AccSetItems false r s ts → e.type = .curlyEnd →
      AccDef ⟨x, .objectSet y r s, none⟩ (i :: c :: a :: b :: (ts ++ [e]))

/-- Definitions, one after the other. -/
inductive AccDefs : List ParsedDef → Tokens → Prop
  | nil : AccDefs [] []
  | cons {d ts ds us} : AccDef d ts → AccDefs ds us → AccDefs (d :: ds) (ts ++ us)

/-- A number below 2^32 in decimal digits. -/
def Decimal (t : Token) : Prop :=
  t.type = .numberInt ∧ t.text ≠ [] ∧ (∀ c ∈ t.text, c.isDigit = true) ∧
    t.text.foldl (fun n c => 10 * n + (c.toNat - '0'.toNat)) 0 < 2 ^ 32

/-- A component of an object identifier. -/
inductive AccOidComp : Tokens → Prop
  | number {t} : Decimal t → AccOidComp [t]
  | named {x i b t e} : LowerName x i → b.type = .roundBegin → Decimal t → e.type = .roundEnd → AccOidComp [i, b, t, e]
  | known {w i} : w ∈ ["iso", "itu-t", "ccitt", "joint-iso-itu-t", "joint-iso-ccitt",
      "identified-organization", "network-operator", "administration", "question"] →
      LowerName w.toList i → AccOidComp [i]

/-- Components of an object identifier. -/
inductive AccOidComps : Tokens → Prop
  | nil : AccOidComps []
  | cons {ts us} : AccOidComp ts → AccOidComps us → AccOidComps (ts ++ us)

/-- An object identifier, or nothing. -/
inductive AccOid : Tokens → Prop
  | none : AccOid []
  | some {b ts e} : b.type = .curlyBegin → AccOidComps ts → e.type = .curlyEnd → AccOid (b :: (ts ++ [e]))

/-- `a, b, C FROM Module { ... }`: each name with the module. Liberty: before FROM stand any tokens, and all identifiers
among them are names. -/
inductive AccFrom : List (Text × Text) → Tokens → Prop
  | mk {ts f m i os} : (∀ t ∈ ts, ¬ Word "FROM" t) → Word "FROM" f → UpperName m i → AccOid os →
      AccFrom (((ts.filter fun t => t.type == .identifier).map Token.text).map fun n => (n, m)) (ts ++ f :: i :: os)

/-- Several of them, at least one. -/
inductive AccFroms : List (Text × Text) → Tokens → Prop
  | one {l ts} : AccFrom l ts → AccFroms l ts
  | more {l ts ms us} : AccFrom l ts → AccFroms ms us → AccFroms (l ++ ms) (ts ++ us)

/-- The imports of a module. -/
inductive AccImports : List (Text × Text) → Tokens → Prop
  | none : AccImports [] []
  | some {i l ts z} : Word "IMPORTS" i → AccFroms l ts → z.type = .semiColon → AccImports l (i :: (ts ++ [z]))

/-- A module. Liberty: of two definitions of a name the last counts. No name is imported twice. -/
inductive AccModule : ParsedModule → Tokens → Prop
  | mk {x n os d gs a b l is ds ts e imports defs} : UpperName x n → AccOid os → Word "DEFINITIONS" d →
      TagsNote gs → a.type = .assignment → Word "BEGIN" b → AccImports l is → AccDefs ds ts →
      Word "END" e → Table imports l → LastOf defs (ds.map fun d => (d.id, d)) →
      AccModule ⟨x, imports, defs⟩ (n :: (os ++ d :: (gs ++ a :: b :: (is ++ (ts ++ [e])))))

/-- Modules, one after the other, at least one. -/
inductive AccModules : List ParsedModule → Tokens → Prop
  | one {m ts} : AccModule m ts → AccModules [m] ts
  | more {m ts ms us} : AccModule m ts → AccModules ms us → AccModules (m :: ms) (ts ++ us)

end Hampi.Compiler.Spec
