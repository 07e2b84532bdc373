import Verif.Compiler.Constraints
/-!
# The parser: types and values (asn-compiler/src/parser)

The code keeps the number of tokens consumed and works on `&tokens[consumed..]`; here a parser returns
what is left of the tokens. A slice that starts past the end panics; the two places where that can
happen are modelled. Loops and recursion are bounded by the number `n`; exceeding it is `.diverge`, so
that a call never ends when it is `.diverge` for every `n`.

Messages in errors are left out. The letters at the start of identifiers are ASCII, as the tokenizer
makes them.
-/
namespace Hampi.Compiler

/-- What a parser function of the code returns, with the rest of the tokens in place of `consumed`. -/
abbrev Parser (α : Type) := List Token → Out Err (α × List Token)

/-- Use of a `Result` in `match` or `if let`, where an error is dropped. -/
def Out.attempt {ε α : Type} : Out ε α → Out ε (Option α)
  | .ok a => .ok (some a)
  | .err _ => .ok none
  | .panic => .panic
  | .diverge => .diverge

/-! ## Tokens (tokenizer/mod.rs) -/

/-- The functions made by `create_is_tokentype_fns!` (tokenizer/mod.rs:197-226). -/
def Token.is (type : TokenType) (t : Token) : Bool := t.type == type

/-- `str::starts_with` for a predicate. -/
def startsWith (p : Char → Bool) : Text → Bool
  | c :: _ => p c
  | [] => false

/-- `is_value_reference` (tokenizer/mod.rs:231-233), `is_object_reference` (258-260). Here and below
`char::is_lowercase` and `is_uppercase` are those of ASCII: the first character of a word or a number is an ASCII
character, also where a parameter has been replaced. -/
def Token.isValueRef (t : Token) : Bool := t.is .identifier && startsWith Char.isLower t.text

/-- `is_type_reference` (tokenizer/mod.rs:236-238), `is_module_reference` (241-243),
`is_object_set_reference` (263-265). -/
def Token.isTypeRef (t : Token) : Bool := t.is .identifier && startsWith Char.isUpper t.text

/-- `is_object_class_reference` (tokenizer/mod.rs:246-252). -/
def Token.isClassRef (t : Token) : Bool :=
  t.isTypeRef && t.text.all fun c => c.isUpper || c.isDigit || c == '-'

/-- `is_type_field_reference` (tokenizer/mod.rs:268-270). The text of such a token is not empty. -/
def Token.isTypeField (t : Token) : Bool :=
  t.is .andIdentifier && startsWith Char.isUpper (t.text.drop 1)

/-- `is_value_field_reference` (tokenizer/mod.rs:272-274). -/
def Token.isValueField (t : Token) : Bool :=
  t.is .andIdentifier && startsWith Char.isLower (t.text.drop 1)

/-- `is_given_keyword` (tokenizer/mod.rs:295-297). -/
def Token.isKeyword (kw : String) (t : Token) : Bool := t.is .keyword && t.text == kw.toList

/-- `BASE_TYPES` and `CONSTRUCTED_TYPES` (tokenizer/mod.rs:96-112). -/
def BUILTIN_TYPES : List String := [
  "INTEGER", "BOOLEAN", "ENUMERATED", "NULL", "UTF8String", "IA5String", "PrintableString",
  "VisibleString", "OBJECT", "OCTET", "BIT", "CHARACTER", "SEQUENCE", "SET", "CHOICE"]

/-- `is_asn_builtin_type` (tokenizer/mod.rs:300-303). -/
def Token.isBuiltin (t : Token) : Bool := BUILTIN_TYPES.any fun s => t.text == s.toList

/-- `concat` (tokenizer/mod.rs:318-324). -/
def concatTexts (ts : List Token) (join : Text) : Text := join.intercalate (ts.map Token.text)

/-- `is_set_intersection` (tokenizer/mod.rs:327-329). -/
def Token.isIntersection (t : Token) : Bool := t.is .setIntersectionToken || t.isKeyword "INTERSECTION"

/-- `is_set_union` (tokenizer/mod.rs:332-334). -/
def Token.isUnion (t : Token) : Bool := t.is .setUnionToken || t.isKeyword "UNION"

/-! ## Looking at the next tokens (parser/utils.rs) -/

/-- `expect_token`, `expect_keyword`, `expect_one_of_tokens`, `expect_one_of_keywords`
(parser/utils.rs:7-13, 28-55): is the next token such a token. -/
def expect (p : Token → Bool) : List Token → Out Err Bool
  | [] => .err .unexpectedEnd
  | t :: _ => .ok (p t)

/-- `expect_tokens` and `expect_keywords` (parser/utils.rs:16-25, 58-67). -/
def expectAll (ps : List (Token → Bool)) (ts : List Token) : Out Err Bool :=
  if ts.length < ps.length then .err .unexpectedEnd
  else .ok ((ps.zip ts).all fun x => x.1 x.2)

/-- `if expect_token(..)? { consumed += 1 }`. -/
def skip (p : Token → Bool) : Parser Bool
  | [] => .err .unexpectedEnd
  | t :: ts => if p t then .ok (true, ts) else .ok (false, t :: ts)

/-- `if !expect_token(..)? { return Err(unexpected_token!(..)) }`, then `consumed += 1`. -/
def need (p : Token → Bool) : Parser Token
  | [] => .err .unexpectedEnd
  | t :: ts => if p t then .ok (t, ts) else .err .unexpectedToken

/-- The loop of `parse_set_ish_value` (parser/utils.rs:85-97) at the token `t`: the tokens up to the
closing one, and the rest. -/
def closingToken (b e : Token → Bool) (level : Int) (t : Token) : List Token → Out Err (List Token × List Token)
  | [] => .err .unexpectedEnd
  | u :: us =>
      let l := if b t then level + 1 else level
      if e u then
        if l - 1 = 0 then .ok ([t, u], us)
        else (closingToken b e (l - 1) u us).bind fun r => .ok (t :: r.1, r.2)
      else (closingToken b e l u us).bind fun r => .ok (t :: r.1, r.2)

/-- `parse_set_ish_value` (parser/utils.rs:72-98). -/
def parseSetIsh : Parser Text
  | [] => .err .unexpectedEnd
  | t :: ts =>
      if t.is .curlyBegin then
        (closingToken (Token.is .curlyBegin) (Token.is .curlyEnd) 0 t ts).bind fun r =>
          .ok (concatTexts r.1 [' '], r.2)
      else if t.is .roundBegin then
        (closingToken (Token.is .roundBegin) (Token.is .roundEnd) 0 t ts).bind fun r =>
          .ok (concatTexts r.1 [' '], r.2)
      else .err .unexpectedToken

/-- The tokens that are a value by themselves (asn/values.rs:31-35). -/
def Token.isSimpleValue (t : Token) : Bool :=
  t.is .identifier || t.is .numberInt || t.is .bitString || t.is .hexString || t.is .tString

/-- `parse_value` (asn/values.rs:11-39). -/
def parseValue : Parser Text
  | [] => .err .unexpectedEnd
  | t :: ts =>
      if t.isSimpleValue then .ok (t.text, ts)
      else if t.is .curlyBegin || t.is .roundBegin then parseSetIsh (t :: ts)
      else .err .unexpectedToken

/-! ## Base types (asn/types/base) -/

/-- The part of `parse_named_maybe_value` after the round bracket (asn/types/base/utils.rs:27-46). -/
def parseInBrackets : Parser NamedValue
  | [] => .err .unexpectedEnd
  | t :: ts =>
      if t.is .numberInt then (need (Token.is .roundEnd) ts).bind fun r => .ok (.number t.text, r.2)
      else if t.isValueRef then (need (Token.is .roundEnd) ts).bind fun r => .ok (.valueRef t.text, r.2)
      else .err .unexpectedToken

/-- `parse_named_maybe_value` (asn/types/base/utils.rs:11-55). -/
def parseNamedMaybeValue (ts : List Token) : Out Err ((Text × Option NamedValue) × List Token) :=
  (need Token.isValueRef ts).bind fun i =>
    match i.2 with
    | [] => .ok ((i.1.text, none), [])
    | b :: r =>
        if b.is .roundBegin then
          (parseInBrackets r).bind fun v => .ok ((i.1.text, some v.1), v.2)
        else .ok ((i.1.text, none), b :: r)

/-- The loop of `parse_named_values` (asn/types/base/utils.rs:67-90). -/
def namedValuesLoop : Nat → List (Text × NamedValue) → Parser (List (Text × NamedValue))
  | 0, _, _ => .diverge
  | n + 1, values, ts =>
      (parseNamedMaybeValue ts).bind fun r =>
        match r.1.2 with
        | none => .err .parse
        | some v =>
            match r.2 with
            | [] => .err .unexpectedEnd
            | t :: us =>
                if t.is .comma then namedValuesLoop n (values ++ [(r.1.1, v)]) us
                else if t.is .curlyEnd then .ok (values ++ [(r.1.1, v)], us)
                else .err .unexpectedToken

/-- `parse_named_values` (asn/types/base/utils.rs:57-93). -/
def parseNamedValues (n : Nat) : Parser (List (Text × NamedValue)) := fun ts =>
  (need (Token.is .curlyBegin) ts).bind fun r => namedValuesLoop n [] r.2

/-- `match expect_token(&tokens[consumed..], Token::is_curly_begin)` with the named values
(asn/types/base/integer.rs:20-32, bitstring.rs:20-32). -/
def parseMaybeNamedValues (n : Nat) : Parser (Option (List (Text × NamedValue)))
  | [] => .ok (none, [])
  | t :: ts =>
      if t.is .curlyBegin then (parseNamedValues n (t :: ts)).bind fun r => .ok (some r.1, r.2)
      else .ok (none, t :: ts)

/-- `parse_integer_type` (asn/types/base/integer.rs:12-35). -/
def parseInteger (n : Nat) : Parser Kind := fun ts =>
  (need (Token.isKeyword "INTEGER") ts).bind fun r =>
    (parseMaybeNamedValues n r.2).bind fun v => .ok (.integer v.1, v.2)

/-- `parse_bitstring_type` (asn/types/base/bitstring.rs:12-35). -/
def parseBitString (n : Nat) : Parser Kind := fun ts =>
  (expectAll [Token.isKeyword "BIT", Token.isKeyword "STRING"] ts).bind fun b =>
    if b then (parseMaybeNamedValues n (ts.drop 2)).bind fun v => .ok (.bitString v.1, v.2)
    else .err .unexpectedToken

/-- `parse_enum_values` (asn/types/base/enumerated.rs:13-40). -/
def enumValuesLoop : Nat → List EnumValue → Parser (List EnumValue)
  | 0, _, _ => .diverge
  | n + 1, values, ts =>
      (parseNamedMaybeValue ts).bind fun r =>
        (skip (Token.is .comma) r.2).bind fun c =>
          (expect (fun t => t.is .extension || t.is .curlyEnd) c.2).bind fun stop =>
            if stop then .ok (values ++ [⟨r.1.1, r.1.2⟩], c.2)
            else enumValuesLoop n (values ++ [⟨r.1.1, r.1.2⟩]) c.2

/-- `parse_enumerated_type` (asn/types/base/enumerated.rs:43-92). -/
def parseEnumerated (n : Nat) : Parser Kind := fun ts =>
  (need (Token.isKeyword "ENUMERATED") ts).bind fun a =>
    (need (Token.is .curlyBegin) a.2).bind fun b =>
      (enumValuesLoop n [] b.2).bind fun root =>
        (skip (Token.is .extension) root.2).bind fun m =>
          (skip (Token.is .comma) m.2).bind fun c =>
            (enumValuesLoop n [] c.2).attempt.bind fun ext =>
              let ext := ext.getD ([], c.2)
              (need (Token.is .curlyEnd) ext.2).bind fun z =>
                .ok (.enumerated root.1 (if m.1 then some (root.1.length + 1) else none) ext.1, z.2)

/-! ## References (asn/types/int.rs) -/

/-- The part of the loop of `parse_actual_params` for `{param}` (asn/types/int.rs:197-215). -/
def parseSetParam (ts : List Token) : Out Err (List ActualParam × List Token) :=
  (skip (Token.is .curlyBegin) ts).bind fun a =>
    if a.1 then
      (need (fun t => t.is .numberInt || t.is .identifier) a.2).bind fun p =>
        (need (Token.is .curlyEnd) p.2).bind fun z => .ok ([.set p.1.text], z.2)
    else .ok ([], a.2)

/-- The part of the loop of `parse_actual_params` for a parameter without brackets
(asn/types/int.rs:217-224). -/
def parseSingleParam : Parser (List ActualParam)
  | [] => .err .unexpectedEnd
  | t :: ts =>
      if t.is .numberInt || t.is .identifier then .ok ([.single t.text], ts) else .ok ([], t :: ts)

/-- The loop of `parse_actual_params` (asn/types/int.rs:196-232). -/
def actualParamsLoop : Nat → List ActualParam → Parser (List ActualParam)
  | 0, _, _ => .diverge
  | n + 1, params, ts =>
      (parseSetParam ts).bind fun a =>
        (parseSingleParam a.2).bind fun b =>
          (skip (Token.is .comma) b.2).bind fun c =>
            (skip (Token.is .curlyEnd) c.2).bind fun z =>
              if z.1 then .ok (params ++ a.1 ++ b.1, z.2)
              else actualParamsLoop n (params ++ a.1 ++ b.1) z.2

/-- `parse_actual_params` (asn/types/int.rs:188-234). -/
def parseActualParams (n : Nat) : Parser (List ActualParam) := fun ts =>
  (need (Token.is .curlyBegin) ts).bind fun r => actualParamsLoop n [] r.2

/-- The name of `parse_referenced_type` (asn/types/int.rs:136-152) at the token `t`. -/
def parseReferenceName (t : Token) : List Token → Text × List Token
  | d :: u :: ts =>
      if t.isTypeRef && d.is .dot && u.isTypeRef then (concatTexts [t, d, u] [], ts)
      else (t.text, d :: u :: ts)
  | ts => (t.text, ts)

/-- The part of `parse_referenced_type` after the name (asn/types/int.rs:155-185). -/
def parseMaybeParams (n : Nat) (name : Text) : Parser Kind
  | [] => .ok (.reference name, [])
  | t :: ts =>
      if t.is .curlyBegin then
        (parseActualParams n (t :: ts)).bind fun r =>
          if r.1.isEmpty then .ok (.reference name, r.2) else .ok (.parameterized name r.1, r.2)
      else .ok (.reference name, t :: ts)

/-- `C.&field`, if the tokens start like that (asn/types/int.rs:115-134). -/
def parseClassField (t : Token) : List Token → Option (Kind × List Token)
  | d :: f :: ts =>
      if t.isClassRef && d.is .dot && (f.isTypeField || f.isValueField) then
        some (.classField t.text f.text, ts)
      else none
  | _ => none

/-- `parse_referenced_type` (asn/types/int.rs:112-186) at the token `t`. -/
def parseReference (n : Nat) (t : Token) (ts : List Token) : Out Err (Kind × List Token) :=
  match parseClassField t ts with
  | some r => .ok r
  | none => let r := parseReferenceName t ts; parseMaybeParams n r.1 r.2

/-! ## Constraints that hold no types (asn/types/constraints.rs) -/

/-- `parse_table_constraint` (asn/types/constraints.rs:42-98). -/
def parseTable (ts : List Token) : Out Err (Constraint × List Token) :=
  (need (Token.is .roundBegin) ts).bind fun a =>
    (expectAll [Token.is .curlyBegin, Token.isTypeRef, Token.is .curlyEnd] a.2).bind fun b =>
      if b then
        let table := ((a.2.drop 1).head?.map Token.text).getD []
        let r := a.2.drop 3
        match expectAll [Token.is .curlyBegin, Token.is .atComponentIdList, Token.is .curlyEnd] r with
        | .ok true =>
            (need (Token.is .roundEnd) (r.drop 3)).bind fun z =>
              .ok (.tableRelation table (((r.drop 1).head?.map Token.text).getD []), z.2)
        | _ => (need (Token.is .roundEnd) r).bind fun z => .ok (.tableSimple table, z.2)
      else .err .parse

/-- `parse_contents_constraint` (asn/types/constraints.rs:344-377). -/
def parseContents (ts : List Token) : Out Err (Constraint × List Token) :=
  (need (Token.is .roundBegin) ts).bind fun a =>
    (need (Token.isKeyword "CONTAINING") a.2).bind fun b =>
      (need Token.isTypeRef b.2).bind fun c =>
        (need (Token.is .roundEnd) c.2).bind fun z => .ok (.contents c.1.text, z.2)

/-- An end point of a range (asn/types/constraints.rs:281-293, 318-330). -/
def parseEndPoint (ts : List Token) : Out Err (Text × List Token) :=
  (parseValue ts).attempt.bind fun
    | some r => .ok r
    | none => (need (fun t => t.isKeyword "MIN" || t.isKeyword "MAX") ts).bind fun r => .ok (r.1.text, r.2)

/-- `<` or `..` after the lower end point (asn/types/constraints.rs:296-309). After `<` one more token
is skipped, whatever it is; when there is none the next slice starts past the end. -/
def parseLowerMark : Parser Bool
  | [] => .err .unexpectedEnd
  | t :: ts =>
      if t.is .lessThan then
        match ts with
        | [] => .panic
        | _ :: us => .ok (false, us)
      else if t.is .rangeSeparator then .ok (true, ts)
      else .err .unexpectedToken

/-- `parse_range_elements` (asn/types/constraints.rs:272-342). -/
def parseRange (ts : List Token) : Out Err (Elements × List Token) :=
  (parseEndPoint ts).bind fun lo =>
    (parseLowerMark lo.2).bind fun m =>
      (skip (Token.is .lessThan) m.2).bind fun u =>
        (parseEndPoint u.2).bind fun hi => .ok (.range lo.1 m.1 hi.1 (!u.1), hi.2)

/-! ## Types -/

/-- Is this the text of a character string type of one word (asn/types/int.rs:81). -/
def isStringType (t : Text) : Bool :=
  ["VisibleString", "UTF8String", "IA5String", "PrintableString"].any fun s => t == s.toList

/-- Two tokens consumed, the second unseen (asn/types/int.rs:46-53); the slice after them (103) starts
past the end when there is only one. -/
def twoWords (k : Kind) : List Token → Out Err (Kind × List Token)
  | [] => .panic
  | _ :: ts => .ok (k, ts)

/-- `OBJECT IDENTIFIER` (asn/types/int.rs:71-77). -/
def parseObjectIdentifier (ts : List Token) : Out Err (Kind × List Token) :=
  (expectAll [Token.isKeyword "OBJECT", Token.isKeyword "IDENTIFIER"] ts).bind fun b =>
    if b then .ok (.objectIdentifier, ts.drop 2) else .err .unexpectedToken

/-- The version of an addition group of a SEQUENCE (asn/types/constructed/seq.rs:182-197). -/
def parseSeqVersion : Parser (Option Text)
  | [] => .ok (none, [])
  | t :: ts =>
      if t.is .numberInt then (need (Token.is .colon) ts).bind fun r => .ok (some t.text, r.2)
      else .ok (none, t :: ts)

/-- The version of an addition group of a CHOICE (asn/types/constructed/choice.rs:119-129). -/
def parseChoiceVersion : Parser (Option Text)
  | [] => .err .unexpectedEnd
  | t :: ts =>
      if t.is .numberInt then (need (Token.is .colon) ts).bind fun r => .ok (some t.text, r.2)
      else .ok (none, t :: ts)

/-- The part of the loops of `parse_sequence_type` and `parse_choice_type` at an extension marker
(asn/types/constructed/seq.rs:74-80): was there one. -/
def parseMarker (ts : List Token) : Out Err (Bool × List Token) :=
  (skip (Token.is .extension) ts).bind fun m =>
    if m.1 then (skip (Token.is .comma) m.2).bind fun c => .ok (true, c.2) else .ok (false, m.2)

/-- The part of `parse_seq_component` after the component (asn/types/constructed/seq.rs:139-159). -/
def parsePresence (ts : List Token) : Out Err ((Bool × Option Text) × List Token) :=
  (skip (Token.isKeyword "OPTIONAL") ts).bind fun o =>
    (skip (Token.isKeyword "DEFAULT") o.2).bind fun d =>
      if d.1 then
        (parseValue d.2).bind fun v => if o.1 then .err .parse else .ok ((false, some v.1), v.2)
      else .ok ((o.1, none), d.2)

/-- The additions of a CHOICE when its loop ends (asn/types/constructed/choice.rs:89-100). -/
def choiceAdditions (markers : Nat) (groups : List ChoiceGroup) (bare : List Component) :
    Option (List ChoiceGroup) :=
  if 0 < markers then some (if bare.isEmpty then groups else groups ++ [.mk none bare]) else none

mutual

/-- `parse_type` (asn/types/int.rs:17-110). `parse_constraints` never returns an error. -/
def parseType : Nat → Parser AsnType
  | 0, _ => .diverge
  | _ + 1, [] => .err .unexpectedEnd
  | n + 1, t :: ts =>
      if t.isTypeRef || t.isBuiltin || t.isClassRef then
        (parseKind n t ts).bind fun k =>
          (parseConstraints n k.2).bind fun c => .ok (.mk k.1 (some c.1), c.2)
      else .err .unexpectedToken

/-- The `match` on the first token `t` in `parse_type` (asn/types/int.rs:37-100). The arm for
"RELATIVE-OID" is not reached: it is not among the builtin types. -/
def parseKind : Nat → Token → List Token → Out Err (Kind × List Token)
  | 0, _, _ => .diverge
  | n + 1, t, ts =>
      if t.text = "BIT".toList then parseBitString n (t :: ts)
      else if t.text = "OCTET".toList then twoWords .octetString ts
      else if t.text = "CHARACTER".toList then twoWords (.characterString "CHARACTER-STRING".toList) ts
      else if t.text = "ENUMERATED".toList then parseEnumerated n (t :: ts)
      else if t.text = "INTEGER".toList then parseInteger n (t :: ts)
      else if t.text = "OBJECT".toList then parseObjectIdentifier (t :: ts)
      else if t.text = "BOOLEAN".toList then .ok (.boolean, ts)
      else if t.text = "NULL".toList then .ok (.null, ts)
      else if isStringType t.text then .ok (.characterString t.text, ts)
      else if t.text = "CHOICE".toList then parseChoice n (t :: ts)
      else if t.text = "SEQUENCE".toList then parseSeqOrSeqOf n (t :: ts)
      else parseReference n t ts

/-- `parse_constraints` (asn/types/constraints.rs:17-26). -/
def parseConstraints : Nat → Parser (List Constraint)
  | 0, _ => .diverge
  | n + 1, ts =>
      (parseConstraint n ts).attempt.bind fun
        | some r => (parseConstraints n r.2).bind fun cs => .ok (r.1 :: cs.1, cs.2)
        | none => .ok ([], ts)

/-- `parse_constraint` with `parse_subtype_constraint` (asn/types/constraints.rs:28-40, 100-103). -/
def parseConstraint : Nat → Parser Constraint
  | 0, _ => .diverge
  | n + 1, ts =>
      (parseElementSet n ts).attempt.bind fun
        | some r => .ok (.subtype r.1, r.2)
        | none => (parseTable ts).attempt.bind fun
          | some r => .ok r
          | none => (parseContents ts).attempt.bind fun
            | some r => .ok r
            | none => .err .parse

/-- `parse_element_set` (asn/types/constraints.rs:105-153). -/
def parseElementSet : Nat → Parser ElementSet
  | 0, _ => .diverge
  | n + 1, ts =>
      (need (Token.is .roundBegin) ts).bind fun a =>
        (unionLoop n [] a.2).bind fun root =>
          if root.1.isEmpty then .err .parse
          else
            (skip (Token.is .comma) root.2).bind fun c =>
              if c.1 then
                (need (Token.is .extension) c.2).bind fun e =>
                  (skip (Token.is .comma) e.2).bind fun d =>
                    (unionLoop n [] d.2).attempt.bind fun
                      | some add =>
                          (need (Token.is .roundEnd) add.2).bind fun z => .ok (.mk root.1 (some add.1), z.2)
                      | none => (need (Token.is .roundEnd) d.2).bind fun z => .ok (.mk root.1 none, z.2)
              else (need (Token.is .roundEnd) c.2).bind fun z => .ok (.mk root.1 none, z.2)

/-- The outer loop of `parse_union_set` (asn/types/constraints.rs:160-195). -/
def unionLoop : Nat → List (List Elements) → Parser (List (List Elements))
  | 0, _, _ => .diverge
  | n + 1, sets, ts =>
      (interLoop n [] false ts).bind fun i =>
        (skip Token.isUnion i.2).bind fun u =>
          if u.1 then unionLoop n (if i.1.isEmpty then sets else sets ++ [i.1]) u.2
          else .ok (if i.1.isEmpty then sets else sets ++ [i.1], u.2)

/-- The inner loop of `parse_union_set` (asn/types/constraints.rs:164-183). -/
def interLoop : Nat → List Elements → Bool → Parser (List Elements)
  | 0, _, _, _ => .diverge
  | n + 1, es, expecting, ts =>
      (parseElements n ts).attempt.bind fun
        | some r =>
            (skip Token.isIntersection r.2).bind fun c =>
              if c.1 then interLoop n (es ++ [r.1]) true c.2 else .ok (es ++ [r.1], c.2)
        | none =>
            if expecting then .err .parse
            else (skip Token.isIntersection ts).bind fun c =>
              if c.1 then interLoop n es true c.2 else .ok (es, c.2)

/-- `parse_intersection_set` (asn/types/constraints.rs:204-265): SIZE and FROM. -/
def parseElements : Nat → Parser Elements
  | 0, _ => .diverge
  | _ + 1, [] => .err .unexpectedEnd
  | n + 1, t :: ts =>
      if t.isKeyword "SIZE" || t.isKeyword "FROM" then
        (expect (Token.is .roundBegin) ts).bind fun b =>
          if b then
            (parseElementSet n ts).bind fun e =>
              .ok (if t.isKeyword "SIZE" then .size e.1 else .alphabet e.1, e.2)
          else parseElementsRest n ts
      else parseElementsRest n (t :: ts)

/-- `parse_intersection_set` (asn/types/constraints.rs:226-264): the other elements. -/
def parseElementsRest : Nat → Parser Elements
  | 0, _ => .diverge
  | n + 1, ts =>
      (parseRange ts).attempt.bind fun
        | some r => .ok r
        | none => (expect (Token.is .roundBegin) ts).bind fun b =>
            if b then (parseElementSet n ts).bind fun e => .ok (.set e.1, e.2)
            else (parseValue ts).attempt.bind fun
              | some r => .ok (.single r.1, r.2)
              | none => (parseType n ts).attempt.bind fun
                | some r => .ok (.contained r.1, r.2)
                | none => .err .parse

/-- `parse_seq_or_seq_of_type` (asn/types/constructed/seq.rs:19-29). -/
def parseSeqOrSeqOf : Nat → Parser Kind
  | 0, _ => .diverge
  | n + 1, ts =>
      (need (Token.isKeyword "SEQUENCE") ts).bind fun a =>
        (expect (Token.is .curlyBegin) a.2).bind fun b =>
          if b then (need (Token.is .curlyBegin) a.2).bind fun c => seqLoop n [] [] 0 c.2
          else parseSeqOf n a.2

/-- The loop of `parse_sequence_type` (asn/types/constructed/seq.rs:45-96). -/
def seqLoop : Nat → List SeqComponent → List SeqGroup → Nat → Parser Kind
  | 0, _, _, _, _ => .diverge
  | n + 1, root, adds, markers, ts =>
      (parseSeqComponent n ts).attempt.bind fun c? =>
        let c := c?.getD (none, ts)
        (expect (Token.is .additionGroupsBegin) c.2).bind fun b =>
          if b then
            if markers = 1 then
              (parseSeqGroup n c.2).bind fun g =>
                seqAfter n (root ++ c.1.toList) (adds ++ [g.1]) markers g.2
            else .err .parse
          else seqAfter n (root ++ c.1.toList) adds markers c.2

/-- The rest of a turn of the loop of `parse_sequence_type` (asn/types/constructed/seq.rs:70-96). -/
def seqAfter : Nat → List SeqComponent → List SeqGroup → Nat → Parser Kind
  | 0, _, _, _, _ => .diverge
  | n + 1, root, adds, markers, ts =>
      (skip (Token.is .comma) ts).bind fun c =>
        (parseMarker c.2).bind fun m =>
          (skip (Token.is .curlyEnd) m.2).bind fun z =>
            if z.1 then .ok (.sequence root adds (0 < markers + m.1.toNat), z.2)
            else seqLoop n root adds (markers + m.1.toNat) z.2

/-- `parse_sequence_of_type` (asn/types/constructed/seq.rs:99-127). -/
def parseSeqOf : Nat → Parser Kind
  | 0, _ => .diverge
  | n + 1, ts =>
      (parseConstraint n ts).attempt.bind fun s? =>
        let r := (s?.map (·.2)).getD ts
        (need (Token.isKeyword "OF") r).bind fun o =>
          (parseType n o.2).bind fun ty => .ok (.sequenceOf (s?.map (·.1)) ty.1, ty.2)

/-- `parse_seq_component` (asn/types/constructed/seq.rs:129-172). -/
def parseSeqComponent : Nat → Parser (Option SeqComponent)
  | 0, _ => .diverge
  | n + 1, ts =>
      (parseComponent n ts).attempt.bind fun
        | some c => (parsePresence c.2).bind fun p =>
            match c.1 with
            | .mk id ty => .ok (some (.mk id ty p.1.1 p.1.2), p.2)
        | none => .ok (none, ts)

/-- `parse_seq_addition_group` (asn/types/constructed/seq.rs:174-227). -/
def parseSeqGroup : Nat → Parser SeqGroup
  | 0, _ => .diverge
  | n + 1, ts =>
      (need (Token.is .additionGroupsBegin) ts).bind fun a =>
        (parseSeqVersion a.2).bind fun v =>
          (seqGroupLoop n [] v.2).bind fun cs =>
            if cs.1.isEmpty then .err .parse
            else (need (Token.is .additionGroupsEnd) cs.2).bind fun z => .ok (.mk v.1 cs.1, z.2)

/-- The loop of `parse_seq_addition_group` (asn/types/constructed/seq.rs:200-211). -/
def seqGroupLoop : Nat → List SeqComponent → Parser (List SeqComponent)
  | 0, _, _ => .diverge
  | n + 1, cs, ts =>
      (parseSeqComponent n ts).bind fun c =>
        match c.1 with
        | none => .ok (cs, ts)
        | some x => (skip (Token.is .comma) c.2).bind fun d => seqGroupLoop n (cs ++ [x]) d.2

/-- `parse_component` (asn/types/constructed/utils.rs:10-22). -/
def parseComponent : Nat → Parser Component
  | 0, _ => .diverge
  | n + 1, ts =>
      (need Token.isValueRef ts).bind fun i =>
        (parseType n i.2).bind fun ty => .ok (.mk i.1.text ty.1, ty.2)

/-- `parse_choice_type` (asn/types/constructed/choice.rs:17-109). -/
def parseChoice : Nat → Parser Kind
  | 0, _ => .diverge
  | n + 1, ts =>
      (need (Token.isKeyword "CHOICE") ts).bind fun a =>
        (need (Token.is .curlyBegin) a.2).bind fun b => choiceLoop n [] [] [] 0 b.2

/-- The loop of `parse_choice_type` (asn/types/constructed/choice.rs:34-63). -/
def choiceLoop : Nat → List Component → List ChoiceGroup → List Component → Nat → Parser Kind
  | 0, _, _, _, _, _ => .diverge
  | n + 1, root, groups, bare, markers, ts =>
      (parseComponent n ts).attempt.bind fun c? =>
        let new := (c?.map (·.1)).toList
        let r := (c?.map (·.2)).getD ts
        let root' := if 0 < markers then root else root ++ new
        let bare' := if 0 < markers then bare ++ new else bare
        (expect (Token.is .additionGroupsBegin) r).bind fun b =>
          if b then
            if markers = 1 then
              (parseChoiceGroup n r).bind fun g => choiceAfter n root' (groups ++ [g.1]) bare' markers g.2
            else .err .parse
          else choiceAfter n root' groups bare' markers r

/-- The rest of a turn of the loop of `parse_choice_type` (asn/types/constructed/choice.rs:65-108). -/
def choiceAfter : Nat → List Component → List ChoiceGroup → List Component → Nat → Parser Kind
  | 0, _, _, _, _, _ => .diverge
  | n + 1, root, groups, bare, markers, ts =>
      (skip (Token.is .comma) ts).bind fun c =>
        (expect (Token.is .extension) c.2).bind fun e =>
          if e && 0 < markers then .err .parse
          else
            (parseMarker c.2).bind fun m =>
              (skip (Token.is .curlyEnd) m.2).bind fun z =>
                if z.1 then
                  .ok (.choice root (choiceAdditions (markers + m.1.toNat) groups bare), z.2)
                else choiceLoop n root groups bare (markers + m.1.toNat) z.2

/-- `parse_choice_addition_group` (asn/types/constructed/choice.rs:111-163). -/
def parseChoiceGroup : Nat → Parser ChoiceGroup
  | 0, _ => .diverge
  | n + 1, ts =>
      (need (Token.is .additionGroupsBegin) ts).bind fun a =>
        (parseChoiceVersion a.2).bind fun v =>
          (choiceGroupLoop n [] v.2).bind fun cs =>
            if cs.1.isEmpty then .err .parse else .ok (.mk v.1 cs.1, cs.2)

/-- The loop of `parse_choice_addition_group` (asn/types/constructed/choice.rs:132-151). -/
def choiceGroupLoop : Nat → List Component → Parser (List Component)
  | 0, _, _ => .diverge
  | n + 1, cs, ts =>
      (parseComponent n ts).attempt.bind fun c? =>
        (skip (Token.is .comma) ((c?.map (·.2)).getD ts)).bind fun d =>
          (skip (Token.is .additionGroupsEnd) d.2).bind fun z =>
            if z.1 then .ok (cs ++ (c?.map (·.1)).toList, z.2)
            else choiceGroupLoop n (cs ++ (c?.map (·.1)).toList) z.2

end

end Hampi.Compiler
