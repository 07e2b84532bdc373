import Verif.Compiler.Parser
import Verif.Compiler.Resolve
/-!
# The parser: definitions and modules (asn-compiler/src/parser)

`HashMap`s filled by the parser are lists in the order of their keys (`put`); the code's order of
iteration is not specified. Governors and kinds of parameters, object identifiers and tags of modules
are read but not kept (used by nothing).
-/
namespace Hampi.Compiler

/-! ## Classes, objects and object sets (asn/types/ioc.rs) -/

/-- `OPTIONAL` or `DEFAULT` with what follows it, in a field of a class (asn/types/ioc.rs:93-122,
157-187). -/
def parseFieldEnd {α : Type} (p : Parser α) : Parser (Bool × Option α)
  | [] => .err .unexpectedEnd
  | t :: ts =>
      if t.isKeyword "OPTIONAL" then .ok ((true, none), ts)
      else if t.isKeyword "DEFAULT" then (p ts).bind fun r => .ok ((false, some r.1), r.2)
      else .ok ((false, none), t :: ts)

/-- `UNIQUE` (asn/types/ioc.rs:81-91). -/
def parseUnique : List Token → Bool × List Token
  | [] => (false, [])
  | t :: ts => if t.isKeyword "UNIQUE" then (true, ts) else (false, t :: ts)

/-- `parse_fixed_type_value_field_spec` (asn/types/ioc.rs:66-145). -/
def parseValueFieldSpec (n : Nat) (ts : List Token) : Out Err ((Text × ClassField) × List Token) :=
  (need Token.isValueField ts).bind fun i =>
    (parseType n i.2).bind fun ty =>
      let u := parseUnique ty.2
      (parseFieldEnd parseValue u.2).bind fun e =>
        if e.1.2.isSome && u.1 then .err .parse
        else .ok ((i.1.text, .fixedTypeValue i.1.text ty.1 u.1 e.1.1 e.1.2 none), e.2)

/-- `parse_type_field_spec` (asn/types/ioc.rs:147-201). -/
def parseTypeFieldSpec (n : Nat) (ts : List Token) : Out Err ((Text × ClassField) × List Token) :=
  (need Token.isTypeField ts).bind fun i =>
    (parseFieldEnd (parseType n) i.2).bind fun e =>
      .ok ((i.1.text, .type i.1.text e.1.1 e.1.2 none), e.2)

/-- `parse_field_spec` (asn/types/ioc.rs:56-64). -/
def parseFieldSpec (n : Nat) : Parser (Text × ClassField)
  | [] => .err .unexpectedEnd
  | t :: ts =>
      if t.isValueField then parseValueFieldSpec n (t :: ts)
      else if t.isTypeField then parseTypeFieldSpec n (t :: ts)
      else .err .parse

/-- The loop of `parse_class` (asn/types/ioc.rs:33-48). -/
def classLoop : Nat → List (Text × ClassField) → Parser (List (Text × ClassField))
  | 0, _, _ => .diverge
  | n + 1, fields, ts =>
      (parseFieldSpec n ts).bind fun f =>
        match f.2 with
        | [] => .err .unexpectedEnd
        | t :: us =>
            if t.is .comma then classLoop n (put fields f.1.1 f.1.2) us
            else if t.is .curlyEnd then .ok (put fields f.1.1 f.1.2, us)
            else .err .unexpectedToken

/-- `WITH_SYNTAX_RESERVED_WORDS` (tokenizer/mod.rs:114-137). -/
def RESERVED_WORDS : List String := [
  "BIT", "BOOLEAN", "CHARACTER", "CHOICE", "EMBEDDED", "END", "ENUMERATED", "EXTERNAL", "FALSE",
  "INSTANCE", "INTEGER", "INTERSECTION", "MINUS-INFINITY", "NULL", "OBJECT", "PLUS-INFINITY", "REAL",
  "RELATIVE-OID", "SEQUENCE", "SET", "TRUE", "UNION"]

/-- `is_with_syntax_reserved_word` (tokenizer/mod.rs:306-310). -/
def Token.isReserved (t : Token) : Bool := RESERVED_WORDS.any fun s => t.text == s.toList

/-- The field `f` with the words of its syntax, unless it must not be optional
(asn/types/ioc.rs:254-277). -/
def ClassField.withWords (inGroup : Bool) (words : Text) : ClassField → Out Err ClassField
  | .type i o d _ => if inGroup && !o && d.isNone then .err .parse else .ok (.type i o d (some words))
  | .fixedTypeValue i ty u o d _ =>
      if inGroup && !o && d.isNone then .err .parse else .ok (.fixedTypeValue i ty u o d (some words))

/-- The closing bracket of an optional group (asn/types/ioc.rs:285-291): is a group still open. -/
def closeGroup (inGroup : Bool) (ts : List Token) : Out Err (Bool × List Token) :=
  (skip (Token.is .squareEnd) ts).bind fun e =>
    if e.1 then if inGroup then .ok (false, e.2) else .err .unexpectedToken
    else .ok (inGroup, e.2)

/-- The loop of `parse_with_syntax_for_fields` (asn/types/ioc.rs:219-300). -/
def withSyntaxLoop : Nat → Bool → List (Text × ClassField) → Parser (List (Text × ClassField))
  | 0, _, _, _ => .diverge
  | n + 1, inGroup, fields, ts =>
      (skip (Token.is .squareBegin) ts).bind fun g =>
        let words := g.2.takeWhile fun t => !t.is .andIdentifier
        if words.any Token.isReserved then .err .parse
        else
          (need (Token.is .andIdentifier) (g.2.dropWhile fun t => !t.is .andIdentifier)).bind fun f =>
            match get fields f.1.text with
            | none => .err .parse
            | some spec =>
                (spec.withWords (inGroup || g.1) (concatTexts words [' '])).bind fun spec' =>
                  (skip (Token.is .comma) f.2).bind fun c =>
                    (closeGroup (inGroup || g.1) c.2).bind fun e =>
                      (skip (Token.is .curlyEnd) e.2).bind fun z =>
                        if z.1 then
                          if e.1 then .err .parse else .ok (put fields f.1.text spec', z.2)
                        else withSyntaxLoop n e.1 (put fields f.1.text spec') z.2

/-- `parse_with_syntax_for_fields` (asn/types/ioc.rs:203-303). -/
def parseWithSyntax (n : Nat) (fields : List (Text × ClassField)) (ts : List Token) :
    Out Err (List (Text × ClassField) × List Token) :=
  (expectAll [Token.isKeyword "WITH", Token.isKeyword "SYNTAX"] ts).bind fun b =>
    if b then (need (Token.is .curlyBegin) (ts.drop 2)).bind fun r => withSyntaxLoop n false fields r.2
    else .ok (fields, ts)

/-- `parse_class` (asn/types/ioc.rs:19-54). -/
def parseClass (n : Nat) (ts : List Token) : Out Err (List (Text × ClassField) × List Token) :=
  (need (Token.isKeyword "CLASS") ts).bind fun a =>
    (need (Token.is .curlyBegin) a.2).bind fun b =>
      (classLoop n [] b.2).bind fun f => parseWithSyntax n f.1 f.2

/-- An element of an object set, if there is one (asn/types/ioc.rs:328-352). -/
def parseSetElement (ts : List Token) : Out Err (Option SetElement × List Token) :=
  (parseSetIsh ts).attempt.bind fun
    | some r => .ok (some (.object (.input r.1)), r.2)
    | none =>
        match ts with
        | [] => .err .unexpectedEnd
        | t :: us =>
            if t.isValueRef then .ok (some (.objectRef t.text), us)
            else if t.isTypeRef then .ok (some (.setRef t.text), us)
            else .ok (none, t :: us)

/-- The loop of `parse_object_set` (asn/types/ioc.rs:316-374). -/
def objectSetLoop : Nat → List SetElement → List SetElement → Nat →
    Parser (List SetElement × List SetElement)
  | 0, _, _, _, _ => .diverge
  | n + 1, root, add, markers, ts =>
      (expect (Token.is .extension) ts).bind fun e =>
        if e && 0 < markers then .err .parse
        else
          (parseMarker ts).bind fun m =>
            (parseSetElement m.2).bind fun x =>
              let markers' := markers + m.1.toNat
              let root' := if markers' = 0 then root ++ x.1.toList else root
              let add' := if markers' = 0 then add else add ++ x.1.toList
              (skip (Token.is .comma) x.2).bind fun c =>
                (skip Token.isUnion c.2).bind fun u =>
                  (skip (Token.is .curlyEnd) u.2).bind fun z =>
                    if z.1 then .ok ((root', add'), z.2) else objectSetLoop n root' add' markers' z.2

/-- `parse_object_set` (asn/types/ioc.rs:305-382). -/
def parseObjectSet (n : Nat) (ts : List Token) :
    Out Err ((List SetElement × List SetElement) × List Token) :=
  (need (Token.is .curlyBegin) ts).bind fun r => objectSetLoop n [] [] 0 r.2

/-- `slice::split` at the elements where `p` holds. -/
def splitAt' {α : Type} (p : α → Bool) : List α → List (List α)
  | [] => [[]]
  | t :: ts =>
      if p t then [] :: splitAt' p ts
      else match splitAt' p ts with
        | g :: gs => (t :: g) :: gs
        | [] => [[t]]

/-- `str::split_whitespace`, for words joined by blanks. -/
def wordsOf (t : Text) : List Text := (splitAt' isBlank t).filter fun w => !w.isEmpty

/-- `with_syntax` (structs/types/ioc.rs:40-47). -/
def ClassField.syntaxWords : ClassField → Option Text
  | .type _ _ _ w => w
  | .fixedTypeValue _ _ _ _ _ w => w

/-- `class_fieldspec_from_words` (asn/types/ioc.rs:512-531). -/
def fieldOfWords (fields : List (Text × ClassField)) (words : Text) : Option (Text × ClassField) :=
  fields.find? fun f => f.2.syntaxWords == some words

/-- `value_from_field_spec` (asn/types/ioc.rs:533-553). -/
def parseFieldValue (n : Nat) : ClassField → Parser ObjectField
  | .type .., ts => (parseType n ts).bind fun r => .ok (.type (some r.1), r.2)
  | .fixedTypeValue _ ty .., ts => (parseValue ts).bind fun r => .ok (.fixedTypeValue ty (some r.1), r.2)

/-- The loop of `parse_object_from_class` (asn/types/ioc.rs:454-473); `consumed` of the object's
tokens. -/
def objectLoop (n : Nat) (cls : List (Text × ClassField)) (tokens : List Token) :
    List (List Token) → Nat → List (Text × ObjectField) → Out Err (List (Text × ObjectField))
  | [], _, fields => .ok fields
  | words :: groups, consumed, fields =>
      match fieldOfWords cls (concatTexts words [' ']) with
      | none => objectLoop n cls tokens groups (consumed + words.length) fields
      | some spec =>
          if tokens.length < consumed + words.length then .panic
          else
            (parseFieldValue n spec.2 (tokens.drop (consumed + words.length))).bind fun v =>
              if v.2.isEmpty then .ok (put fields spec.1 v.1)
              else objectLoop n cls tokens groups (tokens.length - v.2.length) (put fields spec.1 v.1)

/-- The defaults of the fields that are not given (asn/types/ioc.rs:477-507). -/
def addDefault (fields : List (Text × ObjectField)) (f : Text × ClassField) :
    List (Text × ObjectField) :=
  if (get fields f.1).isSome then fields
  else match f.2 with
    | .type _ _ (some d) _ => put fields f.1 (.type (some d))
    | .fixedTypeValue _ ty _ _ (some d) _ => put fields f.1 (.fixedTypeValue ty (some d))
    | _ => fields

/-- `parse_object_from_class` (asn/types/ioc.rs:435-510). -/
def parseObject (u : Unicode) (n : Nat) (value : Text) (cls : List (Text × ClassField)) :
    Out Err ObjectValue :=
  match tokenize u value with
  | .err _ => .err .tokenize
  | .panic => .panic
  | .diverge => .diverge
  | .ok tokens =>
      if tokens.length < 2 then .panic
      else
        let inner := (tokens.drop 1).dropLast
        let words := cls.filterMap fun f => f.2.syntaxWords
        let groups := splitAt' (fun t : Token => !words.any fun f => (wordsOf f).any fun w => t.text == w) inner
        (objectLoop n cls inner groups 0 []).bind fun fields => .ok (.fields (cls.foldl addDefault fields))

/-- An element of `parse_object_set_from_class` (asn/types/ioc.rs:397-403). -/
def parseElementOfClass (u : Unicode) (n : Nat) (cls : List (Text × ClassField)) :
    SetElement → Out Err SetElement
  | .object (.input s) => (parseObject u n s cls).bind fun v => .ok (.object v)
  | e => .ok e

/-- `parse_object_set_from_class` (asn/types/ioc.rs:384-425): `pop` takes from the end. -/
def parseObjectsOfSet (u : Unicode) (n : Nat) (s : List SetElement × List SetElement)
    (cls : List (Text × ClassField)) : Out Err (List SetElement × List SetElement) :=
  (mapOut (parseElementOfClass u n cls) s.1.reverse).bind fun root =>
    (mapOut (parseElementOfClass u n cls) s.2.reverse).bind fun add => .ok (root, add)

/-! ## Definitions (asn/defs.rs) -/

/-- A token without its position. -/
def Token.unplaced (t : Token) : Token := { t with start := ⟨0, 0⟩, stop := ⟨0, 0⟩ }

/-- `Asn1Definition` as parsed (structs/defs.rs:115-120, 223-227): the names of the parameters and the
tokens of the type they stand in. (Their positions, which are only for messages, are left out.) -/
structure ParsedDef where
  id : Text
  kind : Assignment
  params : Option (List Text × List Token) := none

/-- One turn of the outer loop of `apply_params` (asn/defs.rs:75-84). -/
def replaceText (source replace : Text) (t : Token) : Token :=
  if t.text = source then { t with text := replace } else t

/-- The loop of `apply_params` (asn/defs.rs:75-84). -/
def substitute : List Text → List ActualParam → List Token → List Token
  | s :: ss, a :: as, ts => substitute ss as (ts.map (replaceText s a.text))
  | _, _, ts => ts

/-- `apply_params` (asn/defs.rs:63-87). -/
def applyParams (n : Nat) (names : List Text) (tokens : List Token) : Expand := fun actual =>
  if names.length ≠ actual.length then .err .parse
  else (parseType n (substitute names actual tokens)).bind fun r => .ok r.1

/-- The name of a parameter without a governor (asn/defs.rs:423-448). -/
def parseBareParam : Parser Text
  | [] => .err .unexpectedEnd
  | t :: ts => if t.isTypeRef || t.isClassRef then .ok (t.text, ts) else .err .parse

/-- The name of a parameter (asn/defs.rs:371-448). -/
def parseParam (ts : List Token) : Out Err (Text × List Token) :=
  (expectAll [fun t => t.isTypeRef || t.isBuiltin || t.isClassRef, Token.is .colon,
      fun t => t.isValueRef || t.isTypeRef] ts).bind fun b =>
    if b then .ok (((ts.drop 2).head?.map Token.text).getD [], ts.drop 3) else parseBareParam ts

/-- The loop of `parse_params` (asn/defs.rs:370-464). -/
def paramsLoop : Nat → List Text → Parser (List Text)
  | 0, _, _ => .diverge
  | n + 1, names, ts =>
      (parseParam ts).bind fun p =>
        (skip (Token.is .comma) p.2).bind fun c =>
          (skip (Token.is .curlyEnd) c.2).bind fun z =>
            if z.1 then .ok (names ++ [p.1], z.2) else paramsLoop n (names ++ [p.1]) z.2

/-- `parse_params` (asn/defs.rs:361-472). -/
def parseParams (n : Nat) (ts : List Token) : Out Err (List Text × List Token) :=
  (need (Token.is .curlyBegin) ts).bind fun r => paramsLoop n [] r.2

/-- `parse_object_assignment` (asn/defs.rs:138-181). -/
def parseObjectAssignment (ts : List Token) : Out Err (ParsedDef × List Token) :=
  (expectAll [Token.isValueRef, Token.isClassRef] ts).bind fun b =>
    if b then
      (need (Token.is .assignment) (ts.drop 2)).bind fun a =>
        (parseSetIsh a.2).bind fun v =>
          .ok (⟨(ts.head?.map Token.text).getD [],
            .object (((ts.drop 1).head?.map Token.text).getD []) (.input v.1), none⟩, v.2)
    else .err .unexpectedToken

/-- `parse_value_assignment` (asn/defs.rs:186-214). -/
def parseValueAssignment (n : Nat) (ts : List Token) : Out Err (ParsedDef × List Token) :=
  (need Token.isValueRef ts).bind fun i =>
    (parseType n i.2).bind fun ty =>
      (need (Token.is .assignment) ty.2).bind fun a =>
        (parseValue a.2).bind fun v => .ok (⟨i.1.text, .value ty.1 v.1, none⟩, v.2)

/-- `parse_valueish_definition` (asn/defs.rs:120-133). -/
def parseValueish (n : Nat) (ts : List Token) : Out Err (ParsedDef × List Token) :=
  (parseObjectAssignment ts).attempt.bind fun
    | some r => .ok r
    | none => (parseValueAssignment n ts).attempt.bind fun
      | some r => .ok r
      | none => .err .parse

/-- `parse_type_assignment` (asn/defs.rs:244-286). -/
def parseTypeAssignment (n : Nat) (ts : List Token) : Out Err (ParsedDef × List Token) :=
  (need Token.isTypeRef ts).bind fun i =>
    (parseParams n i.2).attempt.bind fun p? =>
      (need (Token.is .assignment) ((p?.map (·.2)).getD i.2)).bind fun a =>
        (parseType n a.2).bind fun ty =>
          .ok (⟨i.1.text, .type ty.1,
            p?.map fun p => (p.1, (a.2.take (a.2.length - ty.2.length)).map Token.unplaced)⟩, ty.2)

/-- `parse_class_assignment` (asn/defs.rs:292-320). -/
def parseClassAssignment (n : Nat) (ts : List Token) : Out Err (ParsedDef × List Token) :=
  (need Token.isClassRef ts).bind fun i =>
    (need (Token.is .assignment) i.2).bind fun a =>
      (parseClass n a.2).bind fun c => .ok (⟨i.1.text, .class c.1, none⟩, c.2)

/-- `parse_object_set_assignment` (asn/defs.rs:325-359). -/
def parseObjectSetAssignment (n : Nat) (ts : List Token) : Out Err (ParsedDef × List Token) :=
  (need Token.isTypeRef ts).bind fun i =>
    (need Token.isClassRef i.2).bind fun c =>
      (need (Token.is .assignment) c.2).bind fun a =>
        (parseObjectSet n a.2).bind fun s =>
          .ok (⟨i.1.text, .objectSet c.1.text s.1.1 s.1.2, none⟩, s.2)

/-- `parse_typeish_definition` (asn/defs.rs:221-239). -/
def parseTypeish (n : Nat) (ts : List Token) : Out Err (ParsedDef × List Token) :=
  (parseTypeAssignment n ts).attempt.bind fun
    | some r => .ok r
    | none => (parseClassAssignment n ts).attempt.bind fun
      | some r => .ok r
      | none => (parseObjectSetAssignment n ts).attempt.bind fun
        | some r => .ok r
        | none => .err .parse

/-- `parse_definition` (asn/defs.rs:96-113). -/
def parseDefinition (n : Nat) : Parser ParsedDef
  | [] => .err .unexpectedEnd
  | t :: ts =>
      if t.isValueRef then parseValueish n (t :: ts)
      else if t.isTypeRef then parseTypeish n (t :: ts)
      else .err .parse

/-! ## Modules (asn/oid.rs, asn/module.rs, parser/int.rs) -/

/-- `WELL_KNOWN_OID_NAMES` (asn/oid.rs:14-29). -/
def WELL_KNOWN : List (String × Nat) := [
  ("iso", 1), ("itu-t", 0), ("ccitt", 0), ("joint-iso-itu-t", 2), ("joint-iso-ccitt", 2),
  ("identified-organization", 4), ("network-operator", 3), ("administration", 2), ("question", 1)]

/-- A component that is only a name (asn/oid.rs:57-61, 65-69). -/
def wellKnown (name : Text) : Out Err Nat :=
  match WELL_KNOWN.find? fun x => x.1.toList == name with
  | some x => .ok x.2
  | none => .err .unknownOid

/-- A component that is a number (asn/oid.rs:51-54, 90-93). -/
def oidNumber (t : Token) : Out Err Nat :=
  match parseUnsigned (2 ^ 32) t.text with
  | some v => .ok v
  | none => .err .invalidToken

/-- `parse_named_oid_component` (asn/oid.rs:34-74) at the name `t`. -/
def parseNamedOid (t : Token) (ts : List Token) : Out Err ((Option Text × Nat) × List Token) :=
  if t.isValueRef then
    match ts with
    | a :: b :: c :: us =>
        if a.is .roundBegin && b.is .numberInt && c.is .roundEnd then
          (oidNumber b).bind fun v => .ok ((some t.text, v), us)
        else (wellKnown t.text).bind fun v => .ok ((some t.text, v), ts)
    | _ => (wellKnown t.text).bind fun v => .ok ((some t.text, v), ts)
  else .err .unexpectedToken

/-- `parse_oid_component` (asn/oid.rs:79-102). -/
def parseOidComponent : Parser (Option Text × Nat)
  | [] => .err .unexpectedEnd
  | t :: ts =>
      if t.is .identifier then parseNamedOid t ts
      else if t.is .numberInt then (oidNumber t).bind fun v => .ok ((none, v), ts)
      else .err .unexpectedToken

/-- The loop of `parse_object_identifier` (asn/oid.rs:115-119). -/
def oidLoop : Nat → List (Option Text × Nat) → Parser (List (Option Text × Nat))
  | 0, _, _ => .diverge
  | n + 1, cs, ts =>
      (skip (Token.is .curlyEnd) ts).bind fun z =>
        if z.1 then .ok (cs, z.2)
        else (parseOidComponent ts).bind fun c => oidLoop n (cs ++ [c.1]) c.2

/-- `maybe_parse_object_identifer` (asn/module.rs:192-210) with `parse_object_identifier`
(asn/oid.rs:104-125). -/
def parseMaybeOid (n : Nat) : Parser (Option (List (Option Text × Nat)))
  | [] => .ok (none, [])
  | t :: ts =>
      if t.is .curlyBegin then (oidLoop n [] ts).bind fun r => .ok (some r.1, r.2)
      else .ok (none, t :: ts)

/-- `parse_module_name` (asn/module.rs:170-190). -/
def parseModuleName (n : Nat) : Parser (Text × Option (List (Option Text × Nat)))
  | [] => .err .unexpectedEnd
  | t :: ts =>
      if t.isTypeRef then (parseMaybeOid n ts).bind fun o => .ok ((t.text, o.1), o.2)
      else .err .parse

/-- `maybe_parse_header_tags` (asn/module.rs:142-168). -/
def parseTags (ts : List Token) : Out Err (Unit × List Token) :=
  (skip (fun t => t.isKeyword "EXPLICIT" || t.isKeyword "IMPLICIT" || t.isKeyword "AUTOMATIC") ts).bind
    fun a =>
      if a.1 then (need (Token.isKeyword "TAGS") a.2).bind fun r => .ok ((), r.2) else .ok ((), a.2)

/-- The inner loop of `parse_module_imports` (asn/module.rs:110-121): the names up to FROM. -/
def importNames : Nat → List Text → Parser (List Text)
  | 0, _, _ => .diverge
  | _ + 1, _, [] => .err .unexpectedEnd
  | n + 1, names, t :: ts =>
      if t.isKeyword "FROM" then .ok (names, ts)
      else (skip (Token.is .comma) ts).bind fun c =>
        importNames n (if t.is .identifier then names ++ [t.text] else names) c.2

/-- The names imported from `m` are added (asn/module.rs:125-130). -/
def addImports (m : Text) : List (Text × Text) → List Text → Out Err (List (Text × Text))
  | imports, [] => .ok imports
  | imports, d :: ds =>
      if (get imports d).isSome then .err .parse else addImports m (put imports d m) ds

/-- The outer loop of `parse_module_imports` (asn/module.rs:109-136). -/
def importsLoop : Nat → List (Text × Text) → Parser (List (Text × Text))
  | 0, _, _ => .diverge
  | n + 1, imports, ts =>
      (importNames n [] ts).bind fun d =>
        (parseModuleName n d.2).bind fun m =>
          (addImports m.1.1 imports d.1).bind fun imports' =>
            (skip (Token.is .semiColon) m.2).bind fun z =>
              if z.1 then .ok (imports', z.2) else importsLoop n imports' z.2

/-- `parse_module_imports` (asn/module.rs:99-140). -/
def parseImports (n : Nat) (ts : List Token) : Out Err (List (Text × Text) × List Token) :=
  (skip (Token.isKeyword "IMPORTS") ts).bind fun a =>
    if a.1 then importsLoop n [] a.2 else .ok ([], a.2)

/-- The loop of `parse_module` (asn/module.rs:80-89). -/
def definitionsLoop : Nat → List (Text × ParsedDef) → Parser (List (Text × ParsedDef))
  | 0, _, _ => .diverge
  | n + 1, defs, ts =>
      (skip (Token.isKeyword "END") ts).bind fun z =>
        if z.1 then .ok (defs, z.2)
        else (parseDefinition n ts).bind fun d => definitionsLoop n (put defs d.1.id d.1) d.2

/-- `Asn1Module` as parsed (structs/module.rs:54-62). -/
structure ParsedModule where
  name : Text
  imports : List (Text × Text)
  definitions : List (Text × ParsedDef)

/-- `parse_module` (asn/module.rs:45-97). -/
def parseModule (n : Nat) (ts : List Token) : Out Err (ParsedModule × List Token) :=
  (parseModuleName n ts).bind fun name =>
    (need (Token.isKeyword "DEFINITIONS") name.2).bind fun d =>
      (parseTags d.2).bind fun t =>
        (need (Token.is .assignment) t.2).bind fun a =>
          (need (Token.isKeyword "BEGIN") a.2).bind fun b =>
            (parseImports n b.2).bind fun i =>
              (definitionsLoop n [] i.2).bind fun defs => .ok (⟨name.1.1, i.1, defs.1⟩, defs.2)

/-- The loop of `parse` (parser/int.rs:21-28). -/
def modulesLoop : Nat → List ParsedModule → List Token → Out Err (List ParsedModule)
  | 0, _, _ => .diverge
  | n + 1, ms, ts =>
      (parseModule n ts).bind fun m =>
        if m.2.isEmpty then .ok (ms ++ [m.1]) else modulesLoop n (ms ++ [m.1]) m.2

/-- `parse` (parser/int.rs:15-30). -/
def parse (n : Nat) (ts : List Token) : Out Err (List ParsedModule) :=
  modulesLoop n [] (ts.filter fun t => !t.is .comment)

/-- What the resolver works on. -/
def ParsedModule.toModule (u : Unicode) (n : Nat) (M : ParsedModule) : Module where
  name := M.name
  imports := M.imports
  definitions := M.definitions.map fun d =>
    (d.1, ⟨d.2.kind, d.2.params.map fun p => applyParams n p.1 p.2⟩)
  readObject := fun s cls => parseObject u n s cls
  readSet := fun s cls => parseObjectsOfSet u n s cls

end Hampi.Compiler
