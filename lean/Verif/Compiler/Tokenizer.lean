/-!
# The tokenizer (asn-compiler/src/tokenizer/mod.rs)

Texts are `List Char`; `tokenize` starts from the decoded text, so reading the input and its UTF-8
decoding (`unwrap`, mod.rs:811-812) are not modelled. `char::is_numeric` is a parameter, any
classification that includes the ASCII digits.
-/
namespace Hampi.Compiler

/-- Result of a compiler function. `diverge`: the Rust code loops for ever. -/
inductive Out (ε α : Type) where
  | ok (a : α)
  | err (e : ε)
  | panic
  | diverge
deriving Repr, DecidableEq

/-- `?`. -/
def Out.bind {ε α β : Type} (m : Out ε α) (f : α → Out ε β) : Out ε β :=
  match m with
  | .ok a => f a
  | .err e => .err e
  | .panic => .panic
  | .diverge => .diverge

instance {ε : Type} : Monad (Out ε) where
  pure := .ok
  bind := Out.bind

/-- `Error::TokenizeError(code, line, column)` (asn-compiler/src/error.rs). -/
structure TokenizeError where
  code : Nat
  line : Nat
  column : Nat
deriving Repr, DecidableEq

/-- `TokenType` (asn-compiler/src/tokenizer/types.rs:9-38). -/
inductive TokenType where
  | curlyBegin | curlyEnd | roundBegin | roundEnd | exceptionMarker | squareBegin | squareEnd
  | additionGroupsBegin | additionGroupsEnd | extension | rangeSeparator | assignment | colon
  | semiColon | identifier | keyword | comment | andIdentifier | numberInt | bitString | hexString
  | tString | dot | comma | setUnionToken | setIntersectionToken | atComponentIdList | lessThan
deriving Repr, DecidableEq

/-- `LineColumn` (mod.rs:139-156). -/
structure LineColumn where
  line : Nat
  column : Nat
deriving Repr, DecidableEq

/-- `Token` with its `Span` (mod.rs:158-194). -/
structure Token where
  type : TokenType
  start : LineColumn
  stop : LineColumn
  text : List Char
deriving Repr, DecidableEq

/-- `KEYWORDS` (mod.rs:12-93). -/
def KEYWORDS : List String := [
  "ABSENT", "ABSTRACT-SYNTAX", "ALL", "APPLICATION", "AUTOMATIC", "BEGIN", "BIT", "BMPString",
  "BOOLEAN", "BY", "CHARACTER", "CHOICE", "CLASS", "COMPONENT", "COMPONENTS", "CONSTRAINED",
  "CONTAINING", "DEFAULT", "DEFINITIONS", "EMBEDDED", "ENCODED", "END", "ENUMERATED", "EXCEPT",
  "EXPLICIT", "EXPORTS", "EXTENSIBILITY", "EXTERNAL", "FALSE", "FROM", "GeneralizedTime",
  "GeneralString", "GraphicString", "IA5String", "IDENTIFIER", "IMPLIED", "IMPLICIT", "IMPORTS",
  "INCLUDES", "INSTANCE", "INTEGER", "INTERSECTION", "ISO646String", "MAX", "MIN",
  "MINUS-INFINITY", "NULL", "NumericString", "OBJECT", "ObjectDescriptor", "OCTET", "OF",
  "OPTIONAL", "PATTERN", "PDV", "Plus-Infinity", "PRESENT", "PrintableString", "PRIVATE", "REAL",
  "RELATIVE-OID", "SEQUENCE", "SET", "SIZE", "STRING", "SYNTAX", "T61String", "TAGS",
  "TeletexString", "TRUE", "TYPE-IDENTIFIER", "UNION", "UNIQUE", "UNIVERSAL", "UniversalString",
  "UTCTime", "UTF8String", "VideotexString", "VisibleString", "WITH"]

/-- What the model leaves open of Unicode: `char::is_numeric`. -/
structure Unicode where
  isNumeric : Char → Bool
  digit : ∀ c : Char, c.isDigit = true → isNumeric c = true
  newline : isNumeric '\n' = false

/-- `char::is_ascii_alphanumeric`. -/
def isWordChar (c : Char) : Bool := c.isAlphanum

/-- `char::is_whitespace`: the Unicode property White_Space. -/
def isWhitespace (c : Char) : Bool :=
  let n := c.toNat
  (9 ≤ n && n ≤ 13) || n == 32 || n == 0x85 || n == 0xA0 || n == 0x1680 || (0x2000 ≤ n && n ≤ 0x200A)
    || n == 0x2028 || n == 0x2029 || n == 0x202F || n == 0x205F || n == 0x3000

/-- `char::is_ascii_hexdigit`. -/
def isHexDigit (c : Char) : Bool :=
  c.isDigit || ('a' ≤ c && c ≤ 'f') || ('A' ≤ c && c ≤ 'F')

/-- `position(|x| !p(x))`, or the length when every character satisfies `p` (mod.rs:492-500, 526-532,
563-572). -/
def span (p : Char → Bool) (cs : List Char) : Nat := (cs.takeWhile p).length

/-- `str::lines` of a text that is not empty and does not end in a newline: the parts between
newlines. (The carriage return that `lines` also strips is removed by the `trim` that follows.) -/
def splitLines : List Char → List (List Char)
  | [] => [[]]
  | c :: cs =>
    if c = '\n' then [] :: splitLines cs
    else match splitLines cs with
      | [] => [[c]]
      | l :: ls => (c :: l) :: ls

/-- `str::trim`. -/
def trim (l : List Char) : List Char :=
  ((l.dropWhile isWhitespace).reverse.dropWhile isWhitespace).reverse

/-- `str::len`: the number of UTF-8 octets. -/
def byteLen (l : List Char) : Nat := (l.map Char.utf8Size).sum

/-- `text.lines().count() - 1`, and `last_line.len()` or `begin + consumed` (mod.rs:388-395,
446-453). -/
def linesAndColumn (text : List Char) (begin_ : Nat) : Nat × Nat :=
  let ls := splitLines text
  let lines := ls.length - 1
  (lines, if 0 < lines then byteLen (ls.getLastD []) else begin_ + text.length)

/-- What the token functions return: the token and the number of characters consumed. -/
abbrev Lexed := Token × Nat

/-- A token on one line, `consumed` characters long (the common `Ok(..)` of the token functions). -/
def oneLine (type : TokenType) (chars : List Char) (line begin_ consumed : Nat) : Lexed :=
  (⟨type, ⟨line, begin_⟩, ⟨line, begin_ + consumed⟩, chars.take consumed⟩, consumed)

/-- The loop of `get_string_token` from index `i` (mod.rs:346-378) over `chars.drop i`: the index of
the closing quote. -/
def closingQuote : List Char → Nat → Option Nat
  | [], _ => none
  | [c], i => if c = '"' then some i else none
  | c :: d :: cs, i =>
    if c = '"' then
      if d = '"' then closingQuote cs (i + 2) else some i
    else closingQuote (d :: cs) (i + 1)

/-- `get_string_token` (mod.rs:335-414). Returns also the lines and the end column. -/
def getStringToken (chars : List Char) (line begin_ : Nat) :
    Out TokenizeError (Lexed × Nat × Nat) :=
  if chars.length = 1 then .err ⟨0, line, begin_⟩
  else
    match closingQuote (chars.drop 1) 1 with
    | none => .err ⟨5, line, begin_⟩
    | some last =>
      let consumed := last + 1
      let text := chars.take consumed
      let lc := linesAndColumn text begin_
      .ok ((⟨.tString, ⟨line, begin_⟩, ⟨line + lc.1, lc.2⟩,
        ((splitLines text).map trim).flatten⟩, consumed), lc)

/-- `get_bit_or_hex_string_token` (mod.rs:416-480). `to_lowercase` gives "h" and "b" only for the
ASCII letters. -/
def getBitOrHexStringToken (chars : List Char) (line begin_ : Nat) :
    Out TokenizeError (Lexed × Nat × Nat) :=
  if chars.length = 1 then .err ⟨6, line, begin_⟩
  else
    match (chars.drop 1).findIdx? (· = '\'') with
    | none => .err ⟨7, line, begin_⟩
    | some last =>
      let consumed := last + 1 + 1
      match chars[consumed]? with
      | none => .err ⟨8, line, begin_⟩
      | some c =>
        let type? : Option TokenType :=
          if c = 'h' ∨ c = 'H' then some .hexString
          else if c = 'b' ∨ c = 'B' then some .bitString else none
        match type? with
        | none => .err ⟨9, line, begin_⟩
        | some type =>
          let raw := chars.take consumed
          let lc := linesAndColumn raw begin_
          let text := raw.filter (!isWhitespace ·)
          if type = .bitString && !text.all (fun c => c = '0' || c = '1' || c = '\'') then
            .err ⟨10, line, begin_⟩
          else if type = .hexString && !text.all (fun c => isHexDigit c || c = '\'') then
            .err ⟨11, line, begin_⟩
          else
            .ok ((⟨type, ⟨line, begin_⟩, ⟨line + lc.1, lc.2⟩, text⟩, consumed + 1), lc)

/-- `get_at_component_id_list` (mod.rs:483-517). -/
def getAtComponentIdList (chars : List Char) (line begin_ : Nat) : Out TokenizeError Lexed :=
  if chars.length = 1 then .err ⟨12, line, begin_⟩
  else
    let consumed := 1 + span (fun c => isWordChar c || c = '-' || c = '.') (chars.drop 1)
    match chars[consumed - 1]? with
    | none => .panic
    | some c =>
      if c = '.' ∨ c = '-' then .err ⟨13, line, begin_⟩
      else .ok (oneLine .atComponentIdList chars line begin_ consumed)

/-- `get_number_token` (mod.rs:519-545). -/
def getNumberToken (u : Unicode) (chars : List Char) (line begin_ : Nat) :
    Out TokenizeError Lexed :=
  match chars with
  | [] => .panic
  | c :: _ =>
    let neg := if c = '-' then 1 else 0
    if 0 < neg ∧ chars.length = 1 then .err ⟨14, line, begin_⟩
    else .ok (oneLine .numberInt chars line begin_ (neg + span u.isNumeric (chars.drop neg)))

/-- `text.contains("--")`. -/
def hasDoubleDash : List Char → Bool
  | '-' :: '-' :: _ => true
  | _ :: cs => hasDoubleDash cs
  | [] => false

/-- `get_identifier_or_keyword_token` (mod.rs:552-608). -/
def getIdentifierOrKeywordToken (chars : List Char) (line begin_ : Nat) :
    Out TokenizeError Lexed :=
  match chars with
  | [] => .panic
  | c :: _ =>
    let and := if c = '&' then 1 else 0
    if 0 < and ∧ chars.length = 1 then .err ⟨15, line, begin_⟩
    else
      let consumed := and + span (fun c => isWordChar c || c = '-') (chars.drop and)
      if consumed = 0 then .panic
      else if chars[consumed - 1]? = some '-' then .err ⟨16, line, begin_⟩
      else if 0 < and ∧ consumed = 1 then .err ⟨17, line, begin_⟩
      else
        let text := chars.take consumed
        if hasDoubleDash text then .err ⟨18, line, begin_⟩
        else
          let type : TokenType :=
            if 0 < and then .andIdentifier
            else if KEYWORDS.any (fun kw => text = kw.toList) then .keyword
            else .identifier
          .ok (oneLine type chars line begin_ consumed)

/-- `get_range_or_extension_token` (mod.rs:611-645). -/
def getRangeOrExtensionToken (chars : List Char) (line begin_ : Nat) : Out TokenizeError Lexed :=
  match chars with
  | [] => .panic
  | [_] => .ok (oneLine .dot chars line begin_ 1)
  | [_, d] =>
    if d = '.' then .ok (oneLine .rangeSeparator chars line begin_ 2)
    else .ok (oneLine .dot chars line begin_ 1)
  | _ :: d :: e :: _ =>
    if d = '.' then
      if e = '.' then .ok (oneLine .extension chars line begin_ 3)
      else .ok (oneLine .rangeSeparator chars line begin_ 2)
    else .ok (oneLine .dot chars line begin_ 1)

/-- `get_assignment_or_colon_token` (mod.rs:648-682). -/
def getAssignmentOrColonToken (chars : List Char) (line begin_ : Nat) : Out TokenizeError Lexed :=
  match chars with
  | [] => .panic
  | [_] => .ok (oneLine .colon chars line begin_ 1)
  | [_, d] =>
    if d = ':' then .err ⟨19, line, begin_⟩
    else .ok (oneLine .colon chars line begin_ 1)
  | _ :: d :: e :: _ =>
    if d = ':' then
      if e = '=' then .ok (oneLine .assignment chars line begin_ 3)
      else .err ⟨20, line, begin_⟩
    else .ok (oneLine .colon chars line begin_ 1)

/-- `get_seq_extension_or_square_brackets_token` (mod.rs:687-714). `chars[1]` panics when there is
only one character. -/
def getSquareToken (chars : List Char) (line begin_ : Nat) : Out TokenizeError Lexed :=
  match chars with
  | c :: d :: _ =>
    if c = '[' then
      if d = '[' then .ok (oneLine .additionGroupsBegin chars line begin_ 2)
      else .ok (oneLine .squareBegin chars line begin_ 1)
    else if d = ']' then .ok (oneLine .additionGroupsEnd chars line begin_ 2)
    else .ok (oneLine .squareEnd chars line begin_ 1)
  | _ => .panic

/-- `get_single_char_token` (mod.rs:719-742). -/
def singleCharType : Char → Option TokenType
  | '{' => some .curlyBegin
  | '}' => some .curlyEnd
  | '(' => some .roundBegin
  | ')' => some .roundEnd
  | '!' => some .exceptionMarker
  | ';' => some .semiColon
  | ',' => some .comma
  | '|' => some .setUnionToken
  | '^' => some .setIntersectionToken
  | '<' => some .lessThan
  | _ => none

/-- The search of `get_maybe_comment_token` over the windows of two characters (mod.rs:762-774), from
index `idx`: the characters consumed after the initial "--", if the end of the comment is found. -/
def commentEnd : List Char → Nat → Option Nat
  | c :: d :: cs, idx =>
    if c = '\n' then some idx
    else if c = '-' ∧ d = '-' then some (idx + 2)
    else commentEnd (d :: cs) (idx + 1)
  | _, _ => none

/-- `get_maybe_comment_token` (mod.rs:751-797). The end of the span is (line, consumed), not
(line, begin + consumed). -/
def getMaybeCommentToken (chars : List Char) (line begin_ : Nat) :
    Out TokenizeError (Option Lexed) :=
  match chars with
  | _ :: d :: rest =>
    if d ≠ '-' then .ok none
    else
      let consumed := match commentEnd rest 0 with
        | some n => 2 + n
        | none => chars.length
      .ok (some (⟨.comment, ⟨line, begin_⟩, ⟨line, consumed⟩, chars.take consumed⟩, consumed))
  | _ => .panic

/-- What one turn of the loop does: characters consumed, the token pushed if any, the new line and
column. -/
structure Step where
  consumed : Nat
  token : Option Token
  line : Nat
  column : Nat

/-- A turn that pushed a token on one line. -/
def Step.of (line column : Nat) (t : Lexed) : Step := ⟨t.2, some t.1, line, column + t.2⟩

/-- A turn that pushed a token spanning lines (mod.rs:894-916). -/
def Step.ofLines (line column : Nat) (t : Lexed × Nat × Nat) : Step :=
  ⟨t.1.2, some t.1.1, line + t.2.1, if 0 < t.2.1 then t.2.2 else column + t.1.2⟩

/-- One turn of the loop of `tokenize` (mod.rs:818-927) at the first of the remaining characters. -/
def step (u : Unicode) (chars : List Char) (line column : Nat) : Out TokenizeError Step :=
  match chars with
  | [] => .panic
  | c :: _ =>
    if c = ' ' ∨ c = '\t' then .ok ⟨1, none, line, column + 1⟩
    else if c = '\n' then .ok ⟨1, none, line + 1, 0⟩
    else if c = '-' then
      (getMaybeCommentToken chars line column).bind fun t? =>
        match t? with
        | some t => .ok (.of line column t)
        | none => (getNumberToken u chars line column).bind fun t => .ok (.of line column t)
    else if (singleCharType c).isSome then
      match singleCharType c with
      | some type => .ok (.of line column (oneLine type chars line column 1))
      | none => .err ⟨21, line, column⟩
    else if c = '[' ∨ c = ']' then
      (getSquareToken chars line column).bind fun t => .ok (.of line column t)
    else if c = ':' then
      (getAssignmentOrColonToken chars line column).bind fun t => .ok (.of line column t)
    else if c = '.' then
      (getRangeOrExtensionToken chars line column).bind fun t => .ok (.of line column t)
    else if c = '&' ∨ c.isAlpha then
      (getIdentifierOrKeywordToken chars line column).bind fun t => .ok (.of line column t)
    else if c.isDigit then
      (getNumberToken u chars line column).bind fun t => .ok (.of line column t)
    else if c = '@' then
      (getAtComponentIdList chars line column).bind fun t => .ok (.of line column t)
    else if c = '\'' then
      (getBitOrHexStringToken chars line column).bind fun t => .ok (.ofLines line column t)
    else if c = '"' then
      (getStringToken chars line column).bind fun t => .ok (.ofLines line column t)
    else if c = '\uFEFF' then .ok ⟨1, none, line, column⟩
    else .panic

/-- The loop of `tokenize` (mod.rs:817-931). It ends when everything is processed; going past the end
would make the next `chars[processed]` panic; a turn that consumes nothing would repeat for ever. -/
def tokenizeFrom (u : Unicode) (chars : List Char) (line column : Nat) :
    Out TokenizeError (List Token) :=
  match step u chars line column with
  | .err e => .err e
  | .panic => .panic
  | .diverge => .diverge
  | .ok s =>
    if s.consumed = chars.length then .ok s.token.toList
    else if chars.length < s.consumed then .panic
    else if _h : s.consumed = 0 then .diverge
    else (tokenizeFrom u (chars.drop s.consumed) s.line s.column).bind fun ts =>
      .ok (s.token.toList ++ ts)
termination_by chars.length
decreasing_by simp only [List.length_drop]; omega

/-- `tokenize` (mod.rs:804-933). -/
def tokenize (u : Unicode) (chars : List Char) : Out TokenizeError (List Token) :=
  tokenizeFrom u chars 1 0

end Hampi.Compiler
