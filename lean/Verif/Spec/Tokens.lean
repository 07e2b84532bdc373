import Verif.Compiler.Tokenizer
/-!
# The lexical structure of an ASN.1 text

How a text is cut into tokens, stated on the text alone. The only things used from the model are the
types `Token`, `TokenType`, `Unicode` (the numeric characters), the list of reserved words and the
character class White_Space.
-/
namespace Hampi.Spec

open Hampi.Compiler (TokenType Token LineColumn Unicode KEYWORDS isWhitespace)

/-- The characters that separate tokens: blank, tabulator, newline, byte order mark. -/
def Blank (c : Char) : Prop := c = ' ' ∨ c = '\t' ∨ c = '\n' ∨ c = '\uFEFF'

/-- The characters a token, or the space between tokens, may start with. -/
def Starts (c : Char) : Prop :=
  Blank c ∨ c.isAlpha = true ∨ c.isDigit = true ∨
    c ∈ ['-', '{', '}', '(', ')', '!', ';', ',', '|', '^', '<', '[', ']', ':', '.', '&', '@', '\'', '"']

/-- Letters, digits and the hyphen. -/
def WordChar (c : Char) : Prop := c.isAlpha ∨ c.isDigit ∨ c = '-'

/-- The hexadecimal digits, in both cases. -/
def hexDigits : List Char := "0123456789abcdefABCDEF".toList

/-- The reserved words of ASN.1 (X.680 11.27, editions 1997 and 2002). -/
def reservedWords : List String := [
  "ABSENT", "ABSTRACT-SYNTAX", "ALL", "APPLICATION", "AUTOMATIC", "BEGIN", "BIT", "BMPString",
  "BOOLEAN", "BY", "CHARACTER", "CHOICE", "CLASS", "COMPONENT", "COMPONENTS", "CONSTRAINED",
  "CONTAINING", "DEFAULT", "DEFINITIONS", "EMBEDDED", "ENCODED", "END", "ENUMERATED", "EXCEPT",
  "EXPLICIT", "EXPORTS", "EXTENSIBILITY", "EXTERNAL", "FALSE", "FROM", "GeneralizedTime",
  "GeneralString", "GraphicString", "IA5String", "IDENTIFIER", "IMPLIED", "IMPLICIT", "IMPORTS",
  "INCLUDES", "INSTANCE", "INTEGER", "INTERSECTION", "ISO646String", "MAX", "MIN",
  "MINUS-INFINITY", "NULL", "NumericString", "OBJECT", "ObjectDescriptor", "OCTET", "OF",
  "OPTIONAL", "PATTERN", "PDV", "PLUS-INFINITY", "PRESENT", "PrintableString", "PRIVATE", "REAL",
  "RELATIVE-OID", "SEQUENCE", "SET", "SIZE", "STRING", "SYNTAX", "T61String", "TAGS",
  "TeletexString", "TRUE", "TYPE-IDENTIFIER", "UNION", "UNIQUE", "UNIVERSAL", "UniversalString",
  "UTCTime", "UTF8String", "VideotexString", "VisibleString", "WITH"]

/-- No character of class `p` follows. -/
def NotNext (p : Char → Prop) (rest : List Char) : Prop := ∀ c, rest.head? = some c → ¬ p c

/-- A word: letters, digits and single hyphens, not ending in a hyphen. -/
def Word (w : List Char) : Prop :=
  w ≠ [] ∧ (∀ c ∈ w, WordChar c) ∧ w.getLast? ≠ some '-' ∧ ¬ ['-', '-'] <:+: w

/-- Text in which every quote is doubled. -/
inductive Quoted : List Char → Prop
  | nil : Quoted []
  | char {c : Char} {cs : List Char} : c ≠ '"' → Quoted cs → Quoted (c :: cs)
  | quote {cs : List Char} : Quoted cs → Quoted ('"' :: '"' :: cs)

/-- `raw`, followed by `rest`, has the form of a token of this type. -/
def Shape (u : Unicode) : TokenType → (raw rest : List Char) → Prop
  | .curlyBegin, raw, _ => raw = ['{']
  | .curlyEnd, raw, _ => raw = ['}']
  | .roundBegin, raw, _ => raw = ['(']
  | .roundEnd, raw, _ => raw = [')']
  | .exceptionMarker, raw, _ => raw = ['!']
  | .semiColon, raw, _ => raw = [';']
  | .comma, raw, _ => raw = [',']
  | .setUnionToken, raw, _ => raw = ['|']
  | .setIntersectionToken, raw, _ => raw = ['^']
  | .lessThan, raw, _ => raw = ['<']
  | .squareBegin, raw, rest => raw = ['['] ∧ NotNext (· = '[') rest
  | .squareEnd, raw, rest => raw = [']'] ∧ NotNext (· = ']') rest
  | .additionGroupsBegin, raw, _ => raw = ['[', '[']
  | .additionGroupsEnd, raw, _ => raw = [']', ']']
  | .extension, raw, _ => raw = ['.', '.', '.']
  | .rangeSeparator, raw, rest => raw = ['.', '.'] ∧ NotNext (· = '.') rest
  | .dot, raw, rest => raw = ['.'] ∧ NotNext (· = '.') rest
  | .assignment, raw, _ => raw = [':', ':', '=']
  | .colon, raw, rest => raw = [':'] ∧ NotNext (· = ':') rest
  | .identifier, raw, rest =>
      Word raw ∧ (∀ c, raw.head? = some c → c.isAlpha) ∧ NotNext WordChar rest ∧
        ∀ kw ∈ KEYWORDS, raw ≠ kw.toList
  | .keyword, raw, rest =>
      Word raw ∧ (∀ c, raw.head? = some c → c.isAlpha) ∧ NotNext WordChar rest ∧
        ∃ kw ∈ KEYWORDS, raw = kw.toList
  | .andIdentifier, raw, rest => ∃ w, raw = '&' :: w ∧ Word w ∧ NotNext WordChar rest
  | .numberInt, raw, rest =>
      ∃ sign digits, raw = sign ++ digits ∧
        (sign = ['-'] ∧ NotNext (· = '-') (digits ++ rest) ∨
          sign = [] ∧ ∃ c, digits.head? = some c ∧ c.isDigit) ∧
        (∀ c ∈ digits, u.isNumeric c) ∧ NotNext (fun c => u.isNumeric c) rest
  | .comment, raw, rest =>
      ∃ body, raw = '-' :: '-' :: body ∧
        ((∃ b, body = b ++ ['-', '-'] ∧ '\n' ∉ b ∧ ¬ ['-', '-'] <:+: b ++ ['-']) ∨
          ('\n' ∉ body ∧ ¬ ['-', '-'] <:+: body ∧ rest.head? = some '\n') ∨
          (rest = [] ∧ ¬ ['-', '-'] <:+: body ∧ '\n' ∉ body.dropLast))
  | .atComponentIdList, raw, rest =>
      ∃ w, raw = '@' :: w ∧ (∀ c ∈ w, WordChar c ∨ c = '.') ∧ w.getLast? ≠ some '-' ∧
        w.getLast? ≠ some '.' ∧ NotNext (fun c => WordChar c ∨ c = '.') rest
  | .tString, raw, rest => ∃ mid, raw = '"' :: mid ++ ['"'] ∧ Quoted mid ∧ NotNext (· = '"') rest
  | .bitString, raw, _ =>
      ∃ mid c, raw = '\'' :: mid ++ ['\'', c] ∧ (c = 'b' ∨ c = 'B') ∧
        ∀ d ∈ mid, isWhitespace d ∨ d = '0' ∨ d = '1'
  | .hexString, raw, _ =>
      ∃ mid c, raw = '\'' :: mid ++ ['\'', c] ∧ (c = 'h' ∨ c = 'H') ∧
        ∀ d ∈ mid, isWhitespace d ∨ d ∈ hexDigits

/-- What is kept of the source text `raw` as the text of a token: everything, except that white space
is dropped from bit and hexadecimal strings, together with the final letter, and around line breaks
in character strings. -/
def Kept (type : TokenType) (raw text : List Char) : Prop :=
  match type with
  | .tString => text.Sublist raw ∧
      text.filter (!isWhitespace ·) = raw.filter (!isWhitespace ·) ∧ ('\n' ∉ raw → text = raw)
  | .bitString | .hexString => text = raw.dropLast.filter (!isWhitespace ·)
  | _ => text = raw

/-- The line a token starts on, given the text before it. -/
def OnLine (before : List Char) (p : LineColumn) : Prop := p.line = 1 + before.count '\n'

/-- The line and column a token starts at, given the text before it: columns count from 0 the
characters after the last newline. -/
def AtPosition (before : List Char) (p : LineColumn) : Prop :=
  p.line = 1 + before.count '\n' ∧ p.column = (before.reverse.takeWhile (· ≠ '\n')).length

/-- `rest`, which comes after `before` in a text, consists of the given tokens separated by blank
characters; the reported start of each token satisfies `at_`. -/
inductive Tiles (u : Unicode) (at_ : List Char → LineColumn → Prop) :
    (before rest : List Char) → List Token → Prop
  | done {before gap : List Char} : (∀ c ∈ gap, Blank c) → Tiles u at_ before gap []
  | token {before gap raw rest : List Char} {t : Token} {ts : List Token} :
      (∀ c ∈ gap, Blank c) → raw ≠ [] → Shape u t.type raw rest → Kept t.type raw t.text →
      at_ (before ++ gap) t.start →
      Tiles u at_ (before ++ gap ++ raw) rest ts →
      Tiles u at_ before (gap ++ raw ++ rest) (t :: ts)

/-- `rest` is an end of the text `chars` that starts where a token could start: what comes before it
consists of tokens and blank characters. -/
inductive Boundary (u : Unicode) : (chars rest : List Char) → Prop
  | here {chars : List Char} : Boundary u chars chars
  | blank {c : Char} {cs rest : List Char} : Blank c → Boundary u cs rest → Boundary u (c :: cs) rest
  | token {type : TokenType} {raw cs rest : List Char} :
      raw ≠ [] → Shape u type raw cs → Boundary u cs rest → Boundary u (raw ++ cs) rest

/-- A token that starts and ends on the same line. -/
def OneLine (t : Token) : Prop := t.stop.line = t.start.line

/-- Two tokens with the same type and text, up to the final newline of a comment and the white space inside
a character string. -/
def Same (t t' : Token) : Prop :=
  t.type = t'.type ∧
    match t.type with
    | .comment => t'.text = t.text ∨ t'.text = t.text ++ ['\n']
    | .tString => t'.text.filter (!isWhitespace ·) = t.text.filter (!isWhitespace ·)
    | _ => t'.text = t.text

end Hampi.Spec
