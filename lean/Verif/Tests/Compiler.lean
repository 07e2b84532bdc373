import Verif.Compiler.ParserDefs
import Verif.Compiler.Items
/-!
# The unit tests of the compiler, asked of the model

These are tests, not proofs of any property: every `#[test]` of `/repo/asn-compiler/src` that asserts something is
transcribed, case by case, and evaluated by the kernel in the model. They guard the transcription of the code,
which no theorem can check.
-/
namespace Hampi.Compiler.Tests

/-- `char::is_numeric` on the texts below. -/
def ascii : Unicode where
  isNumeric := Char.isDigit
  digit := fun _ h => h
  newline := rfl

/-- The loop of the tokenizer counting its turns down, which the kernel evaluates faster than the one defined by
recursion on the length of the text. -/
def turns (u : Unicode) : Nat → List Char → Nat → Nat → Out TokenizeError (List Token)
  | 0, _, _, _ => .diverge
  | n + 1, chars, line, column =>
    match step u chars line column with
    | .err e => .err e
    | .panic => .panic
    | .diverge => .diverge
    | .ok s =>
      if s.consumed = chars.length then .ok s.token.toList
      else if chars.length < s.consumed then .panic
      else if s.consumed = 0 then .diverge
      else (turns u n (chars.drop s.consumed) s.line s.column).bind fun ts => .ok (s.token.toList ++ ts)

/-- It computes the same. -/
theorem turns_eq (u : Unicode) (n : Nat) (chars : List Char) (line column : Nat) (h : chars.length < n) :
    turns u n chars line column = tokenizeFrom u chars line column := by
  induction n generalizing chars line column with
  | zero => exact absurd h (Nat.not_lt_zero _)
  | succ n ih =>
    rw [turns, tokenizeFrom]
    cases step u chars line column with
    | err _ => rfl
    | panic => rfl
    | diverge => rfl
    | ok s =>
      dsimp only
      split
      · rfl
      · split
        · rfl
        · split
          · rfl
          · rw [ih]
            simp only [List.length_drop]
            omega

/-- The characters of a string literal, written out, which the kernel need not decode. -/
macro "text!" s:str : term => do
  let cs := s.getString.toList.toArray.map fun c => Lean.Syntax.mkCharLit c
  `([$cs,*])

/-- The tokens of a text; the tests begin by asserting that there are some. -/
def tokens (s : Text) : Option (List Token) :=
  match turns ascii (s.length + 1) s 1 0 with
  | .ok ts => some ts
  | _ => none

/-- They are those of the tokenizer. -/
theorem tokens_eq (s : Text) : tokens s = match tokenize ascii s with
    | .ok ts => some ts
    | _ => none := by
  rw [tokens, turns_eq]
  · rfl
  · omega

/-- How many tokens. -/
def count (s : Text) : Option Nat := (tokens s).map List.length

/-- How a parser fares on the text: `none` if it returns an error, otherwise what `f` makes of its result, and how
many tokens it consumed. Texts that are no tokens, panics and endless loops satisfy no test. -/
def parsed {α β : Type} (p : Parser α) (f : α → β) (s : Text) : Option (Option (β × Nat)) :=
  (tokens s).bind fun ts =>
    match p ts with
    | .ok r => some (some (f r.1, ts.length - r.2.length))
    | .err _ => some none
    | _ => none

/-- The counts the test of constraints asks for. -/
def ofConstraint : Constraint → Option (Nat × Option Nat)
  | .subtype (.mk root add) => some (root.length, add.map List.length)
  | _ => none

/-- The counts the test of SEQUENCE asks for; `none` for SEQUENCE OF. -/
def ofSequence : Kind → Option (Nat × Nat)
  | .sequence root adds _ => some (root.length, adds.length)
  | _ => none

/-- The counts the test of CHOICE asks for. -/
def ofChoice : Kind → Option (Nat × Option Nat)
  | .choice root adds => some (root.length, adds.map List.length)
  | _ => none

/-- The number of named values the tests of INTEGER and BIT STRING ask for. -/
def ofNamed : Kind → Option (Option Nat)
  | .integer named => some (named.map List.length)
  | .bitString named => some (named.map List.length)
  | _ => none

/-- What the test of ENUMERATED asks for. -/
structure EnumCounts where
  root : Nat
  marker : Option Nat
  ext : Nat
deriving DecidableEq

/-- The counts of an ENUMERATED. -/
def ofEnumerated : Kind → Option EnumCounts
  | .enumerated root marker ext => some ⟨root.length, marker, ext.length⟩
  | _ => none

/-! ## Tokenizer -/

set_option maxRecDepth 20000

-- asn-compiler/src/tokenizer/mod.rs:940-947
example : count (text! "Hello World!") = some 3 := by decide +kernel
-- asn-compiler/src/tokenizer/mod.rs:949-956
example : count (text! "&Id &id-IDentifier") = some 2 := by decide +kernel
-- asn-compiler/src/tokenizer/mod.rs:958-966
example : count (text! "Hello World!\n-- Some comment --\n") = some 4 := by decide +kernel
-- asn-compiler/src/tokenizer/mod.rs:968-977
example : count (text! " -- Hello World!\n-- Some comment --\n") = some 2 := by decide +kernel
-- asn-compiler/src/tokenizer/mod.rs:979-986
example : count (text! " -- Hello World!") = some 1 := by decide +kernel
-- asn-compiler/src/tokenizer/mod.rs:988-996
example : (tokens (text! "  INTEGER ENUMERATED ")).map (·.map Token.type) = some [.keyword, .keyword] := by
  decide +kernel
-- asn-compiler/src/tokenizer/mod.rs:998-1006
example : count (text! "@component.id-List @.another ") = some 2 := by decide +kernel
-- asn-compiler/src/tokenizer/mod.rs:1008-1016
example : (tokens (text! " 123456789 -123")).map (·.map Token.type) = some [.numberInt, .numberInt] := by
  decide +kernel
-- asn-compiler/src/tokenizer/mod.rs:1018-1027
example : count (text! "ATTRIBUTE.&equality-match.&AssertionType") = some 5 := by decide +kernel
-- asn-compiler/src/tokenizer/mod.rs:1029-1039
example : (tokens (text! " -123456789..-123")).map (·.map Token.type) = some [.numberInt, .rangeSeparator, .numberInt] := by
  decide +kernel
-- asn-compiler/src/tokenizer/mod.rs:1041-1097
example : ([(text! "'010101'b"), (text! "'010101'"), (text! "'010101'h"), (text! "'01 0101'b"), (text! "'01 0101'h"), (text! "'01 0101\n\t0101\n00'h")].map
      fun s => (tokens s).map (·.map fun t => t.stop.line)) =
    [some [1], none, some [1], some [1], some [1], some [3]] := by decide +kernel
-- asn-compiler/src/tokenizer/mod.rs:1099-1158
example : [(text! "\"Foo Bar\n\tFoo-baz\""), (text! "\""), (text! "\"\""), (text! "\"\"\""), (text! "\"\"\"\" "), (text! "\"\"\"a\"\"x\""), (text! "\"a\"..\"z\"")].map count =
    [some 1, none, some 1, none, some 1, some 1, some 3] := by decide +kernel
-- asn-compiler/src/tokenizer/mod.rs:1160-1169
example : (tokens (text! "SOME-OBJECT-CLASS")).map (·.map Token.isClassRef) = some [true] := by decide +kernel
-- asn-compiler/src/tokenizer/mod.rs:1171-1254
example : [(text! "{{}}"), (text! "[[{}]}"), (text! "[[]]"), (text! "..{...}"), (text! ":(::=)"), (text! ": ::="), (text! ": :: "), (text! "."), (text! ".."), (text! ". "), (text! ". . .. "), (text! "...")].map count =
    [some 4, some 5, some 2, some 4, some 4, some 2, none, some 1, some 1, some 1, some 3, some 1] := by
  decide +kernel

/-! ## Constraints -/

-- asn-compiler/src/parser/asn/types/constraints.rs:385-485
example : parsed (parseConstraint 50) ofConstraint (text! "(SIZE(1..10))") = some (some (some (1, none), 8)) := by
  decide +kernel
example : parsed (parseConstraint 50) ofConstraint (text! "(SIZE(1..150, ...))") = some (some (some (1, none), 10)) := by
  decide +kernel
example : parsed (parseConstraint 50) ofConstraint (text! "(FROM(\"a\"..\"z\"))") = some (some (some (1, none), 8)) := by
  decide +kernel
example : parsed (parseConstraint 50) ofConstraint (text! "(FROM ({0, 0, 3, 112}..{0, 0, 3, 207}))") =
    some (some (some (1, none), 24)) := by decide +kernel
example : parsed (parseConstraint 50) ofConstraint (text! "(0..4095, ..., 4096.. 2000000)") =
    some (some (some (1, some 1), 11)) := by decide +kernel

/-! ## Types -/

-- asn-compiler/src/parser/asn/types/int.rs:241-281
example : parsed (parseType 50) (fun _ => ()) (text! "OBJECT IDENTIFIER") = some (some ((), 2)) := by decide +kernel

-- asn-compiler/src/parser/asn/types/constructed/seq.rs:235-367
example : parsed (parseSeqOrSeqOf 50) ofSequence (text! " SEQUENCE {} ") = some (some (some (0, 0), 3)) := by
  decide +kernel
example : parsed (parseSeqOrSeqOf 50) ofSequence (text! " SEQUENCE {...} ") = some (some (some (0, 0), 4)) := by
  decide +kernel
example : parsed (parseSeqOrSeqOf 50) ofSequence (text! " SEQUENCE { a INTEGER, b BOOLEAN } ") =
    some (some (some (2, 0), 8)) := by decide +kernel
example : parsed (parseSeqOrSeqOf 50) ofSequence (text! " SEQUENCE { a INTEGER, b BOOLEAN OPTIONAL} ") =
    some (some (some (2, 0), 9)) := by decide +kernel
example : parsed (parseSeqOrSeqOf 50) ofSequence
    (text! " SEQUENCE { a INTEGER, b BOOLEAN OPTIONAL, ..., c CHOICE { d INTEGER, e Enum}} ") =
    some (some (some (3, 0), 21)) := by decide +kernel
example : parsed (parseSeqOrSeqOf 50) ofSequence
    (text! " SEQUENCE { a INTEGER, b BOOLEAN OPTIONAL, ..., [[ c CHOICE { d INTEGER, e Enum} ]] } ") =
    some (some (some (2, 1), 23)) := by decide +kernel
example : parsed (parseSeqOrSeqOf 50) ofSequence
    (text! " SEQUENCE { a INTEGER, b BOOLEAN OPTIONAL, ..., [[  d INTEGER, e Enum ]] } ") =
    some (some (some (2, 1), 19)) := by decide +kernel
example : parsed (parseSeqOrSeqOf 50) ofSequence
    (text! " SEQUENCE { a INTEGER, b BOOLEAN OPTIONAL, ..., [[  d INTEGER, e Enum ]], [[ f INTEGER ]] } ") =
    some (some (some (2, 2), 24)) := by decide +kernel
example : parsed (parseSeqOrSeqOf 50) ofSequence
    (text! " SEQUENCE { a INTEGER, b BOOLEAN OPTIONAL, ..., [[  d INTEGER, e Enum ]], ..., [[ f INTEGER ]] } ") =
    some none := by decide +kernel
example : parsed (parseSeqOrSeqOf 50) ofSequence
    (text! " SEQUENCE { a INTEGER, b BOOLEAN OPTIONAL, ..., [[  d INTEGER, e Enum ]], ...,  f INTEGER  } ") =
    some (some (some (3, 1), 24)) := by decide +kernel
example : parsed (parseSeqOrSeqOf 50) ofSequence
    (text! " SEQUENCE { a INTEGER, b BOOLEAN OPTIONAL, ..., [[  ]], ...,  f INTEGER  } ") = some none := by
  decide +kernel
-- The test asks for success, and for counts only if it were a SEQUENCE.
example : parsed (parseSeqOrSeqOf 50) ofSequence (text! " SEQUENCE (SIZE(1..maxnoofeNBX2TLAs)) OF TransportLayerAddress") =
    some (some (none, 11)) := by decide +kernel

-- asn-compiler/src/parser/asn/types/constructed/utils.rs:30-65
example : parsed (parseComponent 50) (fun _ => ()) (text! "local INTEGER (0..65535)") = some (some ((), 7)) := by
  decide +kernel
example : parsed (parseComponent 50) (fun _ => ()) (text! "global                          OBJECT IDENTIFIER") =
    some (some ((), 3)) := by decide +kernel

-- asn-compiler/src/parser/asn/types/constructed/choice.rs:171-272
example : parsed (parseChoice 50) ofChoice (text! "CHOICE { a BOOL, b INTEGER} ") = some (some (some (2, none), 8)) := by
  decide +kernel
example : parsed (parseChoice 50) ofChoice (text! "CHOICE { a BOOL, b INTEGER, c CHOICE { d INTEGER, e NULL} } ") =
    some (some (some (3, none), 18)) := by decide +kernel
example : parsed (parseChoice 50) ofChoice (text! "CHOICE { local INTEGER (0..65535), global OBJECT IDENTIFIER }") =
    some (some (some (2, none), 14)) := by decide +kernel
example : parsed (parseChoice 50) ofChoice (text! "CHOICE { a INTEGER , b Enum, ..., [[ c CHOICE { d INTEGER } ]] }") =
    some (some (some (2, some 1), 19)) := by decide +kernel
example : parsed (parseChoice 50) ofChoice (text! "CHOICE { a INTEGER , b Enum, [[ c CHOICE { d INTEGER } ]] }") =
    some none := by decide +kernel
example : parsed (parseChoice 50) ofChoice (text! "CHOICE { a INTEGER , b Enum, ..., [[ ]] }") = some none := by
  decide +kernel

-- asn-compiler/src/parser/asn/types/base/integer.rs:43-146
example : [(text! "INTEGER"), (text! "INTEGER {a(1)}"), (text! "INTEGER {a(1), b(-10) }"), (text! "INTEGER {a(1), b(c) }"), (text! "INTEGER {a(1)}, b"),
      (text! "INTEGER {a()}"), (text! "INTEGER {a(1), b}"), (text! "INTEGER {a(1)")].map (parsed (parseInteger 50) ofNamed) =
    [some (some (some none, 1)), some (some (some (some 1), 7)), some (some (some (some 2), 12)),
      some (some (some (some 2), 12)), some (some (some (some 1), 7)), some none, some none, some none] := by
  decide +kernel

-- asn-compiler/src/parser/asn/types/base/bitstring.rs:43-139
example : [(text! "BIT STRING"), (text! "BIT STRING {a(1)}"), (text! "BIT STRING {a(1), b(c) }"), (text! "BIT STRING {a(1)}, b"),
      (text! "BIT STRING {a()}"), (text! "BIT STRING {a(1), b}"), (text! "BIT STRING {a(1)")].map (parsed (parseBitString 50) ofNamed) =
    [some (some (some none, 2)), some (some (some (some 1), 8)), some (some (some (some 2), 13)),
      some (some (some (some 1), 8)), some none, some none, some none] := by decide +kernel

-- asn-compiler/src/parser/asn/types/base/enumerated.rs:100-216
example : [(text! " ENUMERATED { one(1), two(2) }"), (text! " ENUMERATED { one(1), two(2), ... }"),
      (text! " ENUMERATED { one(1), two(2), ..., three, four(4) }"), (text! " ENUMERATED { one(1), two(2), ... }, ...")].map
      (parsed (parseEnumerated 50) ofEnumerated) =
    [some (some (some ⟨2, none, 0⟩, 12)), some (some (some ⟨2, some 3, 0⟩, 14)),
      some (some (some ⟨2, some 3, 2⟩, 21)), some (some (some ⟨2, some 3, 0⟩, 14))] := by decide +kernel
example : [(text! " ENUMERATED { one(1), two(2), ..., three, four(4), ... }"),
      (text! " ENUMERATED { one(1), two(2), ..., three, four(4), ... ")].map (parsed (parseEnumerated 50) ofEnumerated) =
    [some none, some none] := by decide +kernel

/-! ## Definitions, object identifiers and modules -/

-- asn-compiler/src/parser/asn/defs.rs:480-568
example : (parsed (parseDefinition 100) (fun d => String.ofList d.id) (text! "
PDCP-Capability-r4-ext ::=  SEQUENCE {
    supportForRfc3095   CHOICE {
        notSupported    NULL,
        supported SEQUENCE {
            maxROHC-ContextSessions     MaxROHC-ContextSessions-r4  DEFAULT s16,
            reverseCompressionDepth     INTEGER (0..65535)          DEFAULT 0
        }
    }
}
")) = some (some ("PDCP-Capability-r4-ext", 30)) := by decide +kernel
example : (parsed (parseDefinition 100) (fun d => String.ofList d.id) (text! "
S1AP-PROTOCOL-IES ::= CLASS {
    &id             ProtocolIE-ID   UNIQUE,
    &criticality    Criticality,
    &Value,
    &presence       Presence
}
WITH SYNTAX {
    ID          &id
    CRITICALITY &criticality
    TYPE        &Value
    PRESENCE    &presence
}
")) = some (some ("S1AP-PROTOCOL-IES", 28)) := by decide +kernel
example : (parsed (parseDefinition 100) (fun d => String.ofList d.id) (text! "
UE-RadioAccessCapability-LaterNonCriticalExtensions ::= SEQUENCE {
    v9c0NonCriticalExtensions   SEQUENCE {
        ue-RadioAccessCapability-v9c0ext    UE-RadioAccessCapability-v9c0ext-IEs,
        vaa0NonCriticalExtensions           SEQUENCE    {
            ue-RadioAccessCapability-vaa0ext    UE-RadioAccessCapability-vaa0ext-IEs,
            vb50NonCriticalExtensions           SEQUENCE {
                ue-RadioAccessCapability-vb50ext    UE-RadioAccessCapability-vb50ext-IEs,
                vb70NonCriticalExtensions   SEQUENCE {
                    ue-RadioAccessCapability-vb70ext    UE-RadioAccessCapability-vb70ext-IEs,
                    nonCriticalExtensions  SEQUENCE {}  OPTIONAL
                }   OPTIONAL
            }   OPTIONAL
        }   OPTIONAL
    }
}
")) = some (some ("UE-RadioAccessCapability-LaterNonCriticalExtensions", 41)) := by decide +kernel

-- asn-compiler/src/parser/asn/oid.rs:141-231
example : [(text! " iso "), (text! " foo "), (text! " something(3) "), (text! " something(-3) "), (text! " iso() ")].map
      (parsed parseOidComponent fun _ => ()) =
    [some (some ((), 1)), some none, some (some ((), 4)), some none, some (some ((), 1))] := by decide +kernel
example : [(text! "{ iso() }"), (text! "{ iso(1 }"), (text! " { iso something(3) }"), (text! "{ iso }")].map
      (parsed (parseMaybeOid 50) fun o => o.map List.length) =
    [some none, some none, some (some (some 2, 7)), some (some (some 1, 3))] := by decide +kernel

-- asn-compiler/src/parser/asn/module.rs:218-235; the model does not keep the tags
example : (parsed (parseModule 50) (fun M => (M.imports.length, M.definitions.length))
    (text! "ModuleFoo DEFINITIONS ::= BEGIN END")) = some (some ((0, 0), 5)) := by decide +kernel

-- asn-compiler/src/parser/asn/module.rs:239-303
example : [(text! "ModuleFoo"), (text! "moduleFoo"), (text! "ModuleFoo { iso }"), (text! "ModuleFoo { iso "), (text! "ModuleFoo iso "),
      (text! "NGAP-CommonDataTypes { itu-t (0) identified-organization (4) etsi (0) mobileDomain (0) ngran-Access (22) modules (3) ngap (1) version1 (1) ngap-CommonDataTypes (3) }")].map
      (parsed (parseModuleName 50) fun m => m.2.isSome) =
    [some (some (false, 1)), some none, some (some (true, 4)), some none, some (some (false, 1)),
      some (some (true, 39))] := by decide +kernel

/-! ## Names -/

-- asn-compiler/src/generator/int.rs:164-184
example : ["", "a", "amfTnlAssociationToAddItem"].map (fun s => String.ofList (capitalizeFirst s.toList)) =
    ["", "A", "AmfTnlAssociationToAddItem"] := by decide +kernel

end Hampi.Compiler.Tests
