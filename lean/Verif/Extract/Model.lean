import Verif.Compiler.Tokenizer
/-!
# The script that takes ASN.1 out of a specification

Model of specs/parse_spec.py. A document is the list of the texts of its paragraphs, as the library `docx` gives
them; how that library reads a file is not modelled, except that it may fail.
-/
namespace Hampi.Extract

/-- The text of a paragraph. -/
abbrev Text := List Char

/-- `re.match(r'^m$', text)` for a text `m` without special characters (specs/parse_spec.py:6-7): in Python a `$`
also matches before a line break at the very end. -/
def matchesLine (m text : Text) : Bool := text == m || text == m ++ ['\n']

/-- `re.match(start_asn, para.text)` (specs/parse_spec.py:6, 15). -/
def isStart (text : Text) : Bool := matchesLine "-- ASN1START".toList text

/-- `re.match(end_asn, para.text)` (specs/parse_spec.py:7, 19). -/
def isEnd (text : Text) : Bool := matchesLine "-- ASN1STOP".toList text

/-- The loop of `main` (specs/parse_spec.py:14-20), given `start_printing`: the lines it collects. -/
def collect : Bool → List Text → List Text
  | _, [] => []
  | on, p :: ps =>
    let on' := if isStart p then true else on
    let rest := collect (if isEnd p then false else on') ps
    if on' then (p ++ ['\n']) :: rest else rest

/-- `' '.join(argv)`. -/
def joined : List Text → Text
  | [] => []
  | [a] => a
  | a :: b :: as => a ++ ' ' :: joined (b :: as)

/-- `preclude` (specs/parse_spec.py:22-26). -/
def preclude (argv : List Text) : List Text :=
  ["--\n".toList, "-- Generated using : ".toList ++ joined argv ++ ['\n'], "-- DO NOT EDIT BY HAND\n".toList,
    "--\n".toList]

/-- What is written to the file (specs/parse_spec.py:27-29). -/
def output (argv : List Text) (paragraphs : List Text) : Text :=
  (preclude argv).flatten ++ (collect false paragraphs).flatten

/-- What the script does: print how it is used and leave with status 1, fail to read the document, or write a
file. -/
inductive Effect
  | usage
  | unreadable
  | writes (path text : Text)
deriving Repr, DecidableEq

/-- The script (specs/parse_spec.py:32-40), given what `docx.Document` makes of each path. That the file can be
written is assumed. -/
def script (documents : Text → Option (List Text)) (argv : List Text) : Effect :=
  match argv with
  | _ :: spec :: _ :: asn :: _ =>
    match documents spec with
    | some paragraphs => .writes asn (output argv paragraphs)
    | none => .unreadable
  | _ => .usage

end Hampi.Extract
