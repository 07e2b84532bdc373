import Verif.Compiler.Main
/-!
# Running the compiler model on files

No theorem depends on this file. `main` runs the model of the compiler on ASN.1 files and prints the items it
generates, one per line, so that `tools/validate.sh` can compare them with the code which the project itself
generated for the same files (/repo/examples/tests). The order in which definitions are resolved is one of those
the model admits; `C102` says when the order does not matter.
-/
namespace Hampi.Compiler.Tools

/-- `char::is_numeric` on ASCII texts. -/
def ascii : Unicode where
  isNumeric := Char.isDigit
  digit := fun _ h => h
  newline := rfl

/-- The words of heck 0.4: split at other characters than letters and digits, before an upper case letter that
follows a lower case one, and before the last of several upper case letters followed by a lower case one. -/
def heckWords (s : List Char) : List (List Char) := Id.run do
  let mut out : List (List Char) := []
  let mut word : List Char := []
  let parts := (String.ofList s).splitToList fun c => !c.isAlphanum
  for p in parts do
    let cs := p.toList.toArray
    word := []
    -- 0 boundary, 1 lower, 2 upper
    let mut mode := 0
    for h : i in [0:cs.size] do
      let c := cs[i]
      if i + 1 < cs.size then
        let next := cs[i+1]!
        let nextMode := if c.isLower then 1 else if c.isUpper then 2 else mode
        if nextMode == 1 && next.isUpper then
          out := out ++ [word ++ [c]]; word := []; mode := 0
        else if mode == 2 && c.isUpper && next.isLower then
          out := out ++ [word]; word := [c]; mode := 0
        else
          word := word ++ [c]; mode := nextMode
      else
        out := out ++ [word ++ [c]]; word := []
  return out

/-- The case conversions of heck 0.4 on ASCII names. -/
def heck : Spelling where
  snake s := (("_".intercalate ((heckWords s).map fun w => (String.ofList w).toLower))).toList
  shouty s := (("_".intercalate ((heckWords s).map fun w => (String.ofList w).toUpper))).toList

/-- What `TopologicalSort::pop_all` returns, round after round, in the order of the graph; at most `n` rounds. -/
def popAll : Nat → Graph → List Text
  | 0, _ => []
  | n + 1, g => let r := g.ready; if r.isEmpty then [] else r ++ popAll n (g.remove r)

/-- A text as a string. -/
def str (t : Text) : String := String.ofList t
/-- The name of an integer type. -/
def width : Width → String
  | .i8 => "i8" | .i16 => "i16" | .i32 => "i32" | .i64 => "i64"
  | .u8 => "u8" | .u16 => "u16" | .u32 => "u32" | .u64 => "u64"
/-- An upper bound. -/
def bndU (p : String) : Option Int → String
  | some u => s!" {p}ub={u}" | none => ""
/-- An attribute that may be absent. -/
def optS (p : String) : Option Int → String
  | some u => s!"{p}={u} " | none => ""

/-- The attributes and the contents of a newtype. -/
def attrs : Ty → String × String
  | .boolean => ("[type=BOOLEAN]", "(bool)")
  | .null => ("[type=NULL]", "")
  | .objectIdentifier => ("[type=OBJECT-IDENTIFIER]", "")
  | .integer w l u e => (s!"[extensible={e} {optS "lb" l}type=INTEGER{bndU "" u}]", s!"({width w})")
  | .enumerated w l u e => (s!"[extensible={e} {optS "lb" l}type=ENUMERATED{bndU "" u}]", s!"({width w})")
  | .bitstring l u e => (s!"[sz_extensible={e} {optS "sz_lb" l}{optS "sz_ub" u}type=BITSTRING]", "(BitVec<u8,Msb0>)")
  | .octetstring l u e => (s!"[sz_extensible={e} {optS "sz_lb" l}{optS "sz_ub" u}type=OCTET-STRING]", "(Vec<u8>)")
  | .charstring k l u e => (s!"[sz_extensible={e} {optS "sz_lb" l}{optS "sz_ub" u}type={match k with | .utf8 => "UTF8String" | .printable => "PrintableString" | .visible => "VisibleString"}]", "(String)")
  | _ => ("?", "?")

/-- The type of the constants of an enumerated type. -/
def widthOf : Ty → String
  | .enumerated w .. => width w
  | _ => "?"

/-- One line per item. -/
def render : Item → String
  | .newtype i none _ => s!"unknown {str i}"
  | .newtype i (some t) c =>
    let a := attrs t
    s!"struct {str i} {a.1} {a.2}" ++ (if c.isEmpty then "" else " impl " ++ ";".intercalate (c.map fun p => s!"{str p.1}:{widthOf t}={p.2}"))
  | .struct i e o fs =>
    s!"struct {str i} [extensible={e}{match o with | some n => s!" optional_fields={n}" | none => ""} type=SEQUENCE] " ++
    "{" ++ ";".intercalate (fs.map fun f =>
      (match f.optionalIdx with
       | some n => s!"[{if f.keyField then "key_field=true " else ""}optional_idx={n}]{str f.ident}:Option<{str f.ty}>"
       | none => s!"[{if f.keyField then "key_field=true" else ""}]{str f.ident}:{str f.ty}")) ++ "}"
  | .vec i l u e t => s!"struct {str i} [sz_extensible={e} {optS "sz_lb" l}{optS "sz_ub" u}type=SEQUENCE-OF] (Vec<{str t}>)"
  | .choice i l u e vs => s!"enum {str i} [extensible={e} lb={l} type=CHOICE ub={u}] " ++
     "{" ++ ";".intercalate (vs.map fun v => s!"[extended={v.extended} key={v.key}]{str v.ident}({str v.ty})") ++ "}"
  | .openEnum i tagged vs => s!"enum {str i} {if tagged then "[type=OPEN]" else "[]"} " ++
     "{" ++ ";".intercalate (vs.map fun v => s!"[key={str v.key}]{str v.ident}({str v.ty})") ++ "}"
  | .alias i t => s!"type {str i} = {str t}"

/-- `Resolver::resolve_definitions` in one of the possible orders (see `Verif/Compiler/Modules.lean`). -/
def resolveModule (n : Nat) (R : Resolver) (M : Module) : Out Err Resolver :=
  match mapOut (readDefinition (addClasses R M.definitions) M) M.definitions with
  | .ok defs =>
    resolveInOrder n defs (addClasses R M.definitions) (popAll 100000 (graphOf (needsOf M.imports defs)))
  | .err e => .err e
  | .panic => .panic
  | .diverge => .diverge

/-- Compile the files given as arguments. -/
def main (args : List String) : IO UInt32 := do
  let n := 1000000
  let mut texts := []
  for f in args do
    texts := texts ++ [Arg.text (← IO.FS.readFile f).toList]
  match readArgs ascii n [] texts with
  | .err e => IO.eprintln s!"error {repr e}"; return 1
  | .panic => IO.eprintln "panic"; return 1
  | .diverge => IO.eprintln "diverge"; return 1
  | .ok ms =>
    IO.eprintln s!"{ms.length} modules"
    if !importsFound ms then IO.eprintln "imports"; return 1
    let mut R : Resolver := {}
    for k in popAll 100000 (graphOf (moduleNeeds ms)) do
      match getModule ms k with
      | none => IO.eprintln "panic"; return 1
      | some M =>
        IO.eprintln s!"{str k}"
        match resolveModule 1000 R M with
        | .ok R' => R := R'
        | .err e => IO.eprintln s!"error {repr e}"; return 1
        | .panic => IO.eprintln "panic"; return 1
        | .diverge => IO.eprintln "diverge"; return 1
    match generate heck R with
    | .ok items => for i in items do IO.println (render i)
    | .err e => IO.eprintln s!"error {repr e}"; return 1
    | .panic => IO.eprintln "panic"; return 1
    | .diverge => IO.eprintln "diverge"; return 1
    return 0

end Hampi.Compiler.Tools

/-- The entry point of the executable that `tools/validate.sh` builds. -/
def main (args : List String) : IO UInt32 := Hampi.Compiler.Tools.main args
