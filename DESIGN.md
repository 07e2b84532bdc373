# Formal model of gabhijit/hampi in Lean 4: design

hampi is a Rust ASN.1 toolkit of three crates:

* `codecs` – the run-time library: a bit buffer (`AperCodecData`) and encode/decode
  functions for the aligned packed encoding rules (APER, ITU-T X.691);
* `codecs_derive` – derive macros that emit `encode`/`decode` for user types by composing
  the run-time functions;
* `asn-compiler` – tokenizer, parser, resolver and generator that turn ASN.1 text into
  Rust types carrying the attributes the derive macros read.

The model covers the run-time library completely, the derive macro and the code it emits,
and the compiler from the files to the generated items. The list of claims is `properties.jsonl`; the state of
each is `MANIFEST.json`.

## 1. Trusted base

* Lean 4.33.0's kernel. No `sorry`, no `admit`, no `native_decide`, no `bv_decide`, no axiom
  of our own. Every property theorem depends at most on `propext`, `Classical.choice` and
  `Quot.sound`; `lean/Verif/Audit.lean` prints the axioms of each of them during the build.
* The reading of the Rust source: nothing here is extracted mechanically. Every model
  definition cites the file and lines it models, and states its simplifications.
* The specification files `lean/Verif/Spec/*.lean`: short, independent statements of what
  X.691 prescribes, of octet strings, of dependency order etc. They do not use model helpers.
* Behaviour of external crates assumed by the model:
  * `bitvec` 1.0: `BitVec<u8, Msb0>` is a list of bits; `push`, `extend_from_bitslice`, `resize`,
    slicing (`panic` when out of range) and `set` do what their names say; `load_be` reads the
    slice as a big-endian binary number (panics on 0 bits or more bits than the target type);
    `load` is `load_le` on little-endian targets, so an 8-bit slice that straddles two storage
    bytes comes back rotated; `from_bitslice`/`to_bitvec` keep the storage offset of the first
    bit; `into_vec` of a vector starting at storage offset 0 zero-fills the last octet (bits are
    never removed from a buffer, so no stale bits exist).
  * `topological-sort` 0.1: `add_dependency`, `insert`, `pop_all` (removes and returns all items
    without remaining predecessors; an item never popped blocks its successors forever). Modelled
    from its documentation; the theorems hold for every order in which `pop_all` lists its items.
  * `heck`: the spelling functions (`to_snake_case`, `to_upper_camel_case`, ...) are parameters of the
    generator. Theorems about names hold for every such function, or name what they need of it.
  * `syn`/`quote`: a generated item is what its token stream says; `Compiler/Rust.lean` (`Renders`) says
    which Rust item, as the macro sees it, the generator writes.
  * rustc: `Spec/Rust.lean` (`NamesFit`) says what it demands of the names in a file. That it accepts
    the rest of the emitted code, and that the code does what it says, is assumed.
  * `char::is_whitespace`, `is_alphabetic`, `is_numeric` etc. are a parameter `Unicode` of the tokenizer
    with the laws the code relies on (ASCII behaviour).
  * `HashMap`: the order of iteration is not specified. Where it can be seen (sorting, resolution) it is
    a parameter; where the parser only fills maps, they are kept in the order of the keys.

For C110 and C111 the transcription tools/transcribe.py is trusted as well: it turns each
`#[derive(AperCodec)]` item of examples/tests/{11-ranap,12-s1ap,13-ngap}.rs into one Lean definition with
the lines it came from, reading the attributes the way Verif/Derive/Macro.lean models the macro, and it
stops at anything it does not expect.

## 2. What is modelled and how

State: `Codec = { bits : List Bool, off : Nat, key : Option Int }`. A Rust function
`fn f(data: &mut AperCodecData, args) -> Result<T, _>` is `f args : Codec → Res T` where
`Res T = ok value state | err state | panic`. Error messages are not modelled, but the state
left behind by an error is. A panic is a separate outcome, never confused with an error.

Integers: `i128`, `usize`, `u8` are `Int`/`Nat`, with explicit range checks at each operation
that can overflow. Overflow is `panic` (debug profile, and the profile tests run in). What a release
build does with the same inputs is a second model, `Verif/Derive/Release.lean`: the functions that contain such an
operation once more, with results that wrap. C112 relates the two, and C113 shows what wrapping costs. Casts (`as u8`, `as usize`, `as i64`) are modelled as the
truncations they are. Memory exhaustion is not modelled. Little-endian target.

Not modelled: logging (`log::debug!`, `dump`), error texts, performance, memory, the
spans and tokens of the derive crate (its result is kept as the calls it emits), what rustfmt does with a text (handing it the text is modelled, Compiler/Rustfmt.lean), the parsing of the command line, formatting of generated text.

Files:

* `Verif/Bits.lean`, `Verif/Codec/*.lean` – model of `codecs`.
* `Verif/Derive/Model.lean` – a universe of derivable types; the emitted `encode`/`decode` by
  recursion on the type. `Verif/Derive/Macro.lean` – the macro: from attributes to the calls it emits.
  Recursive Rust types are not in the universe (the compiler's
  dependency sort drops cyclic definitions, see C59).
* `Verif/Compiler/Tokenizer.lean` – `tokenizer/mod.rs`, as a loop over the characters.
* `Verif/Compiler/Parser.lean`, `ParserDefs.lean` – all of `parser/`. The Rust functions loop and call
  each other without a bound; each model function takes a number of steps and is `diverge` when they
  are used up. It is proved that more steps never change a result (`ParserMono`,
  `ParserDefsMono`), so "for some number of steps" and "from some number on" are the same, and the
  code hangs exactly when every number gives `diverge` (`Hangs`).
* `Verif/Compiler/Ast.lean`, `Constraints.lean`, `Resolve.lean`, `Resolved.lean`, `Modules.lean`,
  `Sort.lean`, `Defs.lean` – `resolver/` and `structs/`: constraints, value and type resolution,
  classes, object sets, parameterized types, dependency sort, order of modules. The parser functions
  that the resolver calls (`applyParams`, `parseObject`, `parseObjectsOfSet`) are fields of `Module`;
  `ParsedModule.toModule` puts the modelled ones there.
* `Verif/Compiler/Generate.lean`, `Items.lean` – `generator/`: from resolved definitions to items with
  attributes, names included. `Rust.lean` – which Rust items their tokens are.
* `Verif/Compiler/Main.lean` – the program `bin/hampi-asn1c.rs`, from the contents of files to items.
* `Verif/Extract/Model.lean` – the script `specs/parse_spec.py`, from paragraphs to a file.
* `Verif/Spec/*.lean` – independent specifications.
* `Verif/Lemmas/*.lean` – helper lemmas.
* `Verif/Props/*.lean` – the property theorems, each followed by an example that its hypotheses
  are met by a concrete case. Theorems ending in `_partial` prove part of the property; the
  full statement is in the doc comment. Theorems ending in `_counterexample`/`_violated` prove
  the negation of a property that the code does not have.

* `Verif/Tests/*.lean`, `Verif/Tools/Compile.lean` – see the next section.

## 2a. How the transcription was checked

No theorem can say that the model is a faithful reading of the Rust code. Two things were done besides reading.
Both are tests, no claim rests on them.

* Every unit test of the project that asserts something (33 of `codecs`, 29 of `asn-compiler`, with all their
  cases), and the three messages that `examples` decodes, are asked of the model: `Verif/Tests/Codec.lean`,
  `Compiler.lean`, `Messages.lean`. All of them hold, checked by the kernel in the build.
* `tools/validate.sh` runs the model of the compiler on the ASN.1 files of `/repo/specs` for NGAP, S1AP and RANAP
  and compares what it generates with the Rust code which the project generated for them
  (`/repo/examples/tests`): 1928, 1451 and 1521 items, with all names, attributes, fields, variants, keys and
  constants, in the same order. All are equal. `Verif/Tools/Compile.lean` is the driver; it fixes one order of
  resolution, and the spelling functions of `heck`, which are parameters of the model.

## 3. Properties: what is modelled, how it is proved

Run-time library (C01–C35). Everything rests on four structural facts proved once per
function by composition through the monad:

1. *writer*: an encoder's effect is `bits ↦ bits ++ w`, where `w` and the outcome depend only on
   the arguments and `bits.length % 8`, not on the contents, position or key;
2. *reader*: a decoder leaves `bits` and `key` alone, moves `off` forward within the buffer;
3. *local*: a successful decode is unchanged by appending bits and by changing the prefix to
   another of the same length modulo 8;
4. *round-trip*: for each encoder/decoder pair, by case analysis on the layout.

| id | plan |
|----|------|
| C01 | encode/decode constrained number; case split on range class; big-endian bit lemma; recursive length field |
| C02 | success for every in-range value except `v = lb` with more than 65536 values (`_partial`), negation for that value |
| C03 | comparisons come first in the model: direct |
| C04 | partial: values whose minimal two's complement length is 1–8 or 16 octets; negation for the rest (all values of 9–15 octets) |
| C05 | round-trip through minimal octets, unsigned reading |
| C06 | partial: exact characterisation of when it holds; negation witness |
| C07 | spec function for X.691 10.5.7; equality of bits; partial, and for the two sizes left out the exact condition for equality |
| C08 | minimality of octet count against an arithmetic specification |
| C09 | case split on layout |
| C10 | iff characterisation |
| C11, C12 | round-trip, induction not needed (encoder never fragments) |
| C13 | partial: round-trip when string longer than two octets or aligned or empty; for shorter ones what they are read back as, and exactly which come back |
| C14 | result is `some s` iff bytes valid; Lean's `String` is by construction valid UTF-8 |
| C15 | induction on fragments against a specification encoder; character strings in fragments are cut after the first (violated) |
| C16 | `encode_enumerated`/`decode_enumerated` in the root: the constrained number of C01 behind an optional bit; all bounds and values |
| C17 | same for the index of a CHOICE |
| C18 | header as a list of flags: read back what was written, for any number of them; layout bit by bit |
| C19 | one bit written, one bit read, in every state |
| C20 | writer fact over a list of encode operations (all public encoders as data) |
| C21 | reader fact over a list of decode operations |
| C22, C23 | local fact |
| C24, C25 | panic characterisation as an equivalence with Spec/DecodePanics.lean; partial and negations |
| C26 | induction on the list of items |
| C27 | corollary of round-trip and locality |
| C28 | direct, arithmetic modulo 8 |
| C29 | partial for the functions/parameters where it holds, negations elsewhere |
| C30 | direct |
| C31 | specification encoders for extension additions, strings in fragments included; integers of 9 to 15 octets and character strings in fragments violate it |
| C32 | bits/octets conversions |
| C33 | writer/reader facts plus direct |
| C34 | from C10 |
| C35 | specification of 10.9; partial and negation |

Derived codecs (C36–C49): universe `Ty`, dependent values `Ty.Val`, mutual structural recursion;
round-trip by induction on the type with a three-part invariant (bits written, key threading for
open types, padding left unread after an open type). C36 and C49 need a syntactic check on the type
that rules out an unaligned item after an open type (the code misreads those; shown by a negation).

| id | plan |
|----|------|
| C36 | round trip by induction on the type (partial: checks above, `Ty.track` for single values); negation after an open type |
| C37 | decoding of presence bits; each optional component is read exactly when its bit is set |
| C38 | match on the index read: no alternative of that key, no value |
| C39 | exact condition on the number of root alternatives (an equivalence); negation for the others; encoding side in full |
| C40 | induction on the list; the empty list fails for every element type |
| C41 | negations in general: no size bound is enforced |
| C42 | the alternative read is the one of the key set before; locality of readers |
| C43 | layout written in full; negation in general: any announced length gives the same value and end (Props/OpenLength) |
| C44, C45 | writer and reader facts (`IsWriter`, `IsReader`) carried through types by induction |
| C46 | negation for every root value below 64; partial for the others |
| C47 | bounds of the Rust integer types against the values decoded |
| C48 | content of zero bits panics in general; partial for all others |
| C49 | induction on the list of messages with C36 |

Hostile input to derived decoders (C105–C106): C105 by induction on the type with the invariant `Firm`
(no panic on octets, and a list's loop ends because each element takes at least one bit, `Ty.takes`);
C106 by induction on the type with a linear bound `base + rate * bits`, and for the messages of the
three protocols with the least number of bits of each type (Props/MessageSize.lean). Spec/Hostile.lean has the
attributes under which they hold and the size of a value; the rest is shown false.

Other messages than the encoder's (C107–C108): C107 by induction on the type, with the exact word each
decoder has read (`Eaten`) compared to the word the encoder writes; Spec/Canonical.lean has the types
for which it holds. C108 by the frame of readers (C45) and a specification of extension additions
(Spec/Versions.lean). The forms for which they fail are shown by negations.

Keys of records and whole protocols (C109–C111): the round trip is proved value by value
(`Ty.track` of Spec/Padding.lean says where padding bits of an open type stay unread; `Ty.rtt` in
Lemmas/DeriveRT.lean is the induction). C109 by induction on the type with the invariant "the key of the
codec is the key of the record". The types shipped for NGAP, S1AP and RANAP are definitions in
Verif/Examples, written by tools/transcribe.py from examples/tests; C110 evaluates the checks of C36 and
C109 on them in the kernel and applies the theorems, so it ranges over all values of 280 messages; C111
is refuted by evaluation and, for the loop of 2^64 rounds, by induction. For messages of up to 18 octets C105 and
C111 are proved (Props/Short.lean, Props/ShortMessages.lean): the invariant `Quiet` bounds the buffer, and after the
extension bit no index of more than 16 octets is left; the checker `Ty.sane` is evaluated on the shipped types in the kernel.
For messages of any length Props/Cause.lean says exactly which octets panic: `Ty.Reaches` (Spec/Cause.lean) is the way of
the decoder to a component, `Ty.Breaks` what panics there; both directions by induction on the type.

Release builds (C112, C113) and panics of encoders (C114): "the release build returns what the debug build returns, unless
that panics" is a relation between two computations that all constructs of the model respect, so it is carried through the
run-time functions and, by induction on types, through derived code. Round trips and the absence of panics then hold of release
builds too. For C114 every run-time encoder is shown to return on parameters of reasonable size, and the result is carried through types by
induction; the excluded values are shown to panic.

Changing a buffer in place (C115): `set_bit`, `swap_bits`, `seek` and `reserve` on the list of bits; going back relies on decoders
leaving the buffer as it is (C21), replacing a field on its round trip (C36).

Compiler (C50–C104).

| id | plan |
|----|------|
| C50, C51 | tokenizer loop; a token's source has a form that depends on its type (`Spec/Tokens`); induction on the text |
| C52 | exactly the texts that panic (an equivalence); partial for the others, negations for each kind |
| C53 | keyword table against the list of X.680; partial but for one misspelt word |
| C54 | value sets with membership (`Spec/Constraints`); union of operands by induction, an equivalence for every integer |
| C55 | negations for unlike operands in general; sound in one direction; exact for operands written alike |
| C56 | least and greatest element of a value set against `min`/`max`; negations for mixtures and serial constraints; for mixtures an equivalence (Props/Mixture) |
| C57 | width and sign chosen from the bounds; exact for unsigned and signed sets that fit, negations elsewhere |
| C68 | success of the evaluation by induction on a union; negations for MIN/MAX, parentheses and inclusion |
| C69 | C56 for sizes; strings and SEQUENCE OF; negations for markers outside SIZE, intersections and unions of SIZE |
| C58 | `pop_all` loop over an arbitrary graph and arbitrary hash orders; invariant of the loop; Spec/Mentions says where a name stands in a definition, and the references collected are exactly those, hidden places aside |
| C59 | same loop: what is neither on nor above a cycle is processed; what is, is not (negation in general) |
| C63 | same loop over modules and their imports; mutual imports lose modules (negation) |
| C60 | generator on an arbitrary CHOICE: keys and bounds by induction on the alternatives |
| C61 | generator on an arbitrary SEQUENCE: counter of optional components by induction on the components |
| C62 | `Means`: the codec a resolved definition means; the generated items stand for it and it round-trips (C36) |
| C64 | `Ty.Layout` (`Spec/Wire`): X.691 layout of a whole value; equality with the bits written |
| C65 | line of a token against the line ends before it in the text; invariant of the tokenizer loop |
| C66 | column likewise; partial for texts without tokens over several lines, negation with one |
| C67 | shape of number tokens; negations for lone hyphens and numeric characters outside ASCII |
| C70 | resolver over an arbitrary set of modules and iteration order (for C70–C79); a constraint on a reference is dropped: negation in general, and on the wire |
| C71 | iteration order of hash maps as a parameter; negations by small modules; same codecs under all orders for proper schemas, from C95 |
| C72 | two modules with a definition of the same name (negations); modules with other names change nothing (from C95 and C128) |
| C73 | every name in a resolved type is resolved before it: invariant of the resolution order |
| C74 | effect of adding a module on the map of modules; the flag returned is the opposite (negation) |
| C75 | components of a resolved SEQUENCE/CHOICE against the parsed ones, one by one; negations for DEFAULT and addition groups |
| C76 | induction on the depth of the unknown name; negation beside fields of a class |
| C77 | components whose types come from a class, by induction; negations for the ones that do not |
| C78 | table of an object set against its objects; alternatives of the open type against the table |
| C79 | rank of the resolution order decreases along references; negation for a name in two modules |
| C80 | generator with arbitrary spelling functions (for C80–C84); names collected from all items; an equivalence with distinctness of the paths |
| C81 | field names differ when the spellings do; negations for keywords and spellings that fall together |
| C82 | constants of an enumeration by position; negations beyond 256 values and for explicit numbers |
| C83 | keys of alternatives by position; negation for every extensible CHOICE with additions |
| C84 | range and extensibility of an enumeration from the number of its values |
| C85 | the notation as relations between results and token lists (`Spec/Notation`, `Spec/NotationDefs`), each function reads what is written, by mutual induction on the derivation |
| C86 | hanging texts in general; it ends on the notation, and elsewhere unless a loop is at a token it never takes (measure: number of tokens left, mutual induction) |
| C87 | rest of the input is a suffix; a panic needs one of three last tokens |
| C88 | parser on a SEQUENCE with additions outside of groups (negation in general); exact for groups, from C85 |
| C89 | parser on a CHOICE with additions before a group and with a second marker (negations); exact otherwise |
| C90 | definitions of a module as a map: the last one wins (negation); distinct names all kept |
| C91 | families of malformed texts that are accepted (negations, `Props/ParserMore.lean`, `Props/ParserLimits.lean`); structure of what is accepted by inversion of the parser |
| C92 | families of legal modules that are refused (negations, in the same files); acceptance by induction on the notation |
| C93 | `applyParams` against the simultaneous substitution of X.683 (`Spec.instantiated`), through C85 |
| C94 | converse of C50: every `Tiles` is found by the tokenizer; a turn of the loop takes each `Shape`, induction on the tiling |
| C95 | `ProperSchema` and `Describes` (Spec/Plain) give a schema its meaning from X.680 alone; the resolver succeeds on every order (invariant `Ready` over definitions and modules, `Grows`), each type resolves to what it means by mutual induction on `Describes`, the generator by induction on `Means` |
| C96 | C95 with C36 and C64: bits of every permitted value of every type of a schema; `Props/PipelineLimits.lean`: a proper schema with values for which it fails |
| C97 | C94, C85 and C95 composed: `Spells` (Spec/Text) relates a text to the modules it writes |
| C98 | `Sorted` and module lookup do not depend on the order of modules with different names; `HashMap::insert` replaces |
| C99 | the loop over the files by induction |
| C100 | the macro on what the generator writes (`Renders`), against what the attributes say (`Stands`) and against the schema (C97); mutual induction on `Stands` and on `Codes` |
| C101 | the two loops over the attributes by induction; negations for entries that are ignored |
| C102 | `allNames`: the names a schema asks for; the items have these and numbered ones, up to order; mutual induction on resolved types |
| C103 | classes made known by earlier modules stay known: induction on the order of modules, with the module order of C63 |
| C104 | `ObjectNote`, `FieldsOf` (Spec/ObjectNotation): the notation of an object in the syntax of its class; the loop of `parse_object_from_class` by induction on the settings, its inner readers by C85; texts through C94; negations by small classes |
| C116, C117 | `rustfmt_generated_code` as a transition system of three parties and two bounded pipes (Compiler/Rustfmt.lean), against the program run by itself (`Formats`, Spec/Rustfmt.lean); invariant with a decreasing bound, case analysis for deadlocks |
| C118, C119 | the compiler as a library: histories of calls (Compiler/Session.lean); induction on the history |
| C120 | `Ty.Sendable` (Spec/Unambiguous): values within the sizes, without the restrictions of the decoders; mutual induction over types with a relation between two runs of encoders from one buffer (`Tells`, Lemmas/Tells), whose base cases are round trips and layouts |
| C121 | `Ty.outcome` (Spec/Outcome): Ok, Err or panic computed from attributes and value; mutual induction over types for encoders that end alike in every buffer |
| C122 | `Ty.Newer` and `Grown` (Spec/Newer): types and resolved schemas with more alternatives; induction over the relation builds the injection of values; `Means` carries schemas to types, C62 to generated files; `NewerSchema` (Spec/NewerSchema): the same for schemas as they are written, carried to types by induction over `Describes`, and to generated files by C95 |
| C123 | Spec/Accepted: the notation with the parser's liberties, as relations between what is read and tokens; soundness of each parsing function, the mutually recursive ones by induction on the nesting bound; C50 says which texts tokens have |
| C124 | Spec/Sender: a check on attributes, and the values whose lists have the elements demanded; lemma that what is encoded takes at least one bit; then the outcome of C121 is no panic. The generated types of the three protocols by evaluating the check |
| C125 | Spec/Legible: which values (no encoder involved) and where the decoder stands after them (exact, before padding, before an unread octet); each leaf by uniqueness of the prescribed bits; then the derived decoders by mutual recursion over types. The protocols by a check on attributes. Violations by computing the prescribed bits (Lemmas/Lay) and running the decoder |
| C126 | Extract/Model: the loop of specs/parse_spec.py over paragraphs; `Passages` (Spec/Extract) by cutting at the markers, shown total and unique; the heading as comments through `Tiles`, then C97's reader |
| C127 | `Unfolds`, `Endless` (Spec/Endless) on the instances of parameterized types; a chain that ends gives accessibility, well-founded induction on it gives a depth of calls for each instance, induction on the type for what stands around it, and the greatest of finitely many depths for the schema; violated by a schema read through C97 |
| C128 | `Extends`, `SchemaGrows` (Spec/Grow) on the parsed modules; what a scope sees it still sees in the larger schema, and since names have one definition it sees nothing else there; induction on `Describes` carries the meaning of each type over, C95 gives both files; violated by the running numbers in names |
| C129 | `Ty.Usual`, `Ty.Relayable` (Spec/Relay); what any octets decode to is well formed (`Ty.decode_wf`, induction on the type) and announced by its keys (C42), so the round trip of C36 applies to it; violated where sizes of lists are not checked (C41) and for short texts (C13) |
| C130 | `Ty.longest`, `Ty.ListsFit` (Spec/Longest); every encoder appends at most so many bits, also when it fails (`Adds`, since the length of a list is written with its error ignored); induction on the type; violated by lists whose size is not checked (C41) |
| C131 | `Spec/Obeys.lean` (`Ty.Obeys`: bounds, sizes in units of the type, alphabets, at all depths), `Lemmas/Obeys.lean` | Mutual induction over the derived type. Sending: C03 and C34 at the leaves. Receiving: C06 at the leaves, for types whose bounds fill their bit fields. Violations by evaluated messages and values |
| C132 | `Spec/Refactor.lean` (`Rewritten`: naming, inlining and renaming of parts and constraints with the same bounds, as a relation between ASN.1 types), `Lemmas/Refactor.lean` | Induction over the meaning (`Describes`) of the first schema: the rewritten type has the same meaning in the second. With C95 for both |
| C133 | `Spec/Reformat.lean` (`Worded`: a text as words with blanks between; `SameWords`), `Lemmas/Reformat.lean` | Every parser function commutes with forgetting positions (`Par`), by induction over the depth; C94's steps give the tokens of a text made of words; `Runs` of the whole program |
| C134 | `Spec/Reorder.lean` (`Reordered`: two ways to write a module) | Both notations give the same sorted table, so with C85 the same module; `Runs` of the program. Violations by evaluation of the parser |
| C135 | Files given by what they spell (Spec/Text.lean) | Reading gives the modules of all files up to order, and resolving does not depend on the order of modules; tokens of a text followed by another; partial because false for modules of one name and for classes at the end of a module |
| C136 | `Props/Interoperate.lean`, composition of C97, C100, C132 and C96 | The codec a schema means by a type is the codec of either file; then the round trip |
| C137 | `Ty.work` (Spec/Work): calls of decoding functions up to the first error; a bound for results by bits consumed and one for failures by bits left (`Working`, Lemmas/Work), induction on the type with a rate per bit (`Ty.Limited`), evaluated on the shipped types; violations through `Ty.Reaches` of C105 |
| C138 | `Cut`, `NoToken` (Spec/Place): the tokens before a place and that none comes next; the loop of the tokenizer by induction on `Cut`, with line and column as invariants |
| C139 | The parser on the tokens of a text and on a prefix of them, comments aside. Accepted texts are `AccModules` (C123), every module of which ends with END; when the number of ENDs is the number of modules, a prefix that ends with END is a number of pieces (induction over the pieces). For legal notation the result follows with C85. The violation is a concrete text, run by the kernel. For cuts at any character the tokenizer runs on the text and on its beginning in lockstep (`cut_tokens`): a turn of the loop depends on the source of its token and on the one character after it (`shape_cut`, `step_formed`), so the turns agree until a token is cut in two, and this token can only be END when the word goes on. |
| C140 | The tokenizer on `above`, `below` and both. The loop runs on the text above and on the whole in lockstep, as for C139 (`step_goes_on`); that every function of the tokenizer does the same on any line is proved one by one (`step_down`, `tokenizeFrom_down`). |
| C141 | The whole compiler. Spec/Trips.lean lists the reasons in terms of what is written in the modules. With none of them there, every function of the resolver keeps an invariant of what it has resolved (`Steady`: no bound at the end of 128 bits, no CHOICE or ENUMERATED without a root, all of it from types that appear in the schema), under which no step of the resolver or generator panics. Violations: eight files, read by the kernel, for which every run panics. |
| C142 | The program at two depths of nested calls, in lockstep: reading, each definition, each module and the generator (`Follows`). |
| C143 | The program. It is put together from C51 (tokenizer), C86 (parser), C127 (resolver) and the generator, which is structural; C142 carries the bound for the modules read at one depth to all greater ones. |
| C144 | `Emits` (Spec/Emits.lean) tells from the entries that stand last what is asked for; both directions by what the loops over the attributes keep (`EntryReads`), then by cases on the type. |
| C145 | `Name` and `Item.Identifiers` (Spec/Idents.lean); an invariant from tokens (`Fine`, kept when parameters are replaced) over what the parser accepts (C123, induction on the notation) and what the resolver keeps to the items of the generator. |

What `Spec/Notation` leaves out of X.680–X.683: tags, SET and SET OF, COMPONENTS OF, selection types,
EMBEDDED PDV, EXTERNAL, REAL, RELATIVE-OID, useful types, EXCEPT and ALL EXCEPT, UNIQUE with defaults,
PATTERN, WITH COMPONENTS, user-defined constraints, exceptions, value set assignments, XML values,
EXPORTS. Most are refused (C92), some make the parser hang (C86), some are read as something else (C91).

Wrong programs: `seeded/LOG.jsonl` lists edits of the model and the theorems that then fail. It was
used to tighten theorems that survived.

No property is given up as inexpressible. Those the code violates are `partial`, with the negation proved.
