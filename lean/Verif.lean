import Verif.Spec.X691
import Verif.Spec.Roundtrip
import Verif.Spec.Ops
import Verif.Codec.Encode
import Verif.Codec.Decode
import Verif.Lemmas.Bits
import Verif.Lemmas.Writer
import Verif.Lemmas.Reader
import Verif.Lemmas.Strings
import Verif.Lemmas.Arith
import Verif.Lemmas.RoundTrip
import Verif.Lemmas.Constrained
import Verif.Lemmas.Items
import Verif.Lemmas.Text
import Verif.Props.Integers
import Verif.Props.Layout
import Verif.Props.Lengths
import Verif.Props.Strings
import Verif.Props.Headers
import Verif.Props.Frame
import Verif.Props.Panics
import Verif.Props.Streams
import Verif.Props.Align
import Verif.Props.Fragments
import Verif.Derive.Model
import Verif.Spec.Derived
import Verif.Lemmas.Derive
import Verif.Lemmas.DeriveRT
import Verif.Lemmas.DeriveOk
import Verif.Props.Derived
import Verif.Spec.Wire
import Verif.Lemmas.Wire
import Verif.Props.Wire
import Verif.Compiler.Tokenizer
import Verif.Spec.Tokens
import Verif.Lemmas.Tokens
import Verif.Props.Tokenizer
import Verif.Compiler.Ast
import Verif.Compiler.Constraints
import Verif.Compiler.Resolved
import Verif.Compiler.Generate
import Verif.Spec.Constraints
import Verif.Lemmas.Constraints
import Verif.Lemmas.Bounds
import Verif.Props.Constraints
import Verif.Props.Bounds
import Verif.Props.Order
import Verif.Props.Unknown
import Verif.Props.Resolve
import Verif.Compiler.Items
import Verif.Spec.Schema
import Verif.Lemmas.Generate
import Verif.Lemmas.Meaning
import Verif.Props.Generate
import Verif.Compiler.Parser
import Verif.Compiler.ParserDefs
import Verif.Lemmas.ParserMono
import Verif.Lemmas.ParserSafe
import Verif.Lemmas.ParserDefsMono
import Verif.Props.ObjectSets
import Verif.Props.Names
import Verif.Spec.Notation
import Verif.Spec.NotationDefs
import Verif.Lemmas.ParserReads
import Verif.Lemmas.ParserReadsTypes
import Verif.Lemmas.Tables
import Verif.Lemmas.ParserReadsDefs
import Verif.Props.Parser
import Verif.Props.ParserMore
import Verif.Props.TokenizerBack
import Verif.Props.Params
import Verif.Lemmas.ParserEnds
import Verif.Spec.Plain
import Verif.Lemmas.Plain
import Verif.Lemmas.Plain2
import Verif.Lemmas.Plain3
import Verif.Lemmas.Plain4
import Verif.Lemmas.Plain5
import Verif.Props.Pipeline
import Verif.Compiler.Main
import Verif.Spec.Text
import Verif.Lemmas.Main
import Verif.Lemmas.FileOrder
import Verif.Derive.Macro
import Verif.Compiler.Rust
import Verif.Spec.Rust
import Verif.Spec.Names
import Verif.Lemmas.Macro
import Verif.Lemmas.Render
import Verif.Lemmas.Names
import Verif.Props.Main
import Verif.Props.Macro
import Verif.Props.Classes
import Verif.Props.Objects
import Verif.Props.ObjectExample
import Verif.Props.Separate
import Verif.Props.Hostile
import Verif.Props.Canonical
import Verif.Props.Versions
import Verif.Examples.Ngap
import Verif.Examples.S1ap
import Verif.Examples.Ranap
import Verif.Spec.Padding
import Verif.Spec.Keys
import Verif.Spec.Messages
import Verif.Lemmas.Keys
import Verif.Lemmas.WfDec
import Verif.Props.Padding
import Verif.Props.Messages
import Verif.Tests.Codec
import Verif.Tests.Compiler
import Verif.Tests.Messages
import Verif.Tools.Compile
import Verif.Props.Release
import Verif.Props.EncodePanics
import Verif.Props.Patch
import Verif.Compiler.Rustfmt
import Verif.Spec.Rustfmt
import Verif.Props.Rustfmt
import Verif.Compiler.Session
import Verif.Props.Session
import Verif.Spec.DecodePanics
import Verif.Props.PanicsExact
import Verif.Props.ShortStrings
import Verif.Spec.Short
import Verif.Props.Short
import Verif.Props.ShortMessages
import Verif.Props.Unambiguous
import Verif.Props.Outcome
import Verif.Spec.Newer
import Verif.Props.Newer
import Verif.Props.NewerExample
import Verif.Props.ReferenceConstraint
import Verif.Props.Sizes
import Verif.Spec.Accepted
import Verif.Lemmas.ParserAccepts
import Verif.Lemmas.ParserAcceptsTypes
import Verif.Lemmas.ParserAcceptsDefs
import Verif.Props.Accepted
import Verif.Spec.Mentions
import Verif.Lemmas.Mentions
import Verif.Props.References
import Verif.Spec.Sender
import Verif.Lemmas.Sender
import Verif.Props.Sender
import Verif.Spec.Legible
import Verif.Lemmas.Legible
import Verif.Lemmas.Lay
import Verif.Props.Legible
import Verif.Extract.Model
import Verif.Spec.Extract
import Verif.Props.Extract
import Verif.Props.MessageSize
import Verif.Spec.Endless
import Verif.Lemmas.Ends
import Verif.Props.Ends
import Verif.Spec.Grow
import Verif.Lemmas.Grow
import Verif.Props.Grow
import Verif.Spec.Relay
import Verif.Lemmas.Relay
import Verif.Props.Relay
import Verif.Spec.Longest
import Verif.Lemmas.Longest
import Verif.Props.Longest
import Verif.Spec.Obeys
import Verif.Lemmas.Obeys
import Verif.Props.Obeys
import Verif.Spec.Refactor
import Verif.Lemmas.Refactor
import Verif.Props.Refactor
import Verif.Spec.Reformat
import Verif.Lemmas.Reformat
import Verif.Props.Reformat
import Verif.Spec.Reorder
import Verif.Props.Reorder
import Verif.Props.Spread
import Verif.Spec.Cause
import Verif.Lemmas.Cause
import Verif.Props.Cause
import Verif.Props.Interoperate
import Verif.Props.OpenLength
import Verif.Props.Work
import Verif.Props.Mixture
import Verif.Spec.Place
import Verif.Props.Place
import Verif.Props.CutOff
import Verif.Lemmas.TokensForm
import Verif.Props.CutText
import Verif.Props.Below
import Verif.Spec.Trips
import Verif.Lemmas.Trips
import Verif.Lemmas.TripsTypes
import Verif.Lemmas.TripsModules
import Verif.Props.Trips
import Verif.Lemmas.Persist
import Verif.Props.Persist
import Verif.Spec.Emits
import Verif.Lemmas.Emits
import Verif.Props.Emits
import Verif.Spec.Idents
import Verif.Lemmas.IdentsParser
import Verif.Lemmas.IdentsModules
import Verif.Lemmas.IdentsResolver
import Verif.Lemmas.IdentsGenerate
import Verif.Props.Idents
import Verif.Props.PipelineLimits
import Verif.Props.ParserLimits
import Verif.Audit
