import Verif.Codec.Encode
import Verif.Codec.Decode
/-!
# Handing the generated code to rustfmt (asn-compiler/src/compiler.rs)

`rustfmt_generated_code` starts another program, writes the code to it from one thread and reads what it prints in another. The
model is a transition system of three parties (the writing thread, the other program, the calling thread) and two pipes of any
capacity, one octet at a time; a schedule is a sequence of steps. Left out: a program that cannot be started (`Err`,
compiler.rs:97), errors of `read` and `wait` other than the end of the pipe (`Err`, compiler.rs:109, 111), a program that closes a
pipe before it ends or leaves one to another process. A pipe without a reader gives the writer an error (EPIPE): the Rust runtime
ignores SIGPIPE.
-/
namespace Hampi.Compiler.Pipes

/-- What the other program does next. -/
inductive Act (σ : Type) where
  /-- Read an octet of the standard input, or its end. -/
  | read (k : Option UInt8 → σ)
  /-- Write an octet to the standard output. -/
  | write (b : UInt8) (next : σ)
  | compute (next : σ)
  /-- End with an exit code, or without one if killed by a signal (`ExitStatus::code`). -/
  | exit (code : Option Nat)

/-- The program that is started as `rustfmt` (compiler.rs:92-97): any program. -/
structure Prog where
  State : Type
  start : State
  act : State → Act State

/-- The thread that writes the code (compiler.rs:102-106). It owns the standard input of the program, which is closed when the thread
ends. -/
inductive Writer where
  | writing
  | wrote
  | failed
deriving DecidableEq

/-- The other program: running, or ended. -/
inductive Child (σ : Type) where
  | running (s : σ)
  | ended (code : Option Nat)

/-- What the function returns: a text, or an error. -/
inductive Formatted where
  | ok (text : List UInt8)
  | err
deriving DecidableEq

/-- The calling thread: in `io::copy` (compiler.rs:109), in `wait` (compiler.rs:111), in `join` (compiler.rs:118), or back. -/
inductive Caller where
  | copying
  | waiting
  | joining
  | returned (r : Formatted)
deriving DecidableEq

/-- The whole system. -/
structure Running (σ : Type) where
  /-- What the thread has yet to write. -/
  todo : List UInt8
  writer : Writer
  /-- The octets in the pipe to the program. -/
  inp : List UInt8
  child : Child σ
  /-- The octets in the pipe from the program. -/
  outp : List UInt8
  /-- `output` (compiler.rs:108). -/
  got : List UInt8
  caller : Caller

/-- `"write error in rustfmt"` (compiler.rs:105). -/
def writeError : List UInt8 := utf8 "write error in rustfmt"

/-- What the thread returns (compiler.rs:103-106). -/
def joined (code : List UInt8) (w : Writer) : List UInt8 := if w = .wrote then code else writeError

/-- `match String::from_utf8(output)` (compiler.rs:113-119). -/
def decideOutput (output : List UInt8) (status : Option Nat) : Caller :=
  if (fromUtf8 output).isSome then
    if status = some 0 then .returned (.ok output) else .returned .err
  else .joining

/-- The system when the program has been started and the thread spawned (compiler.rs:97-108). -/
def launch (P : Prog) (code : List UInt8) : Running P.State :=
  ⟨code, .writing, [], .running P.start, [], [], .copying⟩

/-- A step of one of the three parties; `ci` and `co` are the capacities of the pipes. -/
inductive Step (P : Prog) (code : List UInt8) (ci co : Nat) : Running P.State → Running P.State → Prop
  /-- `write_all` (compiler.rs:103) while there is room. -/
  | write {s : Running P.State} {b rest c} (hw : s.writer = .writing) (ht : s.todo = b :: rest) (hc : s.child = .running c)
      (hr : s.inp.length < ci) : Step P code ci co s { s with todo := rest, inp := s.inp ++ [b] }
  /-- `write_all` (compiler.rs:103, 105) when nobody reads any more. -/
  | broken {s : Running P.State} {b rest c} (hw : s.writer = .writing) (ht : s.todo = b :: rest) (hc : s.child = .ended c) :
      Step P code ci co s { s with writer := .failed }
  /-- The end of the thread (compiler.rs:104). -/
  | wrote {s : Running P.State} (hw : s.writer = .writing) (ht : s.todo = []) : Step P code ci co s { s with writer := .wrote }
  /-- The program reads an octet. -/
  | read {s : Running P.State} {c k b rest} (hc : s.child = .running c) (ha : P.act c = .read k) (hi : s.inp = b :: rest) :
      Step P code ci co s { s with inp := rest, child := .running (k (some b)) }
  /-- The program finds the end of its input: the pipe is empty and the thread has ended. -/
  | eof {s : Running P.State} {c k} (hc : s.child = .running c) (ha : P.act c = .read k) (hi : s.inp = [])
      (hw : s.writer ≠ .writing) : Step P code ci co s { s with child := .running (k none) }
  /-- The program writes an octet, if there is room. -/
  | print {s : Running P.State} {c b next} (hc : s.child = .running c) (ha : P.act c = .write b next)
      (hr : s.outp.length < co) : Step P code ci co s { s with outp := s.outp ++ [b], child := .running next }
  | compute {s : Running P.State} {c next} (hc : s.child = .running c) (ha : P.act c = .compute next) :
      Step P code ci co s { s with child := .running next }
  | exit {s : Running P.State} {c n} (hc : s.child = .running c) (ha : P.act c = .exit n) :
      Step P code ci co s { s with child := .ended n }
  /-- `io::copy` (compiler.rs:109). -/
  | copy {s : Running P.State} {b rest} (hm : s.caller = .copying) (ho : s.outp = b :: rest) :
      Step P code ci co s { s with outp := rest, got := s.got ++ [b] }
  /-- The end of `io::copy` (compiler.rs:109). -/
  | copied {s : Running P.State} {n} (hm : s.caller = .copying) (ho : s.outp = []) (hc : s.child = .ended n) :
      Step P code ci co s { s with caller := .waiting }
  /-- `child.wait()` (compiler.rs:111) and what follows (compiler.rs:113-119). -/
  | wait {s : Running P.State} {n} (hm : s.caller = .waiting) (hc : s.child = .ended n) :
      Step P code ci co s { s with caller := decideOutput s.got n }
  /-- `stdin_handle.join()` (compiler.rs:118). -/
  | join {s : Running P.State} (hm : s.caller = .joining) (hw : s.writer ≠ .writing) :
      Step P code ci co s { s with caller := .returned (.ok (joined code s.writer)) }

/-- A schedule of so many steps. -/
inductive Steps (P : Prog) (code : List UInt8) (ci co : Nat) : Nat → Running P.State → Running P.State → Prop
  | none {s} : Steps P code ci co 0 s s
  | more {n s t u} (h : Steps P code ci co n s t) (hs : Step P code ci co t u) : Steps P code ci co (n + 1) s u

end Hampi.Compiler.Pipes
