import Verif.Spec.Rustfmt
/-!
# The formatter (C116, C117)

`Steps P code ci co n (launch P code) s`: after `n` steps, scheduled in any way, of the writing thread, the calling thread and the
program, the system may be in the state `s`. `Formats P code out n` (Spec/Rustfmt.lean): given the code, the program by itself prints
`out` and ends with the exit code `n`.
-/
namespace Hampi.Compiler.Props
open Hampi.Compiler.Spec Hampi.Compiler.Pipes

/-- `Prints` in so many steps. -/
inductive PrintsIn (P : Prog) : Nat → P.State → List UInt8 → List UInt8 → Option Nat → Prop
  | exit {c inp n} : P.act c = .exit n → PrintsIn P 1 c inp [] n
  | read {m c k b inp out n} : P.act c = .read k → PrintsIn P m (k (some b)) inp out n → PrintsIn P (m + 1) c (b :: inp) out n
  | eof {m c k out n} : P.act c = .read k → PrintsIn P m (k none) [] out n → PrintsIn P (m + 1) c [] out n
  | write {m c b c' inp out n} : P.act c = .write b c' → PrintsIn P m c' inp out n → PrintsIn P (m + 1) c inp (b :: out) n
  | compute {m c c' inp out n} : P.act c = .compute c' → PrintsIn P m c' inp out n → PrintsIn P (m + 1) c inp out n

theorem prints_in {P : Prog} {c inp out n} (h : Prints P c inp out n) : ∃ m, PrintsIn P m c inp out n := by
  induction h with
  | exit h => exact ⟨1, .exit h⟩
  | read h _ ih => exact ih.elim fun m ih => ⟨m + 1, .read h ih⟩
  | eof h _ ih => exact ih.elim fun m ih => ⟨m + 1, .eof h ih⟩
  | write h _ ih => exact ih.elim fun m ih => ⟨m + 1, .write h ih⟩
  | compute h _ ih => exact ih.elim fun m ih => ⟨m + 1, .compute h ih⟩

/-- What the function may return, given what the program prints. -/
def PipesAnswer (code out : List UInt8) (n : Option Nat) (r : Formatted) : Prop :=
  if (fromUtf8 out).isSome then r = (if n = some 0 then .ok out else .err)
  else r = .ok code ∨ r = .ok writeError

/-- What is left of the program's run: steps, and what it has yet to print. -/
def ChildLeft (P : Prog) (n : Option Nat) (s : Running P.State) (m : Nat) (out : List UInt8) : Prop :=
  match s.child with
  | .running c => PrintsIn P m c (s.inp ++ s.todo) out n
  | .ended c => m = 0 ∧ out = [] ∧ c = n

/-- What is left for the writing thread. -/
def writerLeft (w : Writer) : Nat := if w = .writing then 1 else 0

/-- What is left for the calling thread. -/
def callerLeft : Caller → Nat
  | .copying => 3
  | .waiting => 2
  | .joining => 1
  | .returned _ => 0

/-- What holds in every reachable state; `k` bounds the steps left. -/
structure PipesHold (P : Prog) (code out : List UInt8) (n : Option Nat) (s : Running P.State) (k : Nat) : Prop where
  left : ∃ m rest, ChildLeft P n s m rest ∧ s.got ++ s.outp ++ rest = out ∧
    k = 2 * m + s.todo.length + writerLeft s.writer + s.outp.length + callerLeft s.caller
  wrote : s.writer = .wrote → s.todo = []
  failed : s.writer = .failed → ∃ c, s.child = .ended c
  caller : s.caller ≠ .copying → (∃ c, s.child = .ended c) ∧ s.outp = []
  answer : ∀ r, s.caller = .returned r → PipesAnswer code out n r
  joining : s.caller = .joining → (fromUtf8 out).isSome = false

theorem holds_step {P : Prog} {code out n ci co} {s t : Running P.State} {k : Nat} (h : PipesHold P code out n s k)
    (hs : Step P code ci co s t) : ∃ k', k' < k ∧ PipesHold P code out n t k' := by
  obtain ⟨⟨m, rest, hl, ho, hk⟩, hwrote, hfailed, hcaller, hans, hjoin⟩ := h
  obtain ⟨todo, w, inp, child, outp, got, cl⟩ := s
  simp only [ChildLeft] at hl
  dsimp only at *
  cases hs with
  | write hw ht hc hr =>
    rename_i b tl c
    dsimp only at hw ht hc hr
    subst hw ht hc
    refine ⟨_, ?_, ⟨m, rest, ?_, ho, rfl⟩, ?_, ?_, ?_, hans, hjoin⟩
    · dsimp only; simp only [List.length_cons] at hk; omega
    · simpa [ChildLeft, List.append_assoc] using hl
    · intro h; cases h
    · intro h; cases h
    · intro h; obtain ⟨⟨_, h⟩, _⟩ := hcaller h; cases h
  | broken hw ht hc =>
    dsimp only at hw ht hc
    subst hw ht hc
    refine ⟨_, ?_, ⟨m, rest, ?_, ho, rfl⟩, ?_, ?_, hcaller, hans, hjoin⟩
    · dsimp only; simp only [writerLeft] at hk ⊢; simp at hk ⊢; omega
    · simpa [ChildLeft] using hl
    · intro h; cases h
    · intro _; exact ⟨_, rfl⟩
  | wrote hw ht =>
    dsimp only at hw ht
    subst hw ht
    refine ⟨_, ?_, ⟨m, rest, ?_, ho, rfl⟩, ?_, ?_, hcaller, hans, hjoin⟩
    · dsimp only; simp only [writerLeft] at hk ⊢; simp at hk ⊢; omega
    · simpa [ChildLeft] using hl
    · intro _; rfl
    · intro h; cases h
  | read hc ha hi =>
    dsimp only at hc hi
    subst hc hi
    dsimp only at hl
    rw [List.cons_append] at hl
    cases hl with
    | exit h => rw [ha] at h; cases h
    | write h _ => rw [ha] at h; cases h
    | compute h _ => rw [ha] at h; cases h
    | read h hp =>
      rw [ha] at h
      cases h
      refine ⟨_, ?_, ⟨_, rest, hp, ho, rfl⟩, hwrote, ?_, ?_, hans, hjoin⟩
      · dsimp only; omega
      · intro h; obtain ⟨_, h⟩ := hfailed h; cases h
      · intro h; obtain ⟨⟨_, h⟩, _⟩ := hcaller h; cases h
  | eof hc ha hi hw =>
    dsimp only at hc hi hw
    subst hc hi
    have ht : todo = [] := by
      cases w with
      | writing => exact absurd rfl hw
      | wrote => exact hwrote rfl
      | failed => obtain ⟨_, h⟩ := hfailed rfl; cases h
    subst ht
    dsimp only at hl
    rw [List.nil_append] at hl
    cases hl with
    | exit h => rw [ha] at h; cases h
    | write h _ => rw [ha] at h; cases h
    | compute h _ => rw [ha] at h; cases h
    | eof h hp =>
      rw [ha] at h
      cases h
      refine ⟨_, ?_, ⟨_, rest, hp, ho, rfl⟩, hwrote, ?_, ?_, hans, hjoin⟩
      · dsimp only; omega
      · intro h; obtain ⟨_, h⟩ := hfailed h; cases h
      · intro h; obtain ⟨⟨_, h⟩, _⟩ := hcaller h; cases h
  | print hc ha hr =>
    dsimp only at hc hr
    subst hc
    dsimp only at hl
    generalize hin : inp ++ todo = input at hl
    cases hl with
    | exit h => rw [ha] at h; cases h
    | read h _ => rw [ha] at h; cases h
    | eof h _ => rw [ha] at h; cases h
    | compute h _ => rw [ha] at h; cases h
    | write h hp =>
      rw [ha] at h
      cases h
      subst hin
      refine ⟨_, ?_, ⟨_, _, hp, ?_, rfl⟩, hwrote, ?_, ?_, hans, hjoin⟩
      · dsimp only; simp only [List.length_append, List.length_cons, List.length_nil]; omega
      · simpa [List.append_assoc] using ho
      · intro h; obtain ⟨_, h⟩ := hfailed h; cases h
      · intro h; obtain ⟨⟨_, h⟩, _⟩ := hcaller h; cases h
  | compute hc ha =>
    dsimp only at hc
    subst hc
    dsimp only at hl
    generalize hin : inp ++ todo = input at hl
    cases hl with
    | exit h => rw [ha] at h; cases h
    | read h _ => rw [ha] at h; cases h
    | eof h _ => rw [ha] at h; cases h
    | write h _ => rw [ha] at h; cases h
    | compute h hp =>
      rw [ha] at h
      cases h
      subst hin
      refine ⟨_, ?_, ⟨_, rest, hp, ho, rfl⟩, hwrote, ?_, ?_, hans, hjoin⟩
      · dsimp only; omega
      · intro h; obtain ⟨_, h⟩ := hfailed h; cases h
      · intro h; obtain ⟨⟨_, h⟩, _⟩ := hcaller h; cases h
  | exit hc ha =>
    dsimp only at hc
    subst hc
    dsimp only at hl
    generalize hin : inp ++ todo = input at hl
    cases hl with
    | compute h _ => rw [ha] at h; cases h
    | read h _ => rw [ha] at h; cases h
    | eof h _ => rw [ha] at h; cases h
    | write h _ => rw [ha] at h; cases h
    | exit h =>
      rw [ha] at h
      cases h
      refine ⟨_, ?_, ⟨0, [], ⟨rfl, rfl, rfl⟩, ho, rfl⟩, hwrote, ?_, ?_, hans, hjoin⟩
      · dsimp only; omega
      · intro _; exact ⟨_, rfl⟩
      · intro h; obtain ⟨⟨_, h⟩, _⟩ := hcaller h; cases h
  | copy hm hout =>
    dsimp only at hm hout
    subst hm hout
    refine ⟨_, ?_, ⟨m, rest, hl, ?_, rfl⟩, hwrote, hfailed, ?_, hans, hjoin⟩
    · dsimp only; simp only [List.length_cons] at hk; omega
    · simpa [List.append_assoc] using ho
    · intro h; exact absurd rfl h
  | copied hm hout hc =>
    dsimp only at hm hout hc
    subst hm hout hc
    refine ⟨_, ?_, ⟨m, rest, hl, ho, rfl⟩, hwrote, hfailed, ?_, ?_, ?_⟩
    · dsimp only; simp only [callerLeft] at hk ⊢; omega
    · intro _; exact ⟨⟨_, rfl⟩, rfl⟩
    · intro r h; cases h
    · intro h; cases h
  | wait hm hc =>
    dsimp only at hm hc
    subst hm hc
    obtain ⟨_, hou⟩ := hcaller (by intro h; cases h)
    subst hou
    dsimp only at hl
    obtain ⟨rfl, rfl, rfl⟩ := hl
    have hgo : got = out := by simpa using ho
    subst hgo
    refine ⟨_, ?_, ⟨0, [], ⟨rfl, rfl, rfl⟩, ho, rfl⟩, hwrote, hfailed, ?_, ?_, ?_⟩
    · have hd : callerLeft (decideOutput got ‹_›) ≤ 1 := by
        unfold decideOutput
        split
        · split <;> simp [callerLeft]
        · simp [callerLeft]
      dsimp only
      simp only [callerLeft] at hk
      omega
    · intro _; exact ⟨⟨_, rfl⟩, rfl⟩
    · intro r h
      dsimp only [decideOutput] at h
      unfold PipesAnswer
      split at h
      · rename_i hu
        rw [if_pos hu]
        split at h
        · rename_i hz; rw [if_pos hz]; cases h; rfl
        · rename_i hz; rw [if_neg hz]; cases h; rfl
      · cases h
    · intro h
      dsimp only [decideOutput] at h
      split at h
      · split at h <;> cases h
      · rename_i hu; simpa using hu
  | join hm hw =>
    dsimp only at hm hw
    subst hm
    refine ⟨_, ?_, ⟨m, rest, hl, ho, rfl⟩, hwrote, hfailed, ?_, ?_, ?_⟩
    · dsimp only; simp only [callerLeft] at hk ⊢; omega
    · intro _; exact hcaller (by intro h; cases h)
    · intro r h
      cases h
      have := hjoin rfl
      unfold PipesAnswer
      rw [this]
      simp only [Bool.false_eq_true, if_false, joined]
      split
      · exact .inl rfl
      · exact .inr rfl
    · intro h; cases h

theorem holds_steps {P : Prog} {code out n ci co k} {s : Running P.State} {m : Nat}
    (hl : PipesHold P code out n (launch P code) k) (h : Steps P code ci co m (launch P code) s) :
    ∃ k', m + k' ≤ k ∧ PipesHold P code out n s k' := by
  generalize hx : launch P code = s₀ at h
  induction h with
  | none => subst hx; exact ⟨k, by omega, hl⟩
  | more _ hs ih =>
    obtain ⟨k', hk, h⟩ := ih hx
    obtain ⟨k'', hk', h'⟩ := holds_step h hs
    exact ⟨k'', by omega, h'⟩

theorem holds_launch {P : Prog} {code out n} (h : Formats P code out n) : ∃ k, PipesHold P code out n (launch P code) k := by
  obtain ⟨m, hm⟩ := prints_in h
  refine ⟨_, ⟨m, out, hm, rfl, rfl⟩, ?_, ?_, ?_, ?_, ?_⟩ <;> simp [launch]

/-! ## C116 -/

/-- In no reachable state does every party wait for another, whatever the program does. -/
theorem C116_no_deadlock (P : Prog) (code : List UInt8) (ci co : Nat) (hi : 0 < ci) (ho : 0 < co) (m : Nat) (s : Running P.State)
    (h : Steps P code ci co m (launch P code) s) : (∃ r, s.caller = .returned r) ∨ ∃ t, Step P code ci co s t := by
  have inv : (s.caller = .copying ∨ ∃ c, s.child = .ended c) := by
    generalize hx : launch P code = s₀ at h
    induction h with
    | none => subst hx; exact .inl rfl
    | more h hs ih =>
      have ih := ih hx
      cases hs with
      | copied hm ho' hc => exact .inr ⟨_, hc⟩
      | wait hm hc => exact .inr ⟨_, hc⟩
      | exit hc ha => exact .inr ⟨_, rfl⟩
      | broken hw ht hc => exact .inr ⟨_, hc⟩
      | join hm hw =>
        rcases ih with ih | ih
        · rw [hm] at ih; cases ih
        · exact .inr ih
      | write hw ht hc _ | read hc _ _ | eof hc _ _ _ | print hc _ _ | compute hc _ =>
        rcases ih with ih | ⟨_, ih⟩
        · exact .inl ih
        · rw [hc] at ih; cases ih
      | wrote _ _ => exact ih
      | copy _ _ => exact ih
  by_cases hw : s.writer = .writing
  · cases ht : s.todo with
    | nil => exact .inr ⟨_, .wrote hw ht⟩
    | cons b rest =>
      cases hc : s.child with
      | ended c => exact .inr ⟨_, .broken hw ht hc⟩
      | running c =>
        by_cases hroom : s.inp.length < ci
        · exact .inr ⟨_, .write hw ht hc hroom⟩
        · have hm : s.caller = .copying := by
            rcases inv with h | ⟨_, h⟩
            · exact h
            · rw [hc] at h; cases h
          cases ha : P.act c with
          | read k =>
            cases hinp : s.inp with
            | nil => rw [hinp] at hroom; exact absurd hi hroom
            | cons b rest => exact .inr ⟨_, .read hc ha hinp⟩
          | write b next =>
            cases hout : s.outp with
            | nil => exact .inr ⟨_, .print hc ha (by rw [hout]; exact ho)⟩
            | cons b rest => exact .inr ⟨_, .copy hm hout⟩
          | compute next => exact .inr ⟨_, .compute hc ha⟩
          | exit n => exact .inr ⟨_, .exit hc ha⟩
  · cases hc : s.child with
    | running c =>
      have hm : s.caller = .copying := by
        rcases inv with h | ⟨_, h⟩
        · exact h
        · rw [hc] at h; cases h
      cases ha : P.act c with
      | read k =>
        cases hinp : s.inp with
        | nil => exact .inr ⟨_, .eof hc ha hinp hw⟩
        | cons b rest => exact .inr ⟨_, .read hc ha hinp⟩
      | write b next =>
        cases hout : s.outp with
        | nil => exact .inr ⟨_, .print hc ha (by rw [hout]; exact ho)⟩
        | cons b rest => exact .inr ⟨_, .copy hm hout⟩
      | compute next => exact .inr ⟨_, .compute hc ha⟩
      | exit n => exact .inr ⟨_, .exit hc ha⟩
    | ended n =>
      cases hm : s.caller with
      | copying =>
        cases hout : s.outp with
        | nil => exact .inr ⟨_, .copied hm hout hc⟩
        | cons b rest => exact .inr ⟨_, .copy hm hout⟩
      | waiting => exact .inr ⟨_, .wait hm hc⟩
      | joining => exact .inr ⟨_, .join hm hw⟩
      | returned r => exact .inl ⟨r, rfl⟩

/-- **C116.** If the formatter, given the code, comes to an end, then so does the call, under every schedule, for any length of the
code and of what is printed, and for pipes of any capacity: no schedule is longer than some bound, and none stops before the call
returns. -/
theorem C116_formatting_returns (P : Prog) (code out : List UInt8) (n : Option Nat) (hf : Formats P code out n) (ci co : Nat)
    (hi : 0 < ci) (ho : 0 < co) :
    ∃ bound, ∀ m s, Steps P code ci co m (launch P code) s →
      m ≤ bound ∧ ((∃ r, s.caller = .returned r) ∨ ∃ t, Step P code ci co s t) := by
  obtain ⟨k, hk⟩ := holds_launch hf
  refine ⟨k, fun m s h => ⟨?_, C116_no_deadlock P code ci co hi ho m s h⟩⟩
  obtain ⟨k', hk', -⟩ := holds_steps hk h
  omega

/-! ## C117 -/

/-- **C117 (partial).** If what the formatter prints is UTF-8, the call returns exactly that if the formatter ends with 0 and an error
otherwise, under every schedule. Missing, because false: a formatter that prints something else. -/
theorem C117_result_partial (P : Prog) (code out : List UInt8) (n : Option Nat) (hf : Formats P code out n)
    (hu : (fromUtf8 out).isSome) (ci co m : Nat) (s : Running P.State) (h : Steps P code ci co m (launch P code) s) (r : Formatted)
    (hr : s.caller = .returned r) : r = if n = some 0 then .ok out else .err := by
  obtain ⟨k, hk⟩ := holds_launch hf
  obtain ⟨k', -, hh⟩ := holds_steps hk h
  have := hh.answer r hr
  unfold PipesAnswer at this
  rwa [if_pos hu] at this

/-- **C117 is violated** by every formatter that prints something that is not UTF-8: whatever its exit code, the call returns no error,
and the text is not what was printed. -/
theorem C117_not_text_violated (P : Prog) (code out : List UInt8) (n : Option Nat) (hf : Formats P code out n)
    (hu : (fromUtf8 out).isSome = false) (ci co m : Nat) (s : Running P.State) (h : Steps P code ci co m (launch P code) s)
    (r : Formatted) (hr : s.caller = .returned r) : r = .ok code ∨ r = .ok (utf8 "write error in rustfmt") := by
  obtain ⟨k, hk⟩ := holds_launch hf
  obtain ⟨k', -, hh⟩ := holds_steps hk h
  have := hh.answer r hr
  unfold PipesAnswer at this
  rw [hu] at this
  simpa [writeError] using this

/-- A program that prints an octet that is not text and ends with 1, without reading anything. -/
def brokenFormatter : Prog where
  State := Bool
  start := false
  act := fun
    | false => .write 255 true
    | true => .exit (some 1)

theorem broken_formats (code : List UInt8) : Formats brokenFormatter code [255] (some 1) :=
  .write (c' := true) rfl (.exit rfl)

theorem broken_ends {code : List UInt8} {ci co m : Nat} {s₀ : Running Bool} {todo inp : List UInt8} {w : Writer} (hw : w ≠ .writing)
    (h : Steps brokenFormatter code ci co m s₀ ⟨todo, w, inp, .ended (some 1), [255], [], .copying⟩) :
    ∃ m s, Steps brokenFormatter code ci co m s₀ s ∧ s.caller = .returned (.ok (joined code w)) := by
  have h1 : Step brokenFormatter code ci co ⟨todo, w, inp, .ended (some 1), [255], [], .copying⟩
      ⟨todo, w, inp, .ended (some 1), [], [255], .copying⟩ := .copy rfl rfl
  have h2 : Step brokenFormatter code ci co ⟨todo, w, inp, .ended (some 1), [], [255], .copying⟩
      ⟨todo, w, inp, .ended (some 1), [], [255], .waiting⟩ := .copied rfl rfl rfl
  have hd : decideOutput [255] (some 1) = .joining := by decide +kernel
  have h3 : Step brokenFormatter code ci co ⟨todo, w, inp, .ended (some 1), [], [255], .waiting⟩
      ⟨todo, w, inp, .ended (some 1), [], [255], decideOutput [255] (some 1)⟩ := .wait rfl rfl
  rw [hd] at h3
  have h4 : Step brokenFormatter code ci co ⟨todo, w, inp, .ended (some 1), [], [255], .joining⟩
      ⟨todo, w, inp, .ended (some 1), [], [255], .returned (.ok (joined code w))⟩ := .join rfl hw
  exact ⟨_, _, .more (.more (.more (.more h h1) h2) h3) h4, rfl⟩

/-- **C117 is violated**: for every code there is a schedule, with this program, that ends with the words "write error in rustfmt" as
the generated code, and no error. -/
theorem C117_write_error_violated (b : UInt8) (rest : List UInt8) (ci co : Nat) (ho : 0 < co) :
    ∃ m s, Steps brokenFormatter (b :: rest) ci co m (launch brokenFormatter (b :: rest)) s ∧
      s.caller = .returned (.ok (utf8 "write error in rustfmt")) := by
  have h1 : Step brokenFormatter (b :: rest) ci co (launch brokenFormatter (b :: rest))
      ⟨b :: rest, .writing, [], .running true, [255], [], .copying⟩ := .print (c := false) rfl rfl ho
  have h2 : Step brokenFormatter (b :: rest) ci co ⟨b :: rest, .writing, [], .running true, [255], [], .copying⟩
      ⟨b :: rest, .writing, [], .ended (some 1), [255], [], .copying⟩ := .exit (c := true) rfl rfl
  have h3 : Step brokenFormatter (b :: rest) ci co ⟨b :: rest, .writing, [], .ended (some 1), [255], [], .copying⟩
      ⟨b :: rest, .failed, [], .ended (some 1), [255], [], .copying⟩ := .broken rfl rfl rfl
  exact broken_ends (w := .failed) (by decide) (.more (.more (.more .none h1) h2) h3)

theorem writes_all (P : Prog) (code : List UInt8) (ci co : Nat) (c : P.State) (outp : List UInt8) : ∀ todo done : List UInt8,
    done.length + todo.length ≤ ci → ∀ s₀ m, Steps P code ci co m s₀ ⟨todo, .writing, done, .running c, outp, [], .copying⟩ →
    ∃ m, Steps P code ci co m s₀ ⟨[], .writing, done ++ todo, .running c, outp, [], .copying⟩
  | [], done, _, s₀, m, h => ⟨m, by rw [List.append_nil]; exact h⟩
  | b :: todo, done, hl, s₀, m, h => by
      have := writes_all P code ci co c outp todo (done ++ [b]) (by simp at hl ⊢; omega) s₀ (m + 1)
        (.more h (.write rfl rfl rfl (by simp at hl ⊢; omega)))
      rwa [List.append_assoc, List.singleton_append] at this

/-- **C117 is violated**: which of the two texts comes out depends on the schedule. With the same program and code another schedule ends
with the code, not formatted; again the failure of the program goes unnoticed. -/
theorem C117_unformatted_violated (code : List UInt8) (ci co : Nat) (hi : code.length ≤ ci) (ho : 0 < co) :
    ∃ m s, Steps brokenFormatter code ci co m (launch brokenFormatter code) s ∧ s.caller = .returned (.ok code) := by
  obtain ⟨m, h⟩ := writes_all brokenFormatter code ci co false [] code [] (by simpa using hi) (launch brokenFormatter code) 0 .none
  have h1 : Step brokenFormatter code ci co ⟨[], .writing, [] ++ code, .running false, [], [], .copying⟩
      ⟨[], .wrote, [] ++ code, .running false, [], [], .copying⟩ := .wrote rfl rfl
  have h2 : Step brokenFormatter code ci co ⟨[], .wrote, [] ++ code, .running false, [], [], .copying⟩
      ⟨[], .wrote, [] ++ code, .running true, [255], [], .copying⟩ := .print (c := false) rfl rfl ho
  have h3 : Step brokenFormatter code ci co ⟨[], .wrote, [] ++ code, .running true, [255], [], .copying⟩
      ⟨[], .wrote, [] ++ code, .ended (some 1), [255], [], .copying⟩ := .exit (c := true) rfl rfl
  exact broken_ends (w := .wrote) (by decide) (.more (.more (.more h h1) h2) h3)

/-- A program that copies its input to its output, an octet at a time. -/
def copyingFormatter : Prog where
  State := Option (Option UInt8)
  start := none
  act := fun
    | none => .read some
    | some (some b) => .write b none
    | some none => .exit (some 0)

-- It meets the hypotheses of C116 and C117, for a code of any length and pipes of one octet.
example (code : List UInt8) : Formats copyingFormatter code code (some 0) := by
  unfold Formats
  induction code with
  | nil => exact .eof (k := some) rfl (.exit rfl)
  | cons b code ih => exact .read (k := some) rfl (.write (c' := none) rfl ih)

example : (fromUtf8 (utf8 "pub struct A(pub u8);")).isSome := by decide +kernel

-- C116: the copying formatter under pipes of one octet each.
example := C116_no_deadlock copyingFormatter (utf8 "pub struct A;") 1 1 (by decide) (by decide) 0 _ .none

end Hampi.Compiler.Props
