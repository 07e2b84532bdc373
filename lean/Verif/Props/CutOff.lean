import Verif.Props.Accepted
import Verif.Props.Spread
/-!
# Texts that were cut off: C139

A download that was interrupted, a disk that was full: only the beginning of a schema is there.
-/
namespace Hampi.Compiler.Props
open _root_.Hampi.Compiler.Spec

/-- The tokens that are no comments. -/
def uncommented (ts : Tokens) : Tokens := ts.filter fun t => t.type != .comment

/-- How often the word END stands in `ts`. -/
def endWords (ts : Tokens) : Nat := (ts.filter fun t => t.type == .keyword && t.text == "END".toList).length

theorem endWords_append (ts us : Tokens) : endWords (ts ++ us) = endWords ts + endWords us := by
  simp [endWords]

theorem endWords_end {e : Token} (h : Word "END" e) (ts : Tokens) : endWords (e :: ts) = endWords ts + 1 := by
  simp [endWords, h.1, h.2]

/-- One or more pieces, one after the other. -/
inductive Pieces (P : ParsedModule → Tokens → Prop) : List ParsedModule → Tokens → Prop
  | one {m ts} : P m ts → Pieces P [m] ts
  | more {m ts ms us} : P m ts → Pieces P ms us → Pieces P (m :: ms) (ts ++ us)

theorem pieces_note {ms : List ParsedModule} {ts : Tokens} : Pieces ModuleNote ms ts ↔ ModulesNote ms ts := by
  constructor
  · intro h
    induction h with
    | one h => exact .one h
    | more h _ ih => exact .more h ih
  · intro h
    induction h with
    | one h => exact .one h
    | more h _ ih => exact .more h ih

theorem pieces_acc {ms : List ParsedModule} {ts : Tokens} : Pieces AccModule ms ts ↔ AccModules ms ts := by
  constructor
  · intro h
    induction h with
    | one h => exact .one h
    | more h _ ih => exact .more h ih
  · intro h
    induction h with
    | one h => exact .one h
    | more h _ ih => exact .more h ih

/-- What ends with END. -/
def EndsWithEnd (P : ParsedModule → Tokens → Prop) : Prop :=
  ∀ (m : ParsedModule) (ts : Tokens), P m ts → ∃ us e, ts = us ++ [e] ∧ Word "END" e

theorem moduleNote_end : EndsWithEnd ModuleNote := by
  intro m ts h
  obtain ⟨-, -, -, -, -, -, -, -, he, -, -⟩ := h
  exact ⟨_ :: (_ ++ _ :: (_ ++ _ :: _ :: (_ ++ _))), _, by simp only [List.cons_append, List.append_assoc]; rfl, he⟩

theorem accModule_end : EndsWithEnd AccModule := by
  intro m ts h
  obtain ⟨-, -, -, -, -, -, -, -, he, -, -⟩ := h
  exact ⟨_ :: (_ ++ _ :: (_ ++ _ :: _ :: (_ ++ _))), _, by simp only [List.cons_append, List.append_assoc]; rfl, he⟩

theorem pieces_ends {P : ParsedModule → Tokens → Prop} (hP : EndsWithEnd P) {ms : List ParsedModule} {ts : Tokens}
    (h : Pieces P ms ts) : ms.length ≤ endWords ts := by
  have one : ∀ {m : ParsedModule} {ts : Tokens}, P m ts → 1 ≤ endWords ts := by
    intro m ts h
    obtain ⟨us, e, rfl, he⟩ := hP _ _ h
    rw [endWords_append, endWords_end he]
    omega
  induction h with
  | one h => exact one h
  | more h _ ih =>
    have := one h
    rw [endWords_append]
    simp only [List.length_cons]
    omega

/-- Two ways to cut a list with a last element: the cut is after it, or the first part is a part of the rest. -/
theorem cut_snoc {α : Type} {a b c : List α} {e : α} (h : a ++ b = c ++ [e]) :
    (b = [] ∧ a = c ++ [e]) ∨ ∃ d, c = a ++ d ∧ b = d ++ [e] := by
  rcases List.eq_nil_or_concat b with rfl | ⟨d, z, rfl⟩
  · exact .inl ⟨rfl, by simpa using h⟩
  · rw [List.concat_eq_append, ← List.append_assoc] at h
    have := List.append_inj' h rfl
    simp only [List.cons.injEq, and_true] at this
    exact .inr ⟨d, this.1.symm, by rw [List.concat_eq_append, this.2]⟩

/-- When END stands nowhere but at the ends of the pieces, what ends with END is pieces. -/
theorem pieces_cut {P : ParsedModule → Tokens → Prop} (hP : EndsWithEnd P) {ms : List ParsedModule} {ts : Tokens}
    (h : Pieces P ms ts) :
    endWords ts = ms.length → ∀ {us : Tokens} {e : Token} {vs : Tokens}, Word "END" e → us ++ [e] ++ vs = ts →
      ∃ before after, ms = before ++ after ∧ Pieces P before (us ++ [e]) := by
  have one : ∀ {m : ParsedModule} {ts us vs : Tokens} {e : Token}, P m ts → endWords ts = 1 → Word "END" e →
      us ++ [e] ++ vs = ts → vs = [] := by
    intro m ts us vs e h hn he ht
    obtain ⟨c, z, rfl, hz⟩ := hP _ _ h
    rcases cut_snoc ht with ⟨h, -⟩ | ⟨d, rfl, rfl⟩
    · exact h
    · simp only [endWords_append, endWords_end he, endWords_end hz] at hn
      omega
  induction h with
  | @one m ts h =>
    intro hn us e vs he ht
    have := one h hn he ht
    subst this
    rw [List.append_nil] at ht
    exact ⟨[m], [], rfl, ht ▸ .one h⟩
  | @more m ts ms ws h h' ih =>
    intro hn us e vs he ht
    rw [endWords_append, List.length_cons] at hn
    have h1 : 1 ≤ endWords ts := pieces_ends hP (.one h)
    have h2 := pieces_ends hP h'
    rcases List.append_eq_append_iff.mp ht with ⟨d, h3, h4⟩ | ⟨d, h3, h4⟩
    · have := one h (by omega) he h3.symm
      subst this
      rw [List.append_nil] at h3
      exact ⟨[m], ms, rfl, h3 ▸ .one h⟩
    · rcases cut_snoc h3.symm with ⟨rfl, h5⟩ | ⟨c, rfl, rfl⟩
      · rw [List.append_nil] at h3
        exact ⟨[m], ms, rfl, h3.symm ▸ .one h⟩
      · obtain ⟨before, after, rfl, hb⟩ := ih (by omega) he h4.symm
        refine ⟨m :: before, after, rfl, ?_⟩
        rw [List.append_assoc]
        exact .more h hb

/-- **C139 (partial).** `ts` are the tokens of an accepted text, `ps` those of another text, which starts like it but was
cut off, between two tokens or in a comment. When that is accepted as well, then it ends where a module of the full text
ends: a text cut off inside of a module is never accepted. Missing: texts with END elsewhere than at the ends of modules
(`C139_cut_violated`). -/
theorem C139_inside_partial (u : Unicode) (whole part : List Char) (ts ps : Tokens) (ms read : List ParsedModule) (n k : Nat)
    (tokens : tokenize u whole = .ok ts) (modules : parse n ts = .ok ms) (only : endWords (uncommented ts) = ms.length)
    (left : tokenize u part = .ok ps) (cut : uncommented ps <+: uncommented ts) (accepted : parse k ps = .ok read) :
    ∃ before lost, ms = before ++ lost ∧ AccModules before (uncommented ps) := by
  obtain ⟨-, us, e, h1, he⟩ := C123_ends u part ps k read left accepted
  obtain ⟨vs, hv⟩ := cut
  change uncommented ps = _ at h1
  obtain ⟨before, after, h2, h3⟩ := pieces_cut accModule_end (pieces_acc.mpr (C123_accepted u whole ts n ms tokens modules))
    only he (h1 ▸ hv)
  rw [← h1] at h3
  exact ⟨before, after, h2, pieces_acc.mp h3⟩

/-- **C139 (partial).** When the full text is in the supported notation and what is left of it is accepted, then this is
whole modules, and what is returned is these modules and nothing else: they are the first ones of the full text. Missing as
above. -/
theorem C139_cut_partial (u : Unicode) (part : List Char) (ts ps : Tokens) (ms read : List ParsedModule) (k : Nat)
    (legal : ModulesNote ms (uncommented ts)) (only : endWords (uncommented ts) = ms.length)
    (left : tokenize u part = .ok ps) (cut : uncommented ps <+: uncommented ts) (accepted : parse k ps = .ok read) :
    ModulesNote read (uncommented ps) ∧ ∃ lost, ms = read ++ lost := by
  obtain ⟨-, us, e, h1, he⟩ := C123_ends u part ps k read left accepted
  obtain ⟨vs, hv⟩ := cut
  change uncommented ps = _ at h1
  obtain ⟨before, after, h2, h3⟩ := pieces_cut moduleNote_end (pieces_note.mpr legal) only he (h1 ▸ hv)
  rw [← h1] at h3
  have h4 : Parses ps (.ok before) := C85_written_is_read (pieces_note.mp h3)
  rcases below (fun n => parse_mono n ps) h4.2 k with h5 | h5
  · rw [h5] at accepted
    cases accepted
  · rw [h5] at accepted
    cases accepted
    exact ⟨pieces_note.mp h3, after, h2⟩

/-- What is accepted of a text: the names of the modules and of their definitions, and the number of tokens. -/
def outline (chars : List Char) : Option (List (String × List String) × Nat) :=
  match tokenize ascii chars with
  | .ok ts => (match parse 30 ts with
    | .ok ms => some (ms.map fun m => (String.ofList m.name, m.definitions.map fun d => String.ofList d.1), ts.length)
    | _ => none)
  | _ => none

/-- How often END stands in a text, and do its tokens start with those of the other, comments aside. -/
def startOf (whole part : List Char) : Option (Nat × Bool) :=
  match tokenize ascii whole, tokenize ascii part with
  | .ok ts, .ok ps => some (endWords (uncommented ts), (uncommented ps).isPrefixOf (uncommented ts))
  | _, _ => none

/-- Two modules with comments. -/
def cutModules : List Char := "M DEFINITIONS ::= BEGIN A ::= NULL END -- one -- N DEFINITIONS ::= BEGIN B ::= NULL END".toList

-- The hypotheses are met by these modules and by what is left when the text is cut off in the comment:
set_option maxRecDepth 8000 in
example : outline cutModules = some ([("M", ["A"]), ("N", ["B"])], 17) ∧
    outline (cutModules.take 42) = some ([("M", ["A"])], 9) ∧
    startOf cutModules (cutModules.take 42) = some (2, true) := by
  decide +kernel

-- ... and those about legal notation by the example of C85, written twice:
example : ∃ m, ModulesNote [m, m] (uncommented (exampleText ++ exampleText)) ∧
    endWords (uncommented (exampleText ++ exampleText)) = 2 := by
  refine ⟨⟨"M".toList, [], [("T".toList, ⟨"T".toList, .type exampleType, none⟩)]⟩, ?_, by decide +kernel⟩
  rw [uncommented, List.filter_append]
  exact modulesNote_append example_note example_note

/-- A module in which END also stands in brackets. -/
def endInside : List Char := "M DEFINITIONS ::= BEGIN A ::= INTEGER ( ( { ( ( } ) ) END ) .. 5 ) END".toList

set_option maxRecDepth 8000 in
/-- **C139 (violated).** A text is accepted, and so is what is left of it when it is cut off after the first END, although
this END is not the end of a module: brackets that are not balanced inside of braces, in a place where no legal text has
braces, make what is left another module. -/
theorem C139_cut_violated : outline endInside = some ([("M", ["A"])], 21) ∧
    outline (endInside.take 57) = some ([("M", ["A"])], 16) ∧
    startOf endInside (endInside.take 57) = some (2, true) := by
  decide +kernel

end Hampi.Compiler.Props
