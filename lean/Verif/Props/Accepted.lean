import Verif.Lemmas.ParserAcceptsDefs
import Verif.Props.Parser
import Verif.Props.Tokenizer
/-!
# What the compiler accepts: C123

`Verif/Spec/Accepted.lean` says which sequences of tokens are modules when the parser's liberties are taken into
account, and what each of them stands for.
-/
namespace Hampi.Compiler.Props
open _root_.Hampi.Compiler.Spec

/-- Only words start with a letter. -/
theorem word_start {u : Unicode} {type : TokenType} {raw rest text : List Char} {c : Char} {cs : List Char}
    (hs : Hampi.Spec.Shape u type raw rest) (hk : Hampi.Spec.Kept type raw text) (ht : text = c :: cs)
    (hc : c.isAlpha = true) : type = .identifier ∨ type = .keyword := by
  have hd : c.isDigit = false := by
    simp only [Char.isAlpha, Char.isUpper, Char.isLower, Char.isDigit, Bool.or_eq_true, Bool.and_eq_true, decide_eq_true_eq,
      Bool.and_eq_false_iff, decide_eq_false_iff_not, ge_iff_le, UInt32.le_iff_toNat_le] at *
    simp at *
    omega
  have hw : isWhitespace c = false := by
    cases h : isWhitespace c
    · rfl
    · exfalso
      simp only [isWhitespace, Bool.or_eq_true, decide_eq_true_eq, Char.isAlpha, Char.isUpper, Char.isLower,
        Bool.and_eq_true, ge_iff_le, UInt32.le_iff_toNat_le] at h hc
      simp at h hc
      omega
  have hm : ∀ d ∈ ['"', '\'', '-', '@', '&', '{', '}', '(', ')', '!', ';', ',', '|', '^', '<', '[', ']', '.', ':'], c ≠ d := by
    intro d hd e
    subst e
    simp only [List.mem_cons, List.not_mem_nil, or_false] at hd
    rcases hd with rfl | rfl | rfl | rfl | rfl | rfl | rfl | rfl | rfl | rfl | rfl | rfl | rfl | rfl | rfl | rfl | rfl |
      rfl | rfl <;> revert hc <;> decide
  have no : ∀ {d : Char} {ds : List Char}, text = d :: ds →
      d ∈ ['"', '\'', '-', '@', '&', '{', '}', '(', ')', '!', ';', ',', '|', '^', '<', '[', ']', '.', ':'] → False := by
    intro d ds e hd
    rw [ht] at e
    cases e
    exact hm _ hd rfl
  cases type
  case identifier => exact .inl rfl
  case keyword => exact .inr rfl
  case tString =>
    exfalso
    obtain ⟨mid, rfl, -⟩ := hs
    obtain ⟨-, hk, -⟩ := hk
    rw [ht, List.filter_cons, hw] at hk
    have : isWhitespace '"' = false := by decide
    rw [List.cons_append, List.filter_cons, this] at hk
    simp only [Bool.not_false, if_true, List.cons.injEq] at hk
    exact hm '"' (by simp) hk.1
  case bitString =>
    exfalso
    obtain ⟨mid, x, rfl, -⟩ := hs
    have : isWhitespace '\'' = false := by decide
    simp only [Hampi.Spec.Kept] at hk
    rw [List.cons_append, show ('\'' :: (mid ++ ['\'', x])).dropLast = '\'' :: (mid ++ ['\'']) by
      rw [show '\'' :: (mid ++ ['\'', x]) = ('\'' :: (mid ++ ['\''])) ++ [x] by simp, List.dropLast_concat],
      List.filter_cons, this] at hk
    exact no hk (by simp)
  case hexString =>
    exfalso
    obtain ⟨mid, x, rfl, -⟩ := hs
    have : isWhitespace '\'' = false := by decide
    simp only [Hampi.Spec.Kept] at hk
    rw [List.cons_append, show ('\'' :: (mid ++ ['\'', x])).dropLast = '\'' :: (mid ++ ['\'']) by
      rw [show '\'' :: (mid ++ ['\'', x]) = ('\'' :: (mid ++ ['\''])) ++ [x] by simp, List.dropLast_concat],
      List.filter_cons, this] at hk
    exact no hk (by simp)
  case numberInt =>
    exfalso
    cases hk
    obtain ⟨sign, digits, rfl, (⟨rfl, -⟩ | ⟨rfl, x, hx, hxd⟩), -⟩ := hs
    · exact no rfl (by simp)
    · rw [List.nil_append] at ht
      rw [ht] at hx
      cases hx
      rw [hxd] at hd
      cases hd
  case comment =>
    exfalso
    cases hk
    obtain ⟨body, rfl, -⟩ := hs
    exact no rfl (by simp)
  case atComponentIdList =>
    exfalso
    cases hk
    obtain ⟨body, rfl, -⟩ := hs
    exact no rfl (by simp)
  case andIdentifier =>
    exfalso
    cases hk
    obtain ⟨body, rfl, -⟩ := hs
    exact no rfl (by simp)
  all_goals
    exfalso
    cases hk
    first
      | (cases hs; exact no rfl (by simp))
      | (cases hs.1; exact no rfl (by simp))

/-- Every token of a text is genuine. -/
theorem genuine_of_shape {u : Unicode} {t : Token} {raw rest : List Char} (hs : Hampi.Spec.Shape u t.type raw rest)
    (hk : Hampi.Spec.Kept t.type raw t.text) : Genuine t := by
  have hname : t.type = .identifier → ∀ kw ∈ KEYWORDS, t.text ≠ kw.toList := by
    intro h
    rw [h] at hs hk
    cases hk
    exact hs.2.2.2
  refine ⟨?_, hname, ?_, ?_, ?_⟩
  · intro w hw e
    have hw' : w ∈ KEYWORDS ∧ ∃ c cs, w.toList = c :: cs ∧ c.isAlpha = true := by
      simp only [typeWords, List.mem_cons, List.not_mem_nil, or_false] at hw
      rcases hw with rfl | rfl | rfl | rfl | rfl | rfl | rfl | rfl | rfl | rfl | rfl | rfl | rfl | rfl | rfl <;>
        exact ⟨by simp [KEYWORDS], _, _, rfl, rfl⟩
    obtain ⟨hkw, c, cs, e', hc⟩ := hw'
    rcases word_start hs hk (e.trans e') hc with h | h
    · exact absurd e (hname h w hkw)
    · exact h
  · intro h
    rw [h] at hs hk
    cases hk
    exact hs.1
  · intro h
    rw [h] at hs hk
    cases hk
    obtain ⟨w, h, -⟩ := hs
    exact ⟨w, h⟩
  · intro h
    rw [h] at hs hk
    simp only [Hampi.Spec.Kept] at hk
    obtain ⟨sign, digits, e, (⟨rfl, -⟩ | ⟨rfl, x, hx, hxd⟩), -⟩ := hs
    · rw [hk, e]; simp
    · rw [hk, e, List.nil_append, hx]
      intro h
      cases h
      revert hxd
      decide

/-- **C123.** Whatever text the compiler accepts, its tokens without the comments are modules in the sense of
`AccModules`, and these are the modules the parser returns: every token has its place. -/
theorem C123_accepted (u : Unicode) (chars : List Char) (ts : Tokens) (n : Nat) (ms : List ParsedModule)
    (h : tokenize u chars = .ok ts) (hp : parse n ts = .ok ms) :
    AccModules ms (ts.filter fun t => t.type != .comment) := by
  have g : Acc.Gen (ts.filter fun t => !t.is .comment) := by
    intro t ht
    obtain ⟨raw, rest, hs, hk⟩ := (C50_lossless u chars ts h).shapes t (List.mem_filter.mp ht).1
    exact genuine_of_shape hs hk
  obtain ⟨new, e, hn⟩ := Acc.modulesLoop_ok _ _ _ _ hp g
  rw [List.nil_append] at e
  rw [e]
  exact hn

theorem accModules_ends {ms : List ParsedModule} {ts : Tokens} (h : AccModules ms ts) :
    (∃ n us m, ts = n :: us ∧ m ∈ ms.head? ∧ UpperName m.name n) ∧ ∃ us e, ts = us ++ [e] ∧ Word "END" e := by
  have one : ∀ {m : ParsedModule} {ts : Tokens}, AccModule m ts →
      (∃ n us, ts = n :: us ∧ UpperName m.name n) ∧ ∃ us e, ts = us ++ [e] ∧ Word "END" e := by
    intro m ts h
    obtain ⟨h1, -, -, -, -, -, -, -, he, -, -⟩ := h
    exact ⟨⟨_, _, rfl, h1⟩, _ :: (_ ++ _ :: (_ ++ _ :: _ :: (_ ++ _))), _, by simp only [List.cons_append, List.append_assoc]; rfl, he⟩
  induction h with
  | one h =>
    obtain ⟨⟨n, us, e, h1⟩, h2⟩ := one h
    exact ⟨⟨n, us, _, e, rfl, h1⟩, h2⟩
  | more h _ ih =>
    obtain ⟨⟨n, us, rfl, h1⟩, h2⟩ := one h
    obtain ⟨-, vs, e, rfl, he⟩ := ih
    exact ⟨⟨n, _, _, List.cons_append, rfl, h1⟩, _, e, (List.append_assoc ..).symm, he⟩

/-- **C123.** An accepted text starts, comments aside, with the name of the first module and ends with END. -/
theorem C123_ends (u : Unicode) (chars : List Char) (ts : Tokens) (n : Nat) (ms : List ParsedModule)
    (h : tokenize u chars = .ok ts) (hp : parse n ts = .ok ms) :
    (∃ t us m, ts.filter (fun t => t.type != .comment) = t :: us ∧ m ∈ ms.head? ∧ UpperName m.name t) ∧
      ∃ us e, ts.filter (fun t => t.type != .comment) = us ++ [e] ∧ Word "END" e :=
  accModules_ends (C123_accepted u chars ts n ms h hp)

/-- A module with some liberties: no commas between the components, `...` in their midst, two definitions of `T`. -/
def loose : List Char := "M DEFINITIONS ::= BEGIN -- T -- T ::= INTEGER T ::= SEQUENCE { a NULL ... b OBJECT IDENTIFIER , } END".toList

/-- The names of the components of a SEQUENCE. -/
def componentsOf (d : ParsedDef) : List String :=
  match d.kind with
  | .type (.mk (.sequence cs _ _) _) => cs.map fun (.mk x _ _ _) => String.ofList x
  | _ => []

-- The hypotheses of C123 are met by this text; of the two definitions the second is kept, with both components:
set_option maxRecDepth 8000 in
example : (match tokenize ascii loose with
    | .ok ts => (match parse 20 ts with
      | .ok ms => some (ms.map fun m => (String.ofList m.name, m.definitions.map fun d => (String.ofList d.1, componentsOf d.2)), ts.length)
      | _ => none)
    | _ => none) = some ([("M", [("T", ["a", "b"])])], 21) := by
  decide +kernel

end Hampi.Compiler.Props
