import Verif.Spec.Reorder
import Verif.Props.Reformat
import Verif.Props.ParserMore
import Verif.Lemmas.ParserAcceptsDefs
/-!
# C134: the order of definitions in a module
-/
namespace Hampi.Compiler.Props
open Hampi.Compiler.Spec

theorem table_exists {α : Type} (xs : List (Text × α)) (h : (xs.map (·.1)).Nodup) : ∃ m, Table m xs := by
  induction xs with
  | nil => exact ⟨[], .refl _, .nil⟩
  | cons x xs ih =>
    rw [List.map_cons, List.nodup_cons] at h
    obtain ⟨m, hm⟩ := ih h.2
    have hk : get m x.1 = none := by
      cases hg : get m x.1 with
      | none => rfl
      | some v => exact absurd (List.mem_map_of_mem (f := (·.1)) (hm.1.mem_iff.mp (get_mem hg))) h.1
    exact ⟨put m x.1 x.2, (Acc.put_perm hk x.2).trans (hm.1.cons _), KeySorted.put hm.2 x.1 x.2⟩

theorem Reordered.notes {ts ts' : Tokens} (h : Reordered ts ts') : ∃ m, ModuleNote m ts ∧ ModuleNote m ts' := by
  cases h with
  | @mk x n os d gs a b l l' is is' ds ds' ts ts' e h1 h2 h3 h4 h5 h6 h7 h8 h9 h10 h11 h12 h13 h14 h15 =>
    obtain ⟨im, hi⟩ := table_exists l h10
    obtain ⟨m, hm⟩ := table_exists (ds.map fun d => (d.id, d)) (by rw [List.map_map]; exact h14)
    exact ⟨⟨x, im, m⟩, .mk h1 h2 h3 h4 h5 h6 h7 h11 h15 hi hm,
      .mk h1 h2 h3 h4 h5 h6 h8 h12 h15 ⟨hi.1.trans h9.symm, hi.2⟩ ⟨hm.1.trans (h13.map _).symm, hm.2⟩⟩

/-- **C134 (partial).** When the definitions of a module, or its imports, are written in another order, the parser makes
the same of it. Missing: modules that end with a class without a syntax, and repeated names; for these it does not
hold. -/
theorem C134_parsed_partial (ts ts' : Tokens)
    (h : Reordered (ts.filter fun t => !t.is .comment) (ts'.filter fun t => !t.is .comment)) :
    ∃ m, Parses ts (.ok [m]) ∧ Parses ts' (.ok [m]) := by
  obtain ⟨m, h1, h2⟩ := Reordered.notes h
  exact ⟨m, C85_written_is_read (.one h1), C85_written_is_read (.one h2)⟩

/-- **C134 (partial).** So the program does the same with both files, whatever the other files are. -/
theorem C134_program_partial (u : Unicode) (sp : Spelling) (text text' : List Char) (ts ts' : Tokens)
    (ht : tokenize u text = .ok ts) (ht' : tokenize u text' = .ok ts')
    (h : Reordered (ts.filter fun t => !t.is .comment) (ts'.filter fun t => !t.is .comment)) :
    ∃ n₀, ∀ n, n₀ ≤ n → ∀ before after r,
      Runs u sp n (before ++ .text text :: after) r ↔ Runs u sp n (before ++ .text text' :: after) r := by
  obtain ⟨m, ⟨-, n₁, h1⟩, ⟨-, n₂, h2⟩⟩ := C134_parsed_partial ts ts' h
  refine ⟨max n₁ n₂, fun n hn before after r => ?_⟩
  have hr : readArg u n (.text text) = readArg u n (.text text') := by
    rw [readArg, readArg, ht, ht']
    show (parse n ts).orCompile = (parse n ts').orCompile
    rw [h1 n (by omega), h2 n (by omega)]
  rw [Runs, Runs, readArgs_congr u n hr before after []]

/-! ## Where the order matters -/

/-- `C ::= CLASS { &id INTEGER }`. -/
def classTokens : Tokens := [nm "C", tk .assignment "::=", kw "CLASS", tk .curlyBegin "{", tk .andIdentifier "&id",
  kw "INTEGER", tk .curlyEnd "}"]

/-- `T ::= BOOLEAN`. -/
def booleanTokens : Tokens := [nm "T", tk .assignment "::=", kw "BOOLEAN"]

/-- `T ::= NULL`. -/
def nullTokens : Tokens := [nm "T", tk .assignment "::=", kw "NULL"]

theorem parses_of {n : Nat} {ts : Tokens} {r : Out Err (List ParsedModule)} (h : parse n ts = r) (hr : r ≠ .diverge) :
    Parses ts r :=
  ⟨hr, n, fun m hm => by rw [C85_result_is_stable hm (by rw [h]; exact hr), h]⟩

/-- **C134 (violated).** A class without a syntax can stand before another definition, but not after it; and of two
definitions of one name the last counts. -/
theorem C134_violated :
    ((∃ m, Parses (moduleOf (classTokens ++ booleanTokens)) (.ok [m])) ∧
      ∃ e, Parses (moduleOf (booleanTokens ++ classTokens)) (.err e)) ∧
    Parses (moduleOf (booleanTokens ++ nullTokens)) (.ok [⟨"M".toList, [], [("T".toList,
      ⟨"T".toList, .type (.mk .null (some [])), none⟩)]⟩]) ∧
    Parses (moduleOf (nullTokens ++ booleanTokens)) (.ok [⟨"M".toList, [], [("T".toList,
      ⟨"T".toList, .type (.mk .boolean (some [])), none⟩)]⟩]) := by
  refine ⟨⟨⟨_, parses_of (n := 20) (by with_unfolding_all rfl) nofun⟩, _, parses_of (n := 20) (r := .err .parse) (by with_unfolding_all rfl) nofun⟩,
    parses_of (n := 20) (by with_unfolding_all rfl) nofun, parses_of (n := 20) (by with_unfolding_all rfl) nofun⟩

/-! ## An example -/

/-- `T ::= BOOLEAN C ::= CLASS { &id INTEGER } S ::= T`, and with the first definition after the second. -/
example : ∃ m, Parses (moduleOf (booleanTokens ++ (classTokens ++ [nm "S", tk .assignment "::=", kw "NULL"]))) (.ok [m]) ∧
    Parses (moduleOf (classTokens ++ (booleanTokens ++ [nm "S", tk .assignment "::=", kw "NULL"]))) (.ok [m]) := by
  refine C134_parsed_partial _ _ ?_
  have hb : DefNote ⟨"T".toList, .type (.mk .boolean (some [])), none⟩ booleanTokens :=
    .type (ts := [_]) ⟨rfl, rfl, ⟨_, _, rfl, rfl⟩, by decide⟩ rfl (.type (ts := [_]) (us := []) (.simple (.boolean (kw_word _))) .nil)
  have hs : DefNote ⟨"S".toList, .type (.mk .null (some [])), none⟩ [nm "S", tk .assignment "::=", kw "NULL"] :=
    .type (ts := [_]) ⟨rfl, rfl, ⟨_, _, rfl, rfl⟩, by decide⟩ rfl (.type (ts := [_]) (us := []) (.simple (.null (kw_word _))) .nil)
  have hc : BareClassNote _ classTokens :=
    .mk (x := "C".toList) (m := [(_, _)]) (ts := [tk .andIdentifier "&id", kw "INTEGER"])
      ⟨⟨rfl, rfl, ⟨_, _, rfl, rfl⟩, by decide⟩, by decide⟩ rfl
      (kw_word _) rfl (.one (.value (x := "&id".toList) (ts := [_]) (us := []) (vs := []) ⟨rfl, rfl, _, _, rfl, rfl⟩
        (.type (ts := [_]) (us := []) (.simple (.integer (kw_word _))) .nil) .none .none (by simp))) rfl
      ⟨.refl _, by simp⟩
  have h1 := DefsNote.cons hb (.bareClass hc (.cons hs .nil) (by simp))
  have h2 := DefsNote.bareClass hc (.cons hb (.cons hs .nil)) (by simp)
  exact .mk (os := []) (gs := []) (is := []) (is' := []) (l := []) (l' := []) (e := kw "END")
    (n := nm "M") (d := kw "DEFINITIONS") (a := tk .assignment "::=") (b := kw "BEGIN")
    ⟨rfl, rfl, ⟨_, _, rfl, rfl⟩, by decide⟩ .none (kw_word _) .none rfl (kw_word _) .none .none (.refl _) .nil
    h1 h2 (.swap _ _ _) (by decide) (kw_word _)

/-- The tokens of `M DEFINITIONS ::= BEGIN T ::= NULL S ::= BOOLEAN END`. -/
def firstOrder : Tokens :=
  [⟨.identifier, ⟨1, 0⟩, ⟨1, 1⟩, "M".toList⟩, ⟨.keyword, ⟨1, 2⟩, ⟨1, 13⟩, "DEFINITIONS".toList⟩,
    ⟨.assignment, ⟨1, 14⟩, ⟨1, 17⟩, "::=".toList⟩, ⟨.keyword, ⟨1, 18⟩, ⟨1, 23⟩, "BEGIN".toList⟩,
    ⟨.identifier, ⟨1, 24⟩, ⟨1, 25⟩, "T".toList⟩, ⟨.assignment, ⟨1, 26⟩, ⟨1, 29⟩, "::=".toList⟩,
    ⟨.keyword, ⟨1, 30⟩, ⟨1, 34⟩, "NULL".toList⟩, ⟨.identifier, ⟨1, 35⟩, ⟨1, 36⟩, "S".toList⟩,
    ⟨.assignment, ⟨1, 37⟩, ⟨1, 40⟩, "::=".toList⟩, ⟨.keyword, ⟨1, 41⟩, ⟨1, 48⟩, "BOOLEAN".toList⟩,
    ⟨.keyword, ⟨1, 49⟩, ⟨1, 52⟩, "END".toList⟩]

/-- The tokens of `M DEFINITIONS ::= BEGIN S ::= BOOLEAN T ::= NULL END`. -/
def secondOrder : Tokens :=
  [⟨.identifier, ⟨1, 0⟩, ⟨1, 1⟩, "M".toList⟩, ⟨.keyword, ⟨1, 2⟩, ⟨1, 13⟩, "DEFINITIONS".toList⟩,
    ⟨.assignment, ⟨1, 14⟩, ⟨1, 17⟩, "::=".toList⟩, ⟨.keyword, ⟨1, 18⟩, ⟨1, 23⟩, "BEGIN".toList⟩,
    ⟨.identifier, ⟨1, 24⟩, ⟨1, 25⟩, "S".toList⟩, ⟨.assignment, ⟨1, 26⟩, ⟨1, 29⟩, "::=".toList⟩,
    ⟨.keyword, ⟨1, 30⟩, ⟨1, 37⟩, "BOOLEAN".toList⟩, ⟨.identifier, ⟨1, 38⟩, ⟨1, 39⟩, "T".toList⟩,
    ⟨.assignment, ⟨1, 40⟩, ⟨1, 43⟩, "::=".toList⟩, ⟨.keyword, ⟨1, 44⟩, ⟨1, 48⟩, "NULL".toList⟩,
    ⟨.keyword, ⟨1, 49⟩, ⟨1, 52⟩, "END".toList⟩]

set_option maxRecDepth 8000 in
/-- Two texts to which the theorem about the program applies. -/
example (sp : Spelling) : ∃ n₀, ∀ n, n₀ ≤ n → ∀ before after r,
    Runs ascii sp n (before ++ .text "M DEFINITIONS ::= BEGIN T ::= NULL S ::= BOOLEAN END\n".toList :: after) r ↔
      Runs ascii sp n (before ++ .text "M DEFINITIONS ::= BEGIN S ::= BOOLEAN T ::= NULL END\n".toList :: after) r := by
  refine C134_program_partial ascii sp _ _ firstOrder secondOrder (by decide +kernel) (by decide +kernel) ?_
  have ht : DefNote ⟨"T".toList, .type (.mk .null (some [])), none⟩ ((firstOrder.drop 4).take 3) :=
    .type (ts := [_]) ⟨rfl, rfl, ⟨_, _, rfl, rfl⟩, by decide⟩ rfl (.type (ts := [_]) (us := []) (.simple (.null ⟨rfl, rfl⟩)) .nil)
  have hs : DefNote ⟨"S".toList, .type (.mk .boolean (some [])), none⟩ ((firstOrder.drop 7).take 3) :=
    .type (ts := [_]) ⟨rfl, rfl, ⟨_, _, rfl, rfl⟩, by decide⟩ rfl (.type (ts := [_]) (us := []) (.simple (.boolean ⟨rfl, rfl⟩)) .nil)
  have ht' : DefNote ⟨"T".toList, .type (.mk .null (some [])), none⟩ ((secondOrder.drop 7).take 3) :=
    .type (ts := [_]) ⟨rfl, rfl, ⟨_, _, rfl, rfl⟩, by decide⟩ rfl (.type (ts := [_]) (us := []) (.simple (.null ⟨rfl, rfl⟩)) .nil)
  have hs' : DefNote ⟨"S".toList, .type (.mk .boolean (some [])), none⟩ ((secondOrder.drop 4).take 3) :=
    .type (ts := [_]) ⟨rfl, rfl, ⟨_, _, rfl, rfl⟩, by decide⟩ rfl (.type (ts := [_]) (us := []) (.simple (.boolean ⟨rfl, rfl⟩)) .nil)
  exact .mk (x := "M".toList) (os := []) (gs := []) (is := []) (is' := []) (l := []) (l' := [])
    ⟨rfl, rfl, ⟨_, _, rfl, rfl⟩, by decide⟩ .none ⟨rfl, rfl⟩ .none rfl ⟨rfl, rfl⟩ .none .none (.refl _) .nil
    (.cons ht (.cons hs .nil)) (.cons hs' (.cons ht' .nil)) (.swap _ _ _) (by decide) ⟨rfl, rfl⟩

end Hampi.Compiler.Props
