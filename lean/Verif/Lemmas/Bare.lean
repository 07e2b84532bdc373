import Verif.Spec.Text
import Verif.Spec.ObjectNotation
import Verif.Props.Tokenizer
/-!
# For the examples: from a text to what it spells
-/
namespace Hampi.Compiler.Props
open _root_.Hampi.Compiler.Spec
open _root_.Hampi.Spec (Tiles Same)

/-- A token without its position. -/
def Token.bare (t : Token) : TokenType × Text := (t.type, t.text)

/-- What the tokenizer finds, without comments. -/
def bareTokens (u : Unicode) (text : List Char) : Option (List (TokenType × Text)) :=
  match tokenize u text with
  | .ok ts => some ((ts.filter fun t => !t.is .comment).map Token.bare)
  | _ => none

theorem spells_of {u : Unicode} {text : List Char} {ms : List ParsedModule} {l : List (TokenType × Text)}
    (h : bareTokens u text = some l) (hl : ∀ p ∈ l, p.1 ≠ .tString)
    (hm : ∀ ts : List Token, ts.map Token.bare = l → ModulesNote ms ts) : Spells u text ms := by
  unfold bareTokens at h
  split at h
  · rename_i ts ht
    refine ⟨ts, C50_lossless u text ts ht, fun ts' hs => hm _ ?_⟩
    cases h
    clear ht hm
    induction hs with
    | nil => rfl
    | @cons x y xs ys h _ ih =>
      by_cases hc : x.type = .comment
      · have hx : (!x.is .comment) = false := by simp [Token.is, hc]
        have hy : (!y.is .comment) = false := by simp [Token.is, ← h.1, hc]
        rw [List.filter_cons_of_neg (p := fun t : Token => !t.is .comment) (Bool.eq_false_iff.mp hx)] at hl ⊢
        rw [List.filter_cons_of_neg (p := fun t : Token => !t.is .comment) (Bool.eq_false_iff.mp hy)]
        exact ih hl
      · have hx : (!x.is .comment) = true := by simp [Token.is, hc]
        have hy : (!y.is .comment) = true := by simp [Token.is, ← h.1, hc]
        rw [List.filter_cons_of_pos (p := fun t : Token => !t.is .comment) hx] at hl ⊢
        rw [List.filter_cons_of_pos (p := fun t : Token => !t.is .comment) hy, List.map_cons, List.map_cons,
          ih fun p hp => hl p (by rw [List.map_cons]; exact List.mem_cons_of_mem _ hp)]
        have h1 : x.type ≠ .tString := hl (Token.bare x) (by rw [List.map_cons]; exact List.mem_cons_self)
        obtain ⟨e1, e2⟩ := h
        have e3 : y.text = x.text := by
          revert e2
          generalize x.type = ty at h1 hc
          cases ty <;> first | exact id | exact absurd rfl h1 | exact absurd rfl hc
        simp only [Token.bare, e1, e3]
  · cases h

theorem same_bare {ts ts' : List Token} (hs : All2 Same ts ts') (hl : ∀ t ∈ ts, t.type ≠ .comment ∧ t.type ≠ .tString) :
    ts'.map Token.bare = ts.map Token.bare := by
  induction hs with
  | nil => rfl
  | @cons x y xs ys h _ ih =>
    obtain ⟨h1, h2⟩ := hl x List.mem_cons_self
    rw [List.map_cons, List.map_cons, ih fun t ht => hl t (.tail _ ht)]
    obtain ⟨e1, e2⟩ := h
    have e3 : y.text = x.text := by
      revert e2
      generalize x.type = ty at h1 h2
      cases ty <;> first | exact id | exact absurd rfl h1 | exact absurd rfl h2
    simp only [Token.bare, e1, e3]

theorem bare_types {ts : List Token} {l : List (TokenType × Text)} (h : ts.map Token.bare = l) {P : TokenType → Prop}
    (hl : ∀ p ∈ l, P p.1) : ∀ t ∈ ts, P t.type := by
  intro t ht
  exact hl (Token.bare t) (h ▸ List.mem_map.mpr ⟨t, ht, rfl⟩)

theorem bare_cons {ts : List Token} {p : TokenType × Text} {l : List (TokenType × Text)}
    (h : ts.map Token.bare = p :: l) : ∃ t ts', ts = t :: ts' ∧ t.type = p.1 ∧ t.text = p.2 ∧ ts'.map Token.bare = l := by
  cases ts with
  | nil => cases h
  | cons t ts =>
    rw [List.map_cons, List.cons.injEq] at h
    exact ⟨t, ts, rfl, congrArg Prod.fst h.1, congrArg Prod.snd h.1, h.2⟩

theorem upper {t : Token} {x : Text} (h1 : t.type = .identifier) (h2 : t.text = x)
    (h3 : ∃ c cs, x = c :: cs ∧ c.isUpper = true) (h4 : ∀ kw ∈ KEYWORDS, x ≠ kw.toList) : UpperName x t :=
  ⟨h1, h2, h3, h4⟩

end Hampi.Compiler.Props
