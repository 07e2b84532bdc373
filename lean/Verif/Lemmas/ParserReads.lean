import Verif.Spec.Notation
import Verif.Compiler.Parser
/-! # The parser reads what the notation writes: lemmas -/
namespace Hampi.Compiler
open _root_.Hampi.Compiler.Spec

/-- From some number of steps on. -/
def Ev (P : Nat → Prop) : Prop := ∃ n₀, ∀ n, n₀ ≤ n → P n

theorem Ev.and {P Q : Nat → Prop} (h : Ev P) (k : Ev Q) : Ev fun n => P n ∧ Q n := by
  obtain ⟨a, h⟩ := h
  obtain ⟨b, k⟩ := k
  exact ⟨max a b, fun n hn => ⟨h n (by omega), k n (by omega)⟩⟩

theorem Ev.imp {P Q : Nat → Prop} (h : Ev P) (k : ∀ n, P n → Q n) : Ev Q := by
  obtain ⟨a, h⟩ := h
  exact ⟨a, fun n hn => k n (h n hn)⟩

theorem Ev.imp' {P Q : Nat → Prop} (h : Ev P) (k : ∀ n, P (n + 1) → Q n) : Ev Q := by
  obtain ⟨a, h⟩ := h
  exact ⟨a, fun n hn => k n (h (n + 1) (by omega))⟩

theorem Ev.down {P : Nat → Prop} (h : Ev P) : Ev fun n => P (n + 1) :=
  let ⟨n₀, h⟩ := h; ⟨n₀, fun n hn => h (n + 1) (by omega)⟩

theorem Ev.all {P : Nat → Prop} (h : ∀ n, P n) : Ev P := ⟨0, fun n _ => h n⟩

theorem Ev.step {P : Nat → Prop} (h : Ev fun n => P (n + 1)) : Ev P := by
  obtain ⟨a, h⟩ := h
  refine ⟨a + 1, fun n hn => ?_⟩
  obtain ⟨m, rfl⟩ : ∃ m, n = m + 1 := ⟨n - 1, by omega⟩
  exact h m (by omega)

/-! ## Tokens -/

theorem Spec.Word.type {w t} (h : Word w t) : t.type = .keyword := h.1
theorem Spec.Word.text {w t} (h : Word w t) : t.text = w.toList := h.2
theorem Spec.LowerName.type {x t} (h : LowerName x t) : t.type = .identifier := h.1
theorem Spec.LowerName.text {x t} (h : LowerName x t) : t.text = x := h.2.1
theorem Spec.UpperName.type {x t} (h : UpperName x t) : t.type = .identifier := h.1
theorem Spec.UpperName.text {x t} (h : UpperName x t) : t.text = x := h.2.1

theorem Spec.LowerName.isValueRef {x t} (h : LowerName x t) : t.isValueRef = true := by
  obtain ⟨h1, h2, c, cs, h3, h4⟩ := h
  simp [Token.isValueRef, Token.is, h1, h2, h3, startsWith, h4]

theorem Spec.UpperName.isTypeRef {x t} (h : UpperName x t) : t.isTypeRef = true := by
  obtain ⟨h1, h2, ⟨c, cs, h3, h4⟩, _⟩ := h
  simp [Token.isTypeRef, Token.is, h1, h2, h3, startsWith, h4]

theorem upper_not_lower (c : Char) (h : c.isUpper = true) : c.isLower = false := by
  simp only [Char.isUpper, Char.isLower, decide_eq_true_eq, ge_iff_le, Bool.and_eq_false_imp, decide_eq_false_iff_not] at *
  obtain ⟨a, b⟩ := h
  intro c1 c2
  rw [UInt32.le_iff_toNat_le] at *
  simp at *
  omega

theorem Spec.UpperName.not_isValueRef {x t} (h : UpperName x t) : t.isValueRef = false := by
  obtain ⟨h1, h2, ⟨c, cs, h3, h4⟩, _⟩ := h
  simp [Token.isValueRef, Token.is, h1, h2, h3, startsWith, upper_not_lower c h4]

theorem Spec.LowerName.not_isTypeRef {x t} (h : LowerName x t) : t.isTypeRef = false := by
  obtain ⟨h1, h2, c, cs, h3, h4⟩ := h
  have : c.isUpper = false := by
    cases hc : c.isUpper with
    | false => rfl
    | true => rw [upper_not_lower c hc] at h4; cases h4
  simp [Token.isTypeRef, Token.is, h1, h2, h3, startsWith, this]

theorem not_isValueRef {t : Token} (h : t.type ≠ .identifier) : t.isValueRef = false := by
  simp [Token.isValueRef, Token.is, h]

theorem not_isTypeRef {t : Token} (h : t.type ≠ .identifier) : t.isTypeRef = false := by
  simp [Token.isTypeRef, Token.is, h]

theorem not_isClassRef {t : Token} (h : t.type ≠ .identifier) : t.isClassRef = false := by
  simp [Token.isClassRef, not_isTypeRef h]

theorem not_isKeyword {t : Token} {w : String} (h : t.type ≠ .keyword) : t.isKeyword w = false := by
  simp [Token.isKeyword, Token.is, h]

theorem Spec.Word.isKeyword {w t} (h : Word w t) : t.isKeyword w = true := by
  simp [Token.isKeyword, Token.is, h.1, h.2]

theorem Spec.Word.isBuiltin {w t} (h : Word w t) (hw : w ∈ BUILTIN_TYPES) : t.isBuiltin = true := by
  simp only [Token.isBuiltin, List.any_eq_true]
  exact ⟨w, hw, by simp [h.2]⟩

theorem Spec.UpperName.ne {x t} (h : UpperName x t) {w : String} (hw : w ∈ KEYWORDS) : t.text ≠ w.toList := by
  rw [h.2.1]; exact h.2.2.2 w hw

theorem Spec.ClassName.isClassRef {x t} (h : ClassName x t) : t.isClassRef = true := by
  obtain ⟨h, k⟩ := h
  simp only [Token.isClassRef, h.isTypeRef, Bool.true_and, List.all_eq_true, h.text]
  intro c hc
  rcases k c hc with h | h | h <;> simp [h]

theorem expectAll_two (p q : Token → Bool) (t u : Token) (ts : Tokens) :
    expectAll [p, q] (t :: u :: ts) = .ok (p t && q u) := by
  rw [expectAll, if_neg (by simp)]
  simp

theorem expectAll_three (p q r : Token → Bool) (t u v : Token) (ts : Tokens) :
    expectAll [p, q, r] (t :: u :: v :: ts) = .ok (p t && (q u && r v)) := by
  rw [expectAll, if_neg (by simp)]
  simp

/-! ## Values -/

theorem closing_reads {b e : TokenType} (hbe : b ≠ e) {ts : Tokens} (h : Balanced b e ts) :
    ∀ (t : Token) (l : Int) (y : Token) (rest : Tokens), y.type = e → 
      0 < (if t.type = b then l + 1 else l) → 
      closingToken (Token.is b) (Token.is e) l t (ts ++ y :: rest) =
        if (if t.type = b then l + 1 else l) = 1 then .ok (t :: (ts ++ [y]), rest)
        else (closingToken (Token.is b) (Token.is e) ((if t.type = b then l + 1 else l) - 1) y rest).bind
          fun r => .ok (t :: ts ++ r.1, r.2) := by
  induction h with
  | nil =>
    intro t l y rest hy hl
    have hbt : (Token.is b t = true) ↔ t.type = b := by simp [Token.is]
    simp only [List.nil_append, closingToken, hbt]
    simp only [Token.is, hy, beq_self_eq_true, if_true]
    by_cases h1 : (if t.type = b then l + 1 else l) = 1
    · simp [h1]
    · rw [if_neg h1, if_neg (by omega)]
      rfl
  | @other u ts h1 h2 _ ih =>
    intro t l y rest hy hl
    have hbt : (Token.is b t = true) ↔ t.type = b := by simp [Token.is]
    have heu : ¬ (Token.is e u = true) := by simp [Token.is, h2]
    simp only [List.cons_append, closingToken, hbt, if_neg heu]
    rw [ih u _ y rest hy (by simpa [h1] using hl)]
    simp only [if_neg h1]
    generalize (if t.type = b then l + 1 else l) = L
    split
    · rfl
    · generalize closingToken _ _ _ _ _ = o
      cases o <;> simp [Out.bind]
  | @nest x ts z us h1 _ h2 _ ih1 ih2 =>
    intro t l y rest hy hl
    have hbt : (Token.is b t = true) ↔ t.type = b := by simp [Token.is]
    have hex : ¬ (Token.is e x = true) := by simp [Token.is, h1, hbe]
    simp only [List.cons_append, closingToken, hbt, if_neg hex]
    rw [List.append_assoc, List.cons_append, ih1 x _ z _ h2 (by simp only [h1, if_true]; omega)]
    simp only [h1, if_true]
    rw [if_neg (by omega)]
    have hzb : z.type ≠ b := by rw [h2]; exact hbe.symm
    rw [ih2 z _ y rest hy (by simp only [hzb, if_false]; omega)]
    simp only [hzb, if_false]
    rw [show (if t.type = b then l + 1 else l) + 1 - 1 = (if t.type = b then l + 1 else l) by omega]
    generalize (if t.type = b then l + 1 else l) = L
    split
    · simp [Out.bind]
    · generalize closingToken _ _ _ _ _ = o
      cases o <;> simp [Out.bind]

theorem setish_reads {v ts} (h : BracedValue v ts) (rest : Tokens) :
    parseSetIsh (ts ++ rest) = .ok (v, rest) := by
  cases h with
  | @mk x ts y h1 h2 h3 =>
    have := closing_reads (by decide) h2 x 0 y rest h3 (by simp [h1])
    simp only [h1, if_true, Int.zero_add] at this
    simp only [List.cons_append, List.append_assoc, List.nil_append, parseSetIsh]
    rw [if_pos (by simp [Token.is, h1]), this]
    rfl

theorem Spec.WordValue.isSimple {v t} (h : WordValue v t) : t.isSimpleValue = true := by
  obtain ⟨_, h⟩ := h
  rcases h with h | h | h | h | h <;> simp [Token.isSimpleValue, Token.is, h]

theorem wordValue_reads {v t} (h : WordValue v t) (rest : Tokens) :
    parseValue (t :: rest) = .ok (v, rest) := by
  simp [parseValue, h.isSimple, h.1]

theorem value_reads {v ts} (h : ValueNote v ts) (rest : Tokens) :
    parseValue (ts ++ rest) = .ok (v, rest) := by
  cases h with
  | word h => exact wordValue_reads h rest
  | braces h =>
    have := setish_reads h rest
    cases h with
    | @mk x us y h1 h2 h3 =>
      simp only [List.cons_append] at *
      simp only [parseValue]
      rw [if_neg (by simp [Token.isSimpleValue, Token.is, h1]), if_pos (by simp [Token.is, h1]), this]

/-! ## Types without components -/

theorem number_reads {v ts} (h : NumberNote v ts) {i x} (hi : LowerName x i) (rest : Tokens) :
    parseNamedMaybeValue (i :: (ts ++ rest)) = .ok ((x, some v), rest) := by
  cases h with
  | number h1 h2 h3 =>
    simp [parseNamedMaybeValue, need, hi.isValueRef, Out.bind, Token.is, h1, h2, h3, parseInBrackets, hi.text]
  | reference h1 h2 h3 =>
    simp [parseNamedMaybeValue, need, hi.isValueRef, Out.bind, Token.is, h1, h2.type, h2.isValueRef, h3,
      parseInBrackets, hi.text, h2.text]

theorem named_reads {vs ts} (h : Listed NamedNote vs ts) :
    ∀ acc e rest, e.type = .curlyEnd →
      Ev fun n => namedValuesLoop n acc (ts ++ e :: rest) = .ok (acc ++ vs, rest) := by
  induction h with
  | one h =>
    intro acc e rest he
    cases h with
    | mk h1 h2 =>
      refine Ev.step (Ev.all fun n => ?_)
      simp only [namedValuesLoop, List.cons_append]
      rw [number_reads h2 h1]
      simp [Out.bind, Token.is, he]
  | more h hc _ ih =>
    intro acc e rest he
    cases h with
    | @mk x i v ts h1 h2 =>
      refine Ev.step ((ih (acc ++ [(x, v)]) e rest he).imp fun n hn => ?_)
      simp only [namedValuesLoop, List.cons_append, List.append_assoc]
      rw [number_reads h2 h1]
      simp [Out.bind, Token.is, hc, hn]

/-- The tokens after a type without constraints do not look like a part of it. -/
def KStop (rest : Tokens) : Prop := ∀ t ∈ rest.head?, t.type ≠ .curlyBegin ∧ t.type ≠ .dot

theorem maybeNamed_none {rest : Tokens} (h : KStop rest) (n : Nat) :
    parseMaybeNamedValues n rest = .ok (none, rest) := by
  cases rest with
  | nil => rfl
  | cons t ts =>
    have := (h t (by simp)).1
    simp [parseMaybeNamedValues, Token.is, this]

theorem maybeNamed_some {vs ts} (h : Listed NamedNote vs ts) {b e : Token} (hb : b.type = .curlyBegin)
    (he : e.type = .curlyEnd) (rest : Tokens) :
    Ev fun n => parseMaybeNamedValues n (b :: (ts ++ e :: rest)) = .ok (some vs, rest) := by
  refine (named_reads h [] e rest he).imp fun n hn => ?_
  simp [parseMaybeNamedValues, parseNamedValues, need, Token.is, hb, Out.bind, hn]

theorem enumItem_reads {v ts} (h : EnumNote v ts) (z : Token) (rest : Tokens) (hz : z.type ≠ .roundBegin) :
    parseNamedMaybeValue (ts ++ z :: rest) = .ok ((v.name, v.value), z :: rest) := by
  cases h with
  | plain h =>
    simp [parseNamedMaybeValue, need, h.isValueRef, h.text, Out.bind, Token.is, hz]
  | numbered h1 h2 =>
    rw [List.cons_append, number_reads h2 h1]

theorem enum_reads {vs ts} (h : Listed EnumNote vs ts) :
    ∀ acc, (∀ e rest, e.type = .curlyEnd →
      Ev fun n => enumValuesLoop n acc (ts ++ e :: rest) = .ok (acc ++ vs, e :: rest)) ∧
     (∀ c x rest, c.type = .comma → x.type = .extension →
      Ev fun n => enumValuesLoop n acc (ts ++ c :: x :: rest) = .ok (acc ++ vs, x :: rest)) := by
  induction h with
  | one h =>
    intro acc
    constructor
    · intro e rest he
      refine Ev.step (Ev.all fun n => ?_)
      simp only [enumValuesLoop]
      rw [enumItem_reads h _ _ (by simp [he])]
      simp [Out.bind, skip, expect, Token.is, he]
    · intro c x rest hc hx
      refine Ev.step (Ev.all fun n => ?_)
      simp only [enumValuesLoop]
      rw [enumItem_reads h _ _ (by simp [hc])]
      simp [Out.bind, skip, expect, Token.is, hc, hx]
  | @more v ts c xs us h hc hl ih =>
    intro acc
    have hd : ∃ i ws, us = i :: ws ∧ i.type = .identifier := by
      cases hl with
      | one h => cases h with
        | plain h => exact ⟨_, _, rfl, h.type⟩
        | numbered h _ => exact ⟨_, _, rfl, h.type⟩
      | more h _ _ => cases h with
        | plain h => exact ⟨_, _, rfl, h.type⟩
        | numbered h _ => exact ⟨_, _, rfl, h.type⟩
    obtain ⟨i, ws, rfl, hi⟩ := hd
    have key : ∀ tail n, enumValuesLoop (n + 1) acc (ts ++ c :: (i :: ws) ++ tail) =
        enumValuesLoop n (acc ++ [⟨v.name, v.value⟩]) (i :: ws ++ tail) := by
      intro tail n
      simp only [enumValuesLoop, List.append_assoc, List.cons_append]
      rw [enumItem_reads h _ _ (by simp [hc])]
      simp [Out.bind, skip, expect, Token.is, hc, hi]
    constructor
    · intro e rest he
      refine Ev.step (((ih (acc ++ [⟨v.name, v.value⟩])).1 e rest he).imp fun n hn => ?_)
      rw [key, hn]; simp
    · intro d x rest hd hx
      refine Ev.step (((ih (acc ++ [⟨v.name, v.value⟩])).2 d x rest hd hx).imp fun n hn => ?_)
      rw [key, hn]; simp

theorem enum_stops (e : Token) (rest : Tokens) (he : e.type = .curlyEnd) (acc) :
    Ev fun n => enumValuesLoop n acc (e :: rest) = .err .unexpectedToken := by
  refine Ev.step (Ev.all fun n => ?_)
  simp [enumValuesLoop, parseNamedMaybeValue, need, not_isValueRef (t := e) (by simp [he]), Out.bind]

theorem params_reads {ps ts} (h : Listed ParamNote ps ts) :
    ∀ acc e rest, e.type = .curlyEnd →
      Ev fun n => actualParamsLoop n acc (ts ++ e :: rest) = .ok (acc ++ ps, rest) := by
  have hd : ∀ {p ts}, ParamNote p ts → ∀ z rest, (z.type = .comma ∨ z.type = .curlyEnd) →
      ∃ a b, parseSetParam (ts ++ z :: rest) = .ok a ∧ parseSingleParam a.2 = .ok (b, z :: rest) ∧
        a.1 ++ b = [p] := by
    intro p ts h z rest hz
    have hz1 : z.type ≠ .numberInt := by rcases hz with h | h <;> simp [h]
    have hz2 : z.type ≠ .identifier := by rcases hz with h | h <;> simp [h]
    cases h with
    | @single t h =>
      refine ⟨([], t :: z :: rest), _, ?_, ?_, rfl⟩
      · rcases h with h | h <;> simp [parseSetParam, skip, Token.is, h, Out.bind]
      · rcases h with h | h <;> simp [parseSingleParam, Token.is, h]
    | set h1 h2 h3 =>
      refine ⟨(_, z :: rest), [], ?_, ?_, List.append_nil _⟩
      · rcases h2 with h | h <;> simp [parseSetParam, skip, need, Token.is, h, h1, h3, Out.bind]
      · simp [parseSingleParam, Token.is, hz1, hz2]
  induction h with
  | one h =>
    intro acc e rest he
    obtain ⟨a, b, h1, h2, h3⟩ := hd h e rest (.inr he)
    refine Ev.step (Ev.all fun n => ?_)
    simp [actualParamsLoop, h1, h2, Out.bind, skip, Token.is, he, h3]
  | @more p ts c xs us h hc hl ih =>
    intro acc e rest he
    have hne : ∃ i ws, us = i :: ws ∧ i.type ≠ .curlyEnd := by
      cases hl with
      | one h => cases h with
        | single h => exact ⟨_, _, rfl, by rcases h with h | h <;> simp [h]⟩
        | set h _ => exact ⟨_, _, rfl, by simp [h]⟩
      | more h _ _ => cases h with
        | single h => exact ⟨_, _, rfl, by rcases h with h | h <;> simp [h]⟩
        | set h _ => exact ⟨_, _, rfl, by simp [h]⟩
    obtain ⟨i, ws, rfl, hi⟩ := hne
    obtain ⟨a, b, h1, h2, h3⟩ := hd h c (i :: ws ++ e :: rest) (.inl hc)
    refine Ev.step ((ih (acc ++ [p]) e rest he).imp fun n hn => ?_)
    simp only [List.cons_append] at *
    simp [actualParamsLoop, h1, h2, Out.bind, skip, Token.is, hc, hi, hn, h3]

/-- `parse_type` goes on after the first token. -/
def TypeStart (t : Token) : Prop := (t.isTypeRef || t.isBuiltin || t.isClassRef) = true

theorem Spec.Word.start {w t} (h : Word w t) (hw : w ∈ BUILTIN_TYPES) : TypeStart t := by
  simp [TypeStart, h.isBuiltin hw]

theorem Spec.UpperName.start {x t} (h : UpperName x t) : TypeStart t := by
  simp [TypeStart, h.isTypeRef]

/-- A word that is not reserved is read as a reference. -/
theorem kind_reference {x t} (h : UpperName x t) (n : Nat) (ts : Tokens) :
    parseKind (n + 1) t ts = parseReference n t ts := by
  have g : ∀ w : String, w ∈ KEYWORDS → ¬ t.text = w.toList := fun w hw => h.ne hw
  rw [parseKind]
  rw [if_neg (g "BIT" (by decide)), if_neg (g "OCTET" (by decide)), if_neg (g "CHARACTER" (by decide)),
    if_neg (g "ENUMERATED" (by decide)), if_neg (g "INTEGER" (by decide)), if_neg (g "OBJECT" (by decide)),
    if_neg (g "BOOLEAN" (by decide)), if_neg (g "NULL" (by decide)), if_neg ?_,
    if_neg (g "CHOICE" (by decide)), if_neg (g "SEQUENCE" (by decide))]
  simp only [isStringType, List.any_cons, List.any_nil, Bool.or_false, Bool.or_eq_true, beq_iff_eq, not_or]
  exact ⟨g _ (by decide), g _ (by decide), g _ (by decide), g _ (by decide)⟩

theorem reference_plain {t : Token} {rest : Tokens} (h : KStop rest) (n : Nat) :
    parseReference n t rest = .ok (.reference t.text, rest) := by
  cases rest with
  | nil => simp [parseReference, parseClassField, parseReferenceName, parseMaybeParams]
  | cons d us =>
    have hd := h d (by simp)
    cases us with
    | nil =>
      simp [parseReference, parseClassField, parseReferenceName, parseMaybeParams, Token.is, hd.1]
    | cons u us =>
      simp [parseReference, parseClassField, parseReferenceName, parseMaybeParams, Token.is, hd.1, hd.2]

theorem simple_reads {k ts} (h : SimpleNote k ts) (rest : Tokens) (hr : KStop rest) :
    ∃ t us, ts = t :: us ∧ TypeStart t ∧ Ev fun n => parseKind n t (us ++ rest) = .ok (k, rest) := by
  cases h with
  | integer h =>
    refine ⟨_, _, rfl, h.start (by decide), Ev.step (Ev.all fun n => ?_)⟩
    simp [parseKind, h.text, parseInteger, need, h.isKeyword, Out.bind, maybeNamed_none hr]
  | @namedInteger t b vs ts e h hb hv he =>
    refine ⟨_, _, rfl, h.start (by decide), Ev.step ((maybeNamed_some hv hb he rest).imp fun n hn => ?_)⟩
    simp [parseKind, h.text, parseInteger, need, h.isKeyword, Out.bind, hn]
  | bitString h hu =>
    refine ⟨_, _, rfl, h.start (by decide), Ev.step (Ev.all fun n => ?_)⟩
    simp [parseKind, h.text, parseBitString, expectAll_two, h.isKeyword, hu.isKeyword, Out.bind, maybeNamed_none hr]
  | @namedBitString t u b vs ts e h hu hb hv he =>
    refine ⟨_, _, rfl, h.start (by decide), Ev.step ((maybeNamed_some hv hb he rest).imp fun n hn => ?_)⟩
    simp [parseKind, h.text, parseBitString, expectAll_two, h.isKeyword, hu.isKeyword, Out.bind, hn]
  | octetString h hu =>
    refine ⟨_, _, rfl, h.start (by decide), Ev.step (Ev.all fun n => ?_)⟩
    simp [parseKind, h.text, twoWords]
  | characterString h hu =>
    refine ⟨_, _, rfl, h.start (by decide), Ev.step (Ev.all fun n => ?_)⟩
    simp [parseKind, h.text, twoWords]
  | objectIdentifier h hu =>
    refine ⟨_, _, rfl, h.start (by decide), Ev.step (Ev.all fun n => ?_)⟩
    simp [parseKind, h.text, parseObjectIdentifier, expectAll_two, h.isKeyword, hu.isKeyword, Out.bind]
  | boolean h =>
    refine ⟨_, _, rfl, h.start (by decide), Ev.step (Ev.all fun n => ?_)⟩
    simp [parseKind, h.text]
  | null h =>
    refine ⟨_, _, rfl, h.start (by decide), Ev.step (Ev.all fun n => ?_)⟩
    simp [parseKind, h.text]
  | string hw h =>
    refine ⟨_, _, rfl, h.start ?_, Ev.step (Ev.all fun n => ?_)⟩
    · simp only [List.mem_cons, List.not_mem_nil, or_false] at hw
      rcases hw with rfl | rfl | rfl | rfl <;> decide
    · simp only [List.mem_cons, List.not_mem_nil, or_false] at hw
      rcases hw with rfl | rfl | rfl | rfl <;> simp [parseKind, h.text, isStringType]
  | @enumerated t b vs ts e h hb hv he =>
    refine ⟨_, _, rfl, h.start (by decide), Ev.step (((enum_reads hv []).1 e rest he).and
      (enum_stops e rest he []) |>.imp fun n hn => ?_)⟩
    simp [parseKind, h.text, parseEnumerated, need, skip, h.isKeyword, Out.bind, Token.is, hb, hn, he,
      Out.attempt]
  | @extensible t b vs ts c x e h hb hv hc hx he =>
    refine ⟨_, _, rfl, h.start (by decide), Ev.step (((enum_reads hv []).2 c x (e :: rest) hc hx).and
      (enum_stops e rest he []) |>.imp fun n hn => ?_)⟩
    simp [parseKind, h.text, parseEnumerated, need, skip, h.isKeyword, Out.bind, Token.is, hb, hn, he, hx,
      Out.attempt]
  | @extended t b vs ts c x d ws us e h hb hv hc hx hd hw he =>
    refine ⟨_, _, rfl, h.start (by decide), Ev.step (((enum_reads hv []).2 c x (d :: (us ++ e :: rest)) hc hx).and
      ((enum_reads hw []).1 e rest he) |>.imp fun n hn => ?_)⟩
    simp [parseKind, h.text, parseEnumerated, need, skip, h.isKeyword, Out.bind, Token.is, hb, hn, he, hx, hd,
      Out.attempt]
  | reference h =>
    refine ⟨_, _, rfl, h.start, Ev.step (Ev.all fun n => ?_)⟩
    rw [kind_reference h, List.nil_append, reference_plain hr, h.text]
  | @external x y t d u h hd hd' hu =>
    refine ⟨_, _, rfl, h.start, Ev.step (Ev.all fun n => ?_)⟩
    rw [kind_reference h]
    have hf : (u.isTypeField || u.isValueField) = false := by
      simp [Token.isTypeField, Token.isValueField, Token.is, hu.type]
    simp only [parseReference, List.cons_append, List.nil_append, parseClassField, parseReferenceName, hf,
      Bool.and_false, h.isTypeRef, hu.isTypeRef]
    simp only [Token.is, hd]
    have : concatTexts [t, d, u] [] = x ++ '.' :: y := by
      simp [concatTexts, h.text, hd', hu.text, List.intercalate]
    cases rest with
    | nil => simp [parseMaybeParams, this]
    | cons z zs => simp [parseMaybeParams, this, Token.is, (hr z (by simp)).1]
  | @classField x y t d u h hd hu =>
    refine ⟨_, _, rfl, h.1.start, Ev.step (Ev.all fun n => ?_)⟩
    rw [kind_reference h.1]
    obtain ⟨hu1, hu2, c, cs, hu3, hu4⟩ := hu
    have hf : (u.isTypeField || u.isValueField) = true := by
      rcases hu4 with hu4 | hu4 <;>
        simp [Token.isTypeField, Token.isValueField, Token.is, hu1, hu2, hu3, startsWith, hu4]
    simp only [parseReference, List.cons_append, List.nil_append, parseClassField, hf, h.isClassRef,
      Token.is, hd]
    simp [h.1.text, hu2]
  | @parameterized x t b ps ts e h hb hp he =>
    refine ⟨_, _, rfl, h.start, Ev.step ((params_reads hp [] e rest he).imp fun n hn => ?_)⟩
    rw [kind_reference h]
    have hne : ps.isEmpty = false := by cases hp <;> rfl
    have h2 : parseReference n t (b :: (ts ++ e :: rest)) =
        parseMaybeParams n t.text (b :: (ts ++ e :: rest)) := by
      unfold parseReference
      have : ∃ z zs, ts ++ e :: rest = z :: zs := by cases ts <;> simp
      obtain ⟨z, zs, hz⟩ := this
      rw [hz]
      simp [parseClassField, parseReferenceName, Token.is, hb]
    simp only [List.cons_append, List.append_assoc, List.nil_append, h2]
    simp [parseMaybeParams, Token.is, hb, parseActualParams, need, Out.bind, hn, hne, h.text]

end Hampi.Compiler
