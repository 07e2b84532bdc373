import Verif.Spec.Accepted
/-!
# What the parser takes is in the notation that is accepted: types
-/
namespace Hampi.Compiler.Acc
open Hampi.Compiler.Spec

/-- All of the tokens are genuine. -/
def Gen (ts : Tokens) : Prop := ∀ t ∈ ts, Genuine t

theorem Gen.tail {t : Token} {ts : Tokens} (h : Gen (t :: ts)) : Gen ts := fun u hu => h u (.tail _ hu)
theorem Gen.head {t : Token} {ts : Tokens} (h : Gen (t :: ts)) : Genuine t := h t (.head _)
theorem Gen.right {us ts : Tokens} (h : Gen (us ++ ts)) : Gen ts := fun u hu => h u (List.mem_append_right _ hu)

theorem bind_ok {ε α β : Type} {m : Out ε α} {f : α → Out ε β} {y : β} (h : m.bind f = .ok y) :
    ∃ x, m = .ok x ∧ f x = .ok y := by
  cases m with
  | ok x => exact ⟨x, rfl, h⟩
  | err => cases h
  | panic => cases h
  | diverge => cases h

theorem attempt_ok {ε α β : Type} {m : Out ε α} {f : Option α → Out ε β} {y : β} (h : m.attempt.bind f = .ok y) :
    (∃ x, m = .ok x ∧ f (some x) = .ok y) ∨ ((∃ e, m = .err e) ∧ f none = .ok y) := by
  cases m with
  | ok x => exact .inl ⟨x, rfl, h⟩
  | err => exact .inr ⟨⟨_, rfl⟩, h⟩
  | panic => cases h
  | diverge => cases h

theorem need_ok {p : Token → Bool} {ts r : Tokens} {t : Token} (h : need p ts = .ok (t, r)) :
    ts = t :: r ∧ p t = true := by
  cases ts with
  | nil => cases h
  | cons u us =>
    rw [need] at h
    split at h
    · cases h; exact ⟨rfl, ‹_›⟩
    · cases h

theorem skip_ok {p : Token → Bool} {ts r : Tokens} {b : Bool} (h : skip p ts = .ok (b, r)) :
    (b = true ∧ ∃ t, ts = t :: r ∧ p t = true) ∨ (b = false ∧ ts = r ∧ ∃ t us, r = t :: us ∧ p t = false) := by
  cases ts with
  | nil => cases h
  | cons u us =>
    rw [skip] at h
    split at h
    · cases h; exact .inl ⟨rfl, _, rfl, ‹_›⟩
    · cases h; exact .inr ⟨rfl, rfl, _, _, rfl, by simp_all⟩

theorem expect_ok {p : Token → Bool} {ts : Tokens} {b : Bool} (h : expect p ts = .ok b) :
    ∃ t us, ts = t :: us ∧ p t = b := by
  cases ts with
  | nil => cases h
  | cons u us => cases h; exact ⟨_, _, rfl, rfl⟩

theorem is_iff {type : TokenType} {t : Token} : t.is type = true ↔ t.type = type := by simp [Token.is]

theorem word_of {w : String} {t : Token} (h : t.isKeyword w = true) : Word w t := by
  simpa [Token.isKeyword, Word, Token.is] using h

theorem starts_of {p : Char → Bool} {x : Text} (h : startsWith p x = true) : ∃ c cs, x = c :: cs ∧ p c = true := by
  cases x with
  | nil => cases h
  | cons c cs => exact ⟨c, cs, rfl, h⟩

theorem lower_of {t : Token} (h : t.isValueRef = true) : LowerName t.text t := by
  simp only [Token.isValueRef, Bool.and_eq_true, is_iff] at h
  exact ⟨h.1, rfl, starts_of h.2⟩

theorem upper_of {t : Token} (g : Genuine t) (h : t.isTypeRef = true) : UpperName t.text t := by
  simp only [Token.isTypeRef, Bool.and_eq_true, is_iff] at h
  exact ⟨h.1, rfl, starts_of h.2, g.name h.1⟩

theorem class_of {t : Token} (g : Genuine t) (h : t.isClassRef = true) : ClassName t.text t := by
  simp only [Token.isClassRef, Bool.and_eq_true, List.all_eq_true, Bool.or_eq_true, beq_iff_eq] at h
  refine ⟨upper_of g h.1, fun c hc => ?_⟩
  have := h.2 c hc
  rw [or_assoc] at this
  exact this

theorem builtin_of {t : Token} (g : Genuine t) (h : t.isBuiltin = true) : ∃ w ∈ typeWords, Word w t := by
  simp only [Token.isBuiltin, List.any_eq_true, beq_iff_eq] at h
  obtain ⟨w, hw, e⟩ := h
  exact ⟨w, hw, g.word w hw e, e⟩

theorem union_of {t : Token} (h : t.isUnion = true) : UnionSign t := by
  simp only [Token.isUnion, Bool.or_eq_true, is_iff] at h
  exact h.imp id word_of

theorem inter_of {t : Token} (h : t.isIntersection = true) : IntersectionSign t := by
  simp only [Token.isIntersection, Bool.or_eq_true, is_iff] at h
  exact h.imp id word_of

/-- `if expect_token(..)? { consumed += 1 }` for a comma. -/
theorem perhaps_of {type : TokenType} {ts r : Tokens} {b : Bool} (h : skip (Token.is type) ts = .ok (b, r)) :
    ∃ us, ts = us ++ r ∧ Perhaps type us := by
  rcases skip_ok h with ⟨-, t, rfl, ht⟩ | ⟨-, rfl, -⟩
  · exact ⟨[t], rfl, .some (is_iff.mp ht)⟩
  · exact ⟨[], rfl, .none⟩

/-! ## Values -/

/-- Tokens in which `k` brackets are closed that are not opened. -/
inductive Deep (b e : TokenType) : Nat → Tokens → Prop
  | zero {ts} : Balanced b e ts → Deep b e 0 ts
  | succ {k ts y us} : Balanced b e ts → y.type = e → Deep b e k us → Deep b e (k + 1) (ts ++ y :: us)

theorem Deep.other {b e : TokenType} {k : Nat} {t : Token} {ts : Tokens} (hb : t.type ≠ b) (he : t.type ≠ e)
    (h : Deep b e k ts) : Deep b e k (t :: ts) := by
  cases h with
  | zero h => exact .zero (.other hb he h)
  | succ h hy hu => exact .succ (ts := t :: _) (.other hb he h) hy hu

theorem Deep.nest {b e : TokenType} {k : Nat} {t : Token} {ts : Tokens} (hb : t.type = b)
    (h : Deep b e (k + 1) ts) : Deep b e k (t :: ts) := by
  cases h with
  | @succ _ us y vs h hy hu =>
    cases hu with
    | zero hv => exact .zero (.nest hb h hy hv)
    | @succ k us' z ws hv hz hw =>
      have := Deep.succ (Balanced.nest hb h hy hv) hz hw
      simpa using this

theorem closingToken_ok {b e : TokenType} (hbe : b ≠ e) :
    ∀ (ts : Tokens) (level : Int) (k : Nat) (t : Token) (r rest : Tokens),
      closingToken (Token.is b) (Token.is e) level t ts = .ok (r, rest) →
      (if t.is b then level + 1 else level) = (k : Int) + 1 →
      ∃ us y, ts = us ++ y :: rest ∧ r = t :: (us ++ [y]) ∧ y.type = e ∧ Deep b e k us := by
  intro ts
  induction ts with
  | nil => intro level k t r rest h; cases h
  | cons u us ih =>
    intro level k t r rest h hl
    rw [closingToken] at h
    simp only [hl] at h
    split at h
    · rename_i he
      have he := is_iff.mp he
      split at h
      · cases h
        have : k = 0 := by omega
        subst this
        exact ⟨[], u, rfl, rfl, he, .zero .nil⟩
      · replace h := bind_ok h; obtain ⟨⟨r', rest'⟩, h1, h⟩ := h
        cases h
        obtain ⟨k, rfl⟩ : ∃ j, k = j + 1 := ⟨k - 1, by omega⟩
        have hb : u.is b = false := by simp [Token.is, he, Ne.symm hbe]
        obtain ⟨vs, y, rfl, rfl, hy, hd⟩ := ih (↑(k + 1) + 1 - 1) k u _ _ h1 (by rw [hb]; simp)
        exact ⟨u :: vs, y, rfl, by simp, hy, .succ .nil he hd⟩
    · rename_i he
      have he : u.type ≠ e := fun h => he (is_iff.mpr h)
      replace h := bind_ok h; obtain ⟨⟨r', rest'⟩, h1, h⟩ := h
      cases h
      by_cases hb : u.type = b
      · obtain ⟨vs, y, rfl, rfl, hy, hd⟩ := ih (↑k + 1) (k + 1) u _ _ h1 (by rw [if_pos (is_iff.mpr hb)]; simp)
        exact ⟨u :: vs, y, rfl, by simp, hy, hd.nest hb⟩
      · obtain ⟨vs, y, rfl, rfl, hy, hd⟩ := ih (↑k + 1) k u _ _ h1
          (by rw [if_neg (fun h => hb (is_iff.mp h))])
        exact ⟨u :: vs, y, rfl, by simp, hy, hd.other hb he⟩

theorem parseSetIsh_ok {ts rest : Tokens} {v : Text} (h : parseSetIsh ts = .ok (v, rest)) :
    ∃ t us, ts = t :: (us ++ rest) ∧ AccGroup v (t :: us) ∧ (t.type ≠ .roundBegin → BracedValue v (t :: us)) := by
  cases ts with
  | nil => cases h
  | cons t ts =>
    rw [parseSetIsh] at h
    split at h
    · rename_i ht
      replace h := bind_ok h; obtain ⟨⟨r, rest'⟩, h1, h⟩ := h
      cases h
      obtain ⟨us, y, rfl, rfl, hy, hd⟩ := closingToken_ok (by simp) ts 0 0 t _ _ h1 (by rw [if_pos ht]; simp)
      cases hd with
      | zero hd => exact ⟨t, us ++ [y], by simp, .curly (.mk (is_iff.mp ht) hd hy), fun _ => .mk (is_iff.mp ht) hd hy⟩
    · split at h
      · rename_i ht
        replace h := bind_ok h; obtain ⟨⟨r, rest'⟩, h1, h⟩ := h
        cases h
        obtain ⟨us, y, rfl, rfl, hy, hd⟩ := closingToken_ok (by simp) ts 0 0 t _ _ h1 (by rw [if_pos ht]; simp)
        cases hd with
        | zero hd => exact ⟨t, us ++ [y], by simp, .round (is_iff.mp ht) hd hy, fun h => (h (is_iff.mp ht)).elim⟩
      · cases h

theorem wordValue_of {t : Token} (h : t.isSimpleValue = true) : WordValue t.text t := by
  simp only [Token.isSimpleValue, Bool.or_eq_true, is_iff] at h
  refine ⟨rfl, ?_⟩
  rcases h with (((h | h) | h) | h) | h <;> simp [h]

theorem parseValue_ok {ts rest : Tokens} {v : Text} (h : parseValue ts = .ok (v, rest)) :
    ∃ t us, ts = t :: (us ++ rest) ∧ AccValue v (t :: us) ∧ (t.type ≠ .roundBegin → ValueNote v (t :: us)) := by
  cases ts with
  | nil => cases h
  | cons t ts =>
    rw [parseValue] at h
    split at h
    · rename_i ht
      cases h
      exact ⟨t, [], rfl, .word (wordValue_of ht), fun _ => .word (wordValue_of ht)⟩
    · split at h
      · obtain ⟨t', us, e, h1, h2⟩ := parseSetIsh_ok h
        cases e
        exact ⟨t, us, rfl, .group h1, fun hr => .braces (h2 hr)⟩
      · cases h

/-! ## Base types -/

theorem parseInBrackets_ok {ts rest : Tokens} {v : NamedValue} {b : Token} (hb : b.type = .roundBegin)
    (h : parseInBrackets ts = .ok (v, rest)) : ∃ us, ts = us ++ rest ∧ NumberNote v (b :: us) := by
  cases ts with
  | nil => cases h
  | cons t ts =>
    rw [parseInBrackets] at h
    split at h
    · rename_i ht
      replace h := bind_ok h; obtain ⟨⟨e, r⟩, h1, h⟩ := h
      obtain ⟨rfl, he⟩ := need_ok h1
      cases h
      exact ⟨[t, e], rfl, .number hb (is_iff.mp ht) (is_iff.mp he)⟩
    · split at h
      · rename_i ht
        replace h := bind_ok h; obtain ⟨⟨e, r⟩, h1, h⟩ := h
        obtain ⟨rfl, he⟩ := need_ok h1
        cases h
        exact ⟨[t, e], rfl, .reference hb (lower_of ht) (is_iff.mp he)⟩
      · cases h

theorem parseNamedMaybeValue_ok {ts rest : Tokens} {r : Text × Option NamedValue}
    (h : parseNamedMaybeValue ts = .ok (r, rest)) :
    ∃ us, ts = us ++ rest ∧ EnumNote ⟨r.1, r.2⟩ us ∧ (∀ v, r.2 = some v → NamedNote (r.1, v) us) := by
  replace h := bind_ok h; obtain ⟨⟨i, ts'⟩, h1, h⟩ := h
  obtain ⟨rfl, hi⟩ := need_ok h1
  have hi := lower_of hi
  cases ts' with
  | nil =>
    cases h
    exact ⟨[i], rfl, .plain hi, nofun⟩
  | cons b ts =>
    simp only at h
    split at h
    · rename_i hb
      replace h := bind_ok h; obtain ⟨⟨v, r'⟩, h2, h⟩ := h
      cases h
      obtain ⟨us, rfl, hn⟩ := parseInBrackets_ok (is_iff.mp hb) h2
      refine ⟨i :: b :: us, rfl, .numbered hi hn, ?_⟩
      rintro _ ⟨⟩
      exact .mk hi hn
    · cases h
      exact ⟨[i], rfl, .plain hi, nofun⟩

theorem namedValuesLoop_ok : ∀ (n : Nat) (vs : List (Text × NamedValue)) (ts rest : Tokens) (r : List (Text × NamedValue)),
    namedValuesLoop n vs ts = .ok (r, rest) →
    ∃ us ws e, ts = us ++ e :: rest ∧ r = vs ++ ws ∧ Listed NamedNote ws us ∧ e.type = .curlyEnd := by
  intro n
  induction n with
  | zero => intro _ _ _ _ h; cases h
  | succ n ih =>
    intro vs ts rest r h
    rw [namedValuesLoop] at h
    replace h := bind_ok h; obtain ⟨⟨⟨x, v⟩, ts'⟩, h1, h⟩ := h
    obtain ⟨us, rfl, -, hn⟩ := parseNamedMaybeValue_ok h1
    cases v with
    | none => cases h
    | some v =>
      have hn := hn v rfl
      cases ts' with
      | nil => cases h
      | cons t ts' =>
        simp only at h
        split at h
        · rename_i ht
          obtain ⟨us', ws, e, rfl, rfl, hl, he⟩ := ih _ _ _ _ h
          exact ⟨us ++ t :: us', (x, v) :: ws, e, by simp, by simp, .more hn (is_iff.mp ht) hl, he⟩
        · split at h
          · rename_i ht
            cases h
            exact ⟨us, [(x, v)], t, rfl, rfl, .one hn, is_iff.mp ht⟩
          · cases h

theorem parseMaybeNamedValues_ok {n : Nat} {ts rest : Tokens} {r : Option (List (Text × NamedValue))}
    (h : parseMaybeNamedValues n ts = .ok (r, rest)) :
    (r = none ∧ ts = rest) ∨ ∃ b vs us e, r = some vs ∧ ts = b :: (us ++ e :: rest) ∧ b.type = .curlyBegin ∧
      Listed NamedNote vs us ∧ e.type = .curlyEnd := by
  cases ts with
  | nil => cases h; exact .inl ⟨rfl, rfl⟩
  | cons t ts =>
    rw [parseMaybeNamedValues] at h
    split at h
    · replace h := bind_ok h; obtain ⟨⟨vs, r'⟩, h1, h⟩ := h
      cases h
      obtain ⟨⟨b, r'⟩, h2, h3⟩ := bind_ok h1
      obtain ⟨e, hb⟩ := need_ok h2
      cases e
      obtain ⟨us, ws, e, rfl, rfl, hl, he⟩ := namedValuesLoop_ok _ _ _ _ _ h3
      exact .inr ⟨t, _, us, e, rfl, rfl, is_iff.mp hb, hl, he⟩
    · cases h; exact .inl ⟨rfl, rfl⟩

theorem expectAll_two {p q : Token → Bool} {ts : Tokens} (h : expectAll [p, q] ts = .ok true) :
    ∃ t u us, ts = t :: u :: us ∧ p t = true ∧ q u = true := by
  unfold expectAll at h
  split at h
  · cases h
  · rename_i hl
    match ts, hl, h with
    | t :: u :: us, _, h => simp at h; exact ⟨t, u, us, rfl, h⟩
    | [], hl, _ => simp at hl
    | [_], hl, _ => simp at hl

theorem expectAll_three {p q s : Token → Bool} {ts : Tokens} (h : expectAll [p, q, s] ts = .ok true) :
    ∃ t u v us, ts = t :: u :: v :: us ∧ p t = true ∧ q u = true ∧ s v = true := by
  unfold expectAll at h
  split at h
  · cases h
  · rename_i hl
    match ts, hl, h with
    | t :: u :: v :: us, _, h => simp at h; exact ⟨t, u, v, us, rfl, h⟩
    | [], hl, _ => simp at hl
    | [_], hl, _ => simp at hl
    | [_, _], hl, _ => simp at hl

theorem parseInteger_ok {n : Nat} {t : Token} {ts rest : Tokens} {k : Kind} (h : parseInteger n (t :: ts) = .ok (k, rest)) :
    ∃ us, ts = us ++ rest ∧ AccSimple k (t :: us) := by
  replace h := bind_ok h; obtain ⟨⟨i, r⟩, h1, h⟩ := h
  obtain ⟨e, hi⟩ := need_ok h1
  cases e
  have hi := word_of hi
  replace h := bind_ok h; obtain ⟨⟨v, r'⟩, h2, h⟩ := h
  cases h
  rcases parseMaybeNamedValues_ok h2 with ⟨rfl, rfl⟩ | ⟨b, vs, us, e, rfl, rfl, hb, hl, he⟩
  · exact ⟨[], rfl, .integer hi⟩
  · exact ⟨b :: (us ++ [e]), by simp, .namedInteger hi hb hl he⟩

theorem parseBitString_ok {n : Nat} {t : Token} {ts rest : Tokens} {k : Kind}
    (h : parseBitString n (t :: ts) = .ok (k, rest)) : ∃ us, ts = us ++ rest ∧ AccSimple k (t :: us) := by
  replace h := bind_ok h; obtain ⟨b, h1, h⟩ := h
  cases b with
  | false => cases h
  | true =>
    obtain ⟨t', u, us, e, h3, h4⟩ := expectAll_two h1
    cases e
    have h3 := word_of h3
    have h4 := word_of h4
    rw [if_pos rfl] at h
    replace h := bind_ok h; obtain ⟨⟨v, r'⟩, h2, h⟩ := h
    cases h
    rcases parseMaybeNamedValues_ok h2 with ⟨rfl, e⟩ | ⟨b, vs, us', e, rfl, e', hb, hl, he⟩
    · simp only [List.drop_succ_cons, List.drop_zero] at e
      subst e
      exact ⟨[u], rfl, .bitString h3 h4⟩
    · simp only [List.drop_succ_cons, List.drop_zero] at e'
      subst e'
      exact ⟨u :: b :: (us' ++ [e]), by simp, .namedBitString h3 h4 hb hl he⟩

theorem enumValuesLoop_ok : ∀ (n : Nat) (vs : List EnumValue) (ts rest : Tokens) (r : List EnumValue),
    enumValuesLoop n vs ts = .ok (r, rest) →
    ∃ us ws, ts = us ++ rest ∧ r = vs ++ ws ∧ ws ≠ [] ∧ Followed EnumNote ws us ∧
      ∃ t rs, rest = t :: rs ∧ (t.type = .extension ∨ t.type = .curlyEnd) := by
  intro n
  induction n with
  | zero => intro _ _ _ _ h; cases h
  | succ n ih =>
    intro vs ts rest r h
    rw [enumValuesLoop] at h
    replace h := bind_ok h; obtain ⟨⟨⟨x, v⟩, ts'⟩, h1, h⟩ := h
    obtain ⟨us, rfl, hn, -⟩ := parseNamedMaybeValue_ok h1
    replace h := bind_ok h; obtain ⟨⟨c, ts''⟩, h2, h⟩ := h
    obtain ⟨cs, rfl, hc⟩ := perhaps_of h2
    replace h := bind_ok h; obtain ⟨stop, h3, h⟩ := h
    cases stop with
    | true =>
      cases h
      obtain ⟨t, rs, rfl, ht⟩ := expect_ok h3
      simp only [Bool.or_eq_true, is_iff] at ht
      refine ⟨us ++ cs, [⟨x, v⟩], by simp, rfl, by simp, ?_, t, rs, rfl, ht⟩
      have := Followed.cons hn hc .nil
      simpa using this
    | false =>
      obtain ⟨us', ws, rfl, rfl, -, hl, he⟩ := ih _ _ _ _ h
      exact ⟨us ++ (cs ++ us'), ⟨x, v⟩ :: ws, by simp, by simp, by simp, .cons hn hc hl, he⟩

theorem parseEnumerated_ok {n : Nat} {t : Token} {ts rest : Tokens} {k : Kind}
    (h : parseEnumerated n (t :: ts) = .ok (k, rest)) : ∃ us, ts = us ++ rest ∧ AccSimple k (t :: us) := by
  replace h := bind_ok h; obtain ⟨⟨i, r⟩, h1, h⟩ := h
  obtain ⟨e, hi⟩ := need_ok h1
  cases e
  have hi := word_of hi
  replace h := bind_ok h; obtain ⟨⟨b, r⟩, h2, h⟩ := h
  obtain ⟨rfl, hb⟩ := need_ok h2
  have hb := is_iff.mp hb
  replace h := bind_ok h; obtain ⟨⟨vs, r⟩, h3, h⟩ := h
  have hn : ∃ m, n = m + 1 := by
    cases n with
    | zero => cases h3
    | succ m => exact ⟨m, rfl⟩
  obtain ⟨us, ws, rfl, rfl, hne, hl, x, rs, rfl, hx⟩ := enumValuesLoop_ok _ _ _ _ _ h3
  replace h := bind_ok h; obtain ⟨⟨m, r⟩, h4, h⟩ := h
  rcases skip_ok h4 with ⟨rfl, x', e, hx'⟩ | ⟨rfl, e, x', us', e', hx'⟩
  · cases e
    have hx' := is_iff.mp hx'
    replace h := bind_ok h; obtain ⟨⟨c, r⟩, h5, h⟩ := h
    obtain ⟨cs, rfl, hc⟩ := perhaps_of h5
    replace h := attempt_ok h; rcases h with ⟨⟨es, r'⟩, h6, h⟩ | ⟨-, h⟩
    · replace h := bind_ok h; obtain ⟨⟨z, r''⟩, h7, h⟩ := h
      obtain ⟨us', ws', rfl, rfl, -, hl', -⟩ := enumValuesLoop_ok _ _ _ _ _ h6
      obtain ⟨rfl, hz⟩ := need_ok h7
      cases h
      exact ⟨b :: (us ++ x :: (cs ++ (us' ++ [z]))), by simp, .extensible hi hb hl hne hx' hc hl' (is_iff.mp hz)⟩
    · replace h := bind_ok h; obtain ⟨⟨z, r''⟩, h7, h⟩ := h
      obtain ⟨e, hz⟩ := need_ok h7
      cases e
      cases h
      exact ⟨b :: (us ++ x :: (cs ++ ([] ++ [z]))), by simp, .extensible hi hb hl hne hx' hc .nil (is_iff.mp hz)⟩
  · cases e
    cases e'
    have hx : x.type = .curlyEnd := by
      rcases hx with hx | hx
      · simp [Token.is, hx] at hx'
      · exact hx
    replace h := bind_ok h; obtain ⟨⟨c, r⟩, h5, h⟩ := h
    rcases skip_ok h5 with ⟨-, c', e, hc'⟩ | ⟨rfl, e, -⟩
    · cases e
      simp [Token.is, hx] at hc'
    · cases e
      obtain ⟨m, rfl⟩ := hn
      have hf : enumValuesLoop (m + 1) [] (x :: rs) = .err .unexpectedToken := by
        rw [enumValuesLoop]
        simp [parseNamedMaybeValue, need, Token.isValueRef, Token.is, hx, Out.bind]
      rw [hf] at h
      simp only [Out.attempt, Out.bind] at h
      change (need _ _).bind _ = _ at h
      replace h := bind_ok h; obtain ⟨⟨z, r''⟩, h7, h⟩ := h
      obtain ⟨e, hz⟩ := need_ok h7
      cases e
      cases h
      exact ⟨b :: (us ++ [x]), by simp, .enumerated hi hb hl hne hx⟩

/-! ## References -/

theorem _root_.Hampi.Compiler.Spec.Strewn.append {α : Type} {P : α → Tokens → Prop} {xs ys : List α} {us vs : Tokens}
    (h : Strewn P xs us) (h' : Strewn P ys vs) : Strewn P (xs ++ ys) (us ++ vs) := by
  induction h with
  | nil => exact h'
  | comma hc _ ih => exact .comma hc ih
  | cons hx _ ih => rw [List.append_assoc]; exact .cons hx ih

theorem param_of {t : Token} (h : (t.is .numberInt || t.is .identifier) = true) :
    t.type = .numberInt ∨ t.type = .identifier := by
  simpa [Token.is] using h

theorem parseSetParam_ok {ts rest : Tokens} {ps : List ActualParam} (h : parseSetParam ts = .ok (ps, rest)) :
    ∃ us, ts = us ++ rest ∧ Strewn ParamNote ps us := by
  replace h := bind_ok h; obtain ⟨⟨b, r⟩, h1, h⟩ := h
  rcases skip_ok h1 with ⟨rfl, t, rfl, ht⟩ | ⟨rfl, rfl, -⟩
  · simp only [if_true] at h
    replace h := bind_ok h; obtain ⟨⟨p, r⟩, h2, h⟩ := h
    obtain ⟨rfl, hp⟩ := need_ok h2
    replace h := bind_ok h; obtain ⟨⟨z, r⟩, h3, h⟩ := h
    obtain ⟨rfl, hz⟩ := need_ok h3
    cases h
    refine ⟨[t, p, z], rfl, ?_⟩
    have := Strewn.cons (P := ParamNote) (ParamNote.set (is_iff.mp ht) (param_of hp) (is_iff.mp hz)) .nil
    simpa using this
  · cases h
    exact ⟨[], rfl, .nil⟩

theorem parseSingleParam_ok {ts rest : Tokens} {ps : List ActualParam} (h : parseSingleParam ts = .ok (ps, rest)) :
    ∃ us, ts = us ++ rest ∧ Strewn ParamNote ps us := by
  cases ts with
  | nil => cases h
  | cons t ts =>
    rw [parseSingleParam] at h
    split at h
    · rename_i ht
      cases h
      refine ⟨[t], rfl, ?_⟩
      have := Strewn.cons (P := ParamNote) (ParamNote.single (param_of ht)) .nil
      simpa using this
    · cases h
      exact ⟨[], rfl, .nil⟩

theorem strewn_perhaps {α : Type} {P : α → Tokens → Prop} {us : Tokens} (h : Perhaps .comma us) : Strewn P [] us := by
  cases h with
  | none => exact .nil
  | some h => exact .comma h .nil

theorem actualParamsLoop_ok : ∀ (n : Nat) (ps : List ActualParam) (ts rest : Tokens) (r : List ActualParam),
    actualParamsLoop n ps ts = .ok (r, rest) →
    ∃ us qs e, ts = us ++ e :: rest ∧ r = ps ++ qs ∧ Strewn ParamNote qs us ∧ e.type = .curlyEnd := by
  intro n
  induction n with
  | zero => intro _ _ _ _ h; cases h
  | succ n ih =>
    intro ps ts rest r h
    rw [actualParamsLoop] at h
    replace h := bind_ok h; obtain ⟨⟨p, r1⟩, h1, h⟩ := h
    obtain ⟨us1, rfl, s1⟩ := parseSetParam_ok h1
    replace h := bind_ok h; obtain ⟨⟨q, r2⟩, h2, h⟩ := h
    obtain ⟨us2, rfl, s2⟩ := parseSingleParam_ok h2
    replace h := bind_ok h; obtain ⟨⟨c, r3⟩, h3, h⟩ := h
    obtain ⟨us3, rfl, s3⟩ := perhaps_of h3
    have s3 := strewn_perhaps (P := ParamNote) s3
    have s := (s1.append s2).append s3
    rw [List.append_nil] at s
    replace h := bind_ok h; obtain ⟨⟨z, r4⟩, h4, h⟩ := h
    rcases skip_ok h4 with ⟨rfl, e, rfl, he⟩ | ⟨rfl, rfl, -⟩
    · cases h
      exact ⟨us1 ++ us2 ++ us3, p ++ q, e, by simp, by simp, s, is_iff.mp he⟩
    · obtain ⟨us', qs, e, rfl, rfl, hl, he⟩ := ih _ _ _ _ h
      exact ⟨us1 ++ us2 ++ us3 ++ us', p ++ q ++ qs, e, by simp, by simp, s.append hl, he⟩

theorem parseMaybeParams_ok {n : Nat} {x : Text} {as ts rest : Tokens} {k : Kind} (hx : AccName x as)
    (h : parseMaybeParams n x ts = .ok (k, rest)) : ∃ us, ts = us ++ rest ∧ AccSimple k (as ++ us) := by
  cases ts with
  | nil => cases h; exact ⟨[], rfl, by rw [List.append_nil]; exact .reference hx⟩
  | cons t ts =>
    rw [parseMaybeParams] at h
    split at h
    · replace h := bind_ok h; obtain ⟨⟨ps, r⟩, h1, h⟩ := h
      obtain ⟨⟨b, r'⟩, h2, h3⟩ := bind_ok h1
      obtain ⟨e, hb⟩ := need_ok h2
      cases e
      obtain ⟨us, qs, e, rfl, rfl, hl, he⟩ := actualParamsLoop_ok _ _ _ _ _ h3
      have hb := is_iff.mp hb
      cases ps with
      | nil =>
        cases h
        exact ⟨t :: (us ++ [e]), by simp, .noParameters hx hb hl he⟩
      | cons q qs =>
        cases h
        exact ⟨t :: (us ++ [e]), by simp, .parameterized hx hb hl (by simp) he⟩
    · cases h
      exact ⟨[], rfl, by rw [List.append_nil]; exact .reference hx⟩

theorem parseReference_ok {n : Nat} {t : Token} {ts rest : Tokens} {k : Kind} (g : Gen (t :: ts))
    (ht : t.isTypeRef = true ∨ Word "SET" t) (h : parseReference n t ts = .ok (k, rest)) :
    ∃ us, ts = us ++ rest ∧ AccSimple k (t :: us) := by
  have hname : AccName t.text [t] := by
    rcases ht with ht | ht
    · exact .plain (upper_of g.head ht)
    · rw [ht.2]; exact .set ht
  have key : ∀ {us rest : Tokens}, parseMaybeParams n t.text us = .ok (k, rest) →
      ∃ vs, us = vs ++ rest ∧ AccSimple k (t :: vs) := fun h => parseMaybeParams_ok hname h
  rw [parseReference] at h
  match ts, g, h with
  | [], g, h => exact key h
  | [d], g, h => exact key h
  | d :: u :: ts, g, h =>
    rw [parseClassField] at h
    split at h
    · rename_i r hr
      split at hr
      · rename_i hc
        cases hr
        cases h
        simp only [Bool.and_eq_true, Bool.or_eq_true, is_iff] at hc
        obtain ⟨⟨hc, hd⟩, hf⟩ := hc
        refine ⟨[d, u], rfl, .classField (class_of g.head hc) hd ?_⟩
        have hu : u.type = .andIdentifier := by
          rcases hf with hf | hf <;> simp only [Token.isTypeField, Token.isValueField, Bool.and_eq_true, is_iff] at hf <;>
            exact hf.1
        obtain ⟨w, hw⟩ := (g u (by simp)).field hu
        refine ⟨hu, rfl, ?_⟩
        rcases hf with hf | hf <;> simp only [Token.isTypeField, Token.isValueField, Bool.and_eq_true, hw,
            List.drop_succ_cons, List.drop_zero] at hf
        · obtain ⟨c, cs, rfl, hc⟩ := starts_of hf.2
          exact ⟨c, cs, hw, .inl hc⟩
        · obtain ⟨c, cs, rfl, hc⟩ := starts_of hf.2
          exact ⟨c, cs, hw, .inr hc⟩
      · cases hr
    · simp only [parseReferenceName] at h
      split at h
      · rename_i hc
        simp only [Bool.and_eq_true, is_iff] at hc
        obtain ⟨⟨hc, hd⟩, hu⟩ := hc
        have he : AccName (concatTexts [t, d, u] []) [t, d, u] := by
          have e : concatTexts [t, d, u] [] = t.text ++ '.' :: u.text := by
            simp [concatTexts, (g d (by simp)).dot hd, List.intercalate]
          rw [e]
          exact .external (upper_of g.head hc) hd (upper_of (g u (by simp)) hu)
        obtain ⟨us, rfl, hk⟩ := parseMaybeParams_ok he h
        exact ⟨d :: u :: us, rfl, hk⟩
      · exact key h

/-! ## Constraints without types -/

theorem parseTable_ok {ts rest : Tokens} {c : Constraint} (g : Gen ts) (h : parseTable ts = .ok (c, rest)) :
    ∃ us, ts = us ++ rest ∧ AccConstraint c us := by
  replace h := bind_ok h; obtain ⟨⟨a, r⟩, h1, h⟩ := h
  obtain ⟨rfl, ha⟩ := need_ok h1
  have ha := is_iff.mp ha
  replace h := bind_ok h; obtain ⟨b, h2, h⟩ := h
  cases b with
  | false => cases h
  | true =>
    obtain ⟨b, s, c', us, e, hb, hs, hc⟩ := expectAll_three h2
    subst e
    have hb := is_iff.mp hb
    have hs := upper_of (g s (by simp)) hs
    have hc := is_iff.mp hc
    simp only [if_true, List.drop_succ_cons, List.drop_zero, List.head?_cons, Option.map_some, Option.getD_some] at h
    split at h
    · rename_i h3
      obtain ⟨d, i, e, vs, rfl, hd, hi, he⟩ := expectAll_three h3
      replace h := bind_ok h; obtain ⟨⟨z, r⟩, h4, h⟩ := h
      obtain ⟨e', hz⟩ := need_ok h4
      simp only [List.drop_succ_cons, List.drop_zero] at e'
      subst e'
      cases h
      exact ⟨[a, b, s, c', d, i, e, z], by simp, .relation ha hb hs hc (is_iff.mp hd) (is_iff.mp hi) (is_iff.mp he) (is_iff.mp hz)⟩
    · replace h := bind_ok h; obtain ⟨⟨z, r⟩, h4, h⟩ := h
      obtain ⟨rfl, hz⟩ := need_ok h4
      cases h
      exact ⟨[a, b, s, c', z], by simp, .table ha hb hs hc (is_iff.mp hz)⟩

theorem parseContents_ok {ts rest : Tokens} {c : Constraint} (g : Gen ts) (h : parseContents ts = .ok (c, rest)) :
    ∃ us, ts = us ++ rest ∧ AccConstraint c us := by
  replace h := bind_ok h; obtain ⟨⟨a, r⟩, h1, h⟩ := h
  obtain ⟨rfl, ha⟩ := need_ok h1
  replace h := bind_ok h; obtain ⟨⟨b, r⟩, h2, h⟩ := h
  obtain ⟨rfl, hb⟩ := need_ok h2
  replace h := bind_ok h; obtain ⟨⟨x, r⟩, h3, h⟩ := h
  obtain ⟨rfl, hx⟩ := need_ok h3
  replace h := bind_ok h; obtain ⟨⟨z, r⟩, h4, h⟩ := h
  obtain ⟨rfl, hz⟩ := need_ok h4
  cases h
  exact ⟨[a, b, x, z], rfl, .containing (is_iff.mp ha) (word_of hb) (upper_of (g x (by simp)) hx) (is_iff.mp hz)⟩

theorem parseEndPoint_ok {ts rest : Tokens} {v : Text} (h : parseEndPoint ts = .ok (v, rest)) :
    ∃ us, ts = us ++ rest ∧ AccEnd v us := by
  replace h := attempt_ok h; rcases h with ⟨⟨v', r⟩, h1, h⟩ | ⟨-, h⟩
  · cases h
    obtain ⟨t, us, rfl, hv, -⟩ := parseValue_ok h1
    exact ⟨t :: us, rfl, .value hv⟩
  · replace h := bind_ok h; obtain ⟨⟨t, r⟩, h1, h⟩ := h
    obtain ⟨rfl, ht⟩ := need_ok h1
    cases h
    refine ⟨[t], rfl, ?_⟩
    simp only [Bool.or_eq_true] at ht
    rcases ht with ht | ht
    · have ht := word_of ht
      rw [ht.2]; exact .min ht
    · have ht := word_of ht
      rw [ht.2]; exact .max ht

theorem parseLowerMark_ok {ts rest : Tokens} {b : Bool} (h : parseLowerMark ts = .ok (b, rest)) :
    ∃ us, ts = us ++ rest ∧ AccLower b us := by
  cases ts with
  | nil => cases h
  | cons t ts =>
    unfold parseLowerMark at h
    simp only at h
    split at h
    · rename_i ht
      cases ts with
      | nil => cases h
      | cons u us => cases h; exact ⟨[t, u], rfl, .open (is_iff.mp ht)⟩
    · split at h
      · rename_i ht
        cases h; exact ⟨[t], rfl, .closed (is_iff.mp ht)⟩
      · cases h

theorem parseRange_ok {ts rest : Tokens} {e : Elements} (h : parseRange ts = .ok (e, rest)) :
    ∃ us, ts = us ++ rest ∧ AccPart e us := by
  replace h := bind_ok h; obtain ⟨⟨lo, r⟩, h1, h⟩ := h
  obtain ⟨us1, rfl, hlo⟩ := parseEndPoint_ok h1
  replace h := bind_ok h; obtain ⟨⟨a, r⟩, h2, h⟩ := h
  obtain ⟨us2, rfl, ha⟩ := parseLowerMark_ok h2
  replace h := bind_ok h; obtain ⟨⟨b, r⟩, h3, h⟩ := h
  replace h := bind_ok h; obtain ⟨⟨hi, r'⟩, h4, h⟩ := h
  cases h
  rcases skip_ok h3 with ⟨rfl, t, rfl, ht⟩ | ⟨rfl, rfl, -⟩
  · obtain ⟨us4, rfl, hhi⟩ := parseEndPoint_ok h4
    exact ⟨us1 ++ (us2 ++ ([t] ++ us4)), by simp, .range hlo ha (.open (is_iff.mp ht)) hhi⟩
  · obtain ⟨us4, rfl, hhi⟩ := parseEndPoint_ok h4
    exact ⟨us1 ++ (us2 ++ ([] ++ us4)), by simp, .range hlo ha .closed hhi⟩

theorem parseSeqVersion_ok {ts rest : Tokens} {v : Option Text} (h : parseSeqVersion ts = .ok (v, rest)) :
    ∃ us, ts = us ++ rest ∧ VersionNote v us := by
  cases ts with
  | nil => cases h; exact ⟨[], rfl, .none⟩
  | cons t ts =>
    rw [parseSeqVersion] at h
    split at h
    · rename_i ht
      replace h := bind_ok h; obtain ⟨⟨c, r⟩, h1, h⟩ := h
      obtain ⟨rfl, hc⟩ := need_ok h1
      cases h
      exact ⟨[t, c], rfl, .some (is_iff.mp ht) (is_iff.mp hc)⟩
    · cases h; exact ⟨[], rfl, .none⟩

theorem parseChoiceVersion_ok {ts rest : Tokens} {v : Option Text} (h : parseChoiceVersion ts = .ok (v, rest)) :
    ∃ us, ts = us ++ rest ∧ VersionNote v us := by
  cases ts with
  | nil => cases h
  | cons t ts => exact parseSeqVersion_ok (ts := t :: ts) h

theorem parseMarker_ok {ts rest : Tokens} {b : Bool} (h : parseMarker ts = .ok (b, rest)) :
    (b = true ∧ ∃ x cs, ts = x :: (cs ++ rest) ∧ x.type = .extension ∧ Perhaps .comma cs) ∨ (b = false ∧ ts = rest) := by
  replace h := bind_ok h; obtain ⟨⟨m, r⟩, h1, h⟩ := h
  rcases skip_ok h1 with ⟨rfl, x, rfl, hx⟩ | ⟨rfl, rfl, -⟩
  · simp only [if_true] at h
    replace h := bind_ok h; obtain ⟨⟨c, r⟩, h2, h⟩ := h
    obtain ⟨cs, rfl, hc⟩ := perhaps_of h2
    cases h
    exact .inl ⟨rfl, x, cs, rfl, is_iff.mp hx, hc⟩
  · cases h
    exact .inr ⟨rfl, rfl⟩

theorem parsePresence_ok {ts rest : Tokens} {o : Bool} {d : Option Text} {x : Text} {i : Token} {ty : AsnType} {us : Tokens}
    (hi : LowerName x i) (hty : AccType ty us) (h : parsePresence ts = .ok ((o, d), rest)) :
    ∃ vs, ts = vs ++ rest ∧ AccSeqComp (.mk x ty o d) (i :: (us ++ vs)) := by
  replace h := bind_ok h; obtain ⟨⟨o', r⟩, h1, h⟩ := h
  replace h := bind_ok h; obtain ⟨⟨d', r'⟩, h2, h⟩ := h
  rcases skip_ok h1 with ⟨rfl, t, rfl, ht⟩ | ⟨rfl, rfl, -⟩
  · rcases skip_ok h2 with ⟨rfl, u, rfl, hu⟩ | ⟨rfl, rfl, -⟩
    · replace h := bind_ok h; obtain ⟨⟨v, r⟩, h3, h⟩ := h
      cases h
    · cases h
      exact ⟨[t], rfl, .optional hi hty (word_of ht)⟩
  · rcases skip_ok h2 with ⟨rfl, u, rfl, hu⟩ | ⟨rfl, rfl, -⟩
    · replace h := bind_ok h; obtain ⟨⟨v, r⟩, h3, h⟩ := h
      cases h
      obtain ⟨t, vs, rfl, hv, -⟩ := parseValue_ok h3
      exact ⟨u :: t :: vs, rfl, .default hi hty (word_of hu) hv⟩
    · cases h
      exact ⟨[], rfl, by rw [List.append_nil]; exact .required hi hty⟩

theorem parseObjectIdentifier_ok {t : Token} {ts rest : Tokens} {k : Kind}
    (h : parseObjectIdentifier (t :: ts) = .ok (k, rest)) : ∃ us, ts = us ++ rest ∧ AccSimple k (t :: us) := by
  replace h := bind_ok h; obtain ⟨b, h1, h⟩ := h
  cases b with
  | false => cases h
  | true =>
    obtain ⟨t', u, us, e, h3, h4⟩ := expectAll_two h1
    cases e
    cases h
    exact ⟨[u], rfl, .objectIdentifier (word_of h3) (word_of h4)⟩

theorem twoWords_ok {k k' : Kind} {ts rest : Tokens} (h : twoWords k ts = .ok (k', rest)) : k' = k ∧ ∃ u, ts = u :: rest := by
  cases ts with
  | nil => cases h
  | cons u us => cases h; exact ⟨rfl, u, rfl⟩

end Hampi.Compiler.Acc
