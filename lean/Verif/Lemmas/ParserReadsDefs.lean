import Verif.Lemmas.ParserReadsTypes
import Verif.Lemmas.Tables
/-! # The parser reads what the notation writes: definitions and modules -/
namespace Hampi.Compiler
open _root_.Hampi.Compiler.Spec

/-! ## Classes -/

theorem Spec.ValueFieldName.is {x t} (h : ValueFieldName x t) :
    t.isValueField = true ∧ t.isTypeField = false := by
  obtain ⟨h1, h2, c, cs, h3, h4⟩ := h
  have : c.isUpper = false := by
    cases hc : c.isUpper with
    | false => rfl
    | true => rw [upper_not_lower c hc] at h4; cases h4
  simp [Token.isValueField, Token.isTypeField, Token.is, h1, h2, h3, startsWith, h4, this]

theorem Spec.TypeFieldName.is {x t} (h : TypeFieldName x t) :
    t.isTypeField = true ∧ t.isValueField = false := by
  obtain ⟨h1, h2, c, cs, h3, h4⟩ := h
  simp [Token.isValueField, Token.isTypeField, Token.is, h1, h2, h3, startsWith, h4, upper_not_lower c h4]

/-- What follows a field of a class. -/
def FieldStop (z : Token) : Prop := z.type = .comma ∨ z.type = .curlyEnd

theorem FieldStop.comp {z} (h : FieldStop z) : CompStop z := by
  rcases h with h | h
  · exact .inl h
  · exact .inr (.inl h)

theorem ending_reads {α : Type} {P : α → Tokens → Prop} {p : Nat → Parser α} {o d ts}
    (h : EndingNote P o d ts) {z : Token} (hz : FieldStop z) (rest : Tokens)
    (hp : ∀ a us, P a us → Ev fun n => p n (us ++ z :: rest) = .ok (a, z :: rest)) :
    Ev fun n => parseFieldEnd (p n) (ts ++ z :: rest) = .ok ((o, d), z :: rest) := by
  have hk : z.type ≠ .keyword := by rcases hz with h | h <;> simp [h]
  cases h with
  | none => exact Ev.all fun n => by simp [parseFieldEnd, not_isKeyword hk]
  | optional h => exact Ev.all fun n => by simp [parseFieldEnd, h.isKeyword]
  | @default t d ts h hd =>
    have h' : t.isKeyword "OPTIONAL" = false := by simp [Token.isKeyword, h.text]
    exact (hp _ _ hd).imp fun n hn => by simp [parseFieldEnd, h.isKeyword, h', hn, Out.bind]

theorem ending_head {α : Type} {P : α → Tokens → Prop} {o d ts} (h : EndingNote P o d ts) {z : Token}
    (hz : FieldStop z) (rest : Tokens) :
    ∃ t us, ts ++ z :: rest = t :: us ∧ (FieldStop t ∨ Word "OPTIONAL" t ∨ Word "DEFAULT" t) := by
  cases h with
  | none => exact ⟨_, _, rfl, .inl hz⟩
  | optional h => exact ⟨_, _, rfl, .inr (.inl h)⟩
  | default h _ => exact ⟨_, _, rfl, .inr (.inr h)⟩

theorem field_reads {f ts} (h : FieldNote f ts) {z : Token} (hz : FieldStop z) (rest : Tokens) :
    Ev fun n => parseFieldSpec n (ts ++ z :: rest) = .ok (f, z :: rest) := by
  cases h with
  | @value x i ty ts u us o d vs hx hty hu he hud =>
    obtain ⟨t, ws, ht, hh⟩ := ending_head he hz rest
    have hend := ending_reads (p := fun _ => parseValue) he hz rest
      (fun a us ha => Ev.all fun n => value_reads ha _)
    have hnu : t.isKeyword "UNIQUE" = false := by
      rcases hh with h | h | h
      · exact not_isKeyword (by rcases h with h | h <;> simp [h])
      · simp [Token.isKeyword, h.text]
      · simp [Token.isKeyword, h.text]
    have hun : parseUnique (us ++ (vs ++ z :: rest)) = (u, vs ++ z :: rest) := by
      cases hu with
      | none => rw [List.nil_append, ht]; simp [parseUnique, hnu]
      | unique h => simp [parseUnique, h.isKeyword]
    have hs : Stop (us ++ (vs ++ z :: rest)) := by
      intro y hy
      cases hu with
      | none =>
        rw [List.nil_append, ht] at hy
        simp at hy
        subst hy
        rcases hh with h | h | h
        · rcases h with h | h <;> simp [h]
        · simp [h.type]
        · simp [h.type]
      | unique h => simp at hy; subst hy; simp [h.type]
    have hty := type_reads hty _ hs
    refine (hty.and hend).imp fun n hn => ?_
    have hcond : (d.isSome && u) = false := by
      cases u with
      | false => simp
      | true => simp [hud rfl]
    simp only [List.cons_append, List.append_assoc] at *
    simp [parseFieldSpec, hx.is, parseValueFieldSpec, need, Out.bind, hn.1, hun, hn.2, hcond, hx.2.1]
  | @type x i o d vs hx he =>
    have hend := ending_reads (p := parseType) he hz rest
      (fun a us ha => type_reads ha _ (hz.comp.stop _))
    refine hend.imp fun n hn => ?_
    simp [parseFieldSpec, hx.is, parseTypeFieldSpec, need, Out.bind, hn, hx.2.1]

theorem fields_reads {fs ts} (h : Listed FieldNote fs ts) : ∀ acc (e : Token) rest, e.type = .curlyEnd →
    Ev fun n => classLoop n acc (ts ++ e :: rest) = .ok (putAll acc fs, rest) := by
  induction h with
  | one h =>
    intro acc e rest he
    refine Ev.step ((field_reads h (.inr he) rest).imp fun n hn => ?_)
    rw [classLoop, hn]
    simp [Out.bind, Token.is, he, putAll]
  | @more f ts c fs us h hc _ ih =>
    intro acc e rest he
    refine Ev.step (((field_reads h (.inl hc) (us ++ e :: rest)).and
      (ih (put acc f.1 f.2) e rest he)).imp fun n hn => ?_)
    rw [List.append_assoc, List.cons_append, classLoop, hn.1]
    simp [Out.bind, Token.is, hc, hn.2, putAll]

/-- The words of a field are put into the table of fields. -/
def setWords (m : List (Text × ClassField)) (e : Text × Text × Bool) : List (Text × ClassField) :=
  match get m e.1 with
  | some f => put m e.1 (withWords (some e.2.1) f)
  | none => m

theorem withWords_ok {g : Bool} {w : Text} {f : ClassField} (h : g = true → mayBeLeftOut f) :
    f.withWords g w = .ok (withWords (some w) f) := by
  cases g with
  | false => cases f <;> rfl
  | true =>
    have h := h rfl
    cases f with
    | type i o d s =>
      rcases h with h | h
      · simp [ClassField.withWords, withWords, h]
      · cases d with
        | none => exact absurd rfl h
        | some d => simp [ClassField.withWords, withWords]
    | fixedTypeValue i ty u o d s =>
      rcases h with h | h
      · simp [ClassField.withWords, withWords, h]
      · cases d with
        | none => exact absurd rfl h
        | some d => simp [ClassField.withWords, withWords]

theorem mayBeLeftOut_withWords {w : Option Text} {f : ClassField} :
    mayBeLeftOut (withWords w f) ↔ mayBeLeftOut f := by
  cases f <;> exact Iff.rfl

theorem Spec.SyntaxWord.not_reserved {t} (h : SyntaxWord t) : t.isReserved = false := by
  simp only [Token.isReserved, List.any_eq_false, beq_iff_eq]
  exact fun w hw => h.2 w hw

/-- A token that does not end a part of a `WITH SYNTAX`. -/
def Inner (t : Token) : Prop := t.type ≠ .comma ∧ t.type ≠ .squareEnd ∧ t.type ≠ .curlyEnd

theorem words_head {ws : Tokens} (h : ∀ t ∈ ws, SyntaxWord t) {f : Token} (hf : f.type = .andIdentifier)
    (rest : Tokens) : ∃ t us, ws ++ f :: rest = t :: us ∧ Inner t ∧ t.type ≠ .squareBegin := by
  cases ws with
  | nil => exact ⟨_, _, rfl, by simp [Inner, hf], by simp [hf]⟩
  | cons w ws =>
    refine ⟨_, _, rfl, ?_⟩
    rcases (h w (.head _)).1 with h | h <;> simp [Inner, h]

theorem syntax_head {g l ts} (h : SyntaxNote g l ts) : ∃ t us, ts = t :: us ∧ Inner t := by
  cases h with
  | last _ _ ho hw hf _ _ =>
    cases ho with
    | none =>
      obtain ⟨t, us, h, h', _⟩ := words_head hw hf _
      exact ⟨t, us, h, h'⟩
    | some h => exact ⟨_, _, rfl, by simp [Inner, h]⟩
  | field _ _ ho hw hf _ _ _ =>
    cases ho with
    | none =>
      obtain ⟨t, us, h, h', _⟩ := words_head hw hf _
      exact ⟨t, us, h, h'⟩
    | some h => exact ⟨_, _, rfl, by simp [Inner, h]⟩

theorem takeWhile_words {ws : Tokens} (h : ∀ t ∈ ws, SyntaxWord t) {f : Token} (hf : f.type = .andIdentifier)
    (rest : Tokens) : (ws ++ f :: rest).takeWhile (fun t => !t.is .andIdentifier) = ws ∧
      (ws ++ f :: rest).dropWhile (fun t => !t.is .andIdentifier) = f :: rest := by
  induction ws with
  | nil => simp [Token.is, hf]
  | cons w ws ih =>
    have hw : w.type ≠ .andIdentifier := by
      rcases (h w (.head _)).1 with h | h <;> simp [h]
    have := ih fun t ht => h t (.tail _ ht)
    simp only [List.cons_append, List.takeWhile_cons, List.dropWhile_cons]
    simp [Token.is, hw] at *
    exact this

/-- One turn of the loop over the `WITH SYNTAX`. -/
theorem syntax_turn {g opens closes a ws f z fields} {n : Nat} {t : Token} {rest : Tokens} {spec : ClassField}
    (h1 : ¬ (g = true ∧ opens = true)) (h2 : closes = true → (g || opens) = true)
    (ho : BracketNote .squareBegin opens a) (hw : ∀ t ∈ ws, SyntaxWord t) (hf : f.type = .andIdentifier)
    (hc : BracketNote .squareEnd closes z) (ht : t.type ≠ .comma ∧ t.type ≠ .squareEnd)
    (hg : get fields f.text = some spec) (hl : (g || opens) = true → mayBeLeftOut spec) :
    withSyntaxLoop (n + 1) g fields (a ++ (ws ++ f :: (z ++ t :: rest))) =
      (skip (Token.is .curlyEnd) (t :: rest)).bind fun e =>
        if e.1 then
          if (g || opens) && !closes then .err .parse
          else .ok (put fields f.text (withWords (some (spaced ws)) spec), e.2)
        else withSyntaxLoop n ((g || opens) && !closes)
          (put fields f.text (withWords (some (spaced ws)) spec)) e.2 := by
  have hskip : skip (Token.is .squareBegin) (a ++ (ws ++ f :: (z ++ t :: rest))) =
      .ok (opens, ws ++ f :: (z ++ t :: rest)) := by
    cases ho with
    | none =>
      obtain ⟨y, us, hy, _, hy'⟩ := words_head hw hf (z ++ t :: rest)
      rw [List.nil_append, hy]
      simp [skip, Token.is, hy']
    | some h => simp [skip, Token.is, h]
  have hclose : (skip (Token.is .comma) (z ++ t :: rest)).bind (fun c => (closeGroup (g || opens) c.2)) =
      .ok ((g || opens) && !closes, t :: rest) := by
    cases hc with
    | none => simp [skip, closeGroup, Token.is, ht, Out.bind]
    | some h =>
      have := h2 rfl
      simp [skip, closeGroup, Token.is, h, Out.bind, this]
  have hres : (ws.any Token.isReserved) = false := by
    simp only [List.any_eq_false]
    exact fun t ht => by simp [(hw t ht).not_reserved]
  obtain ⟨w1, w2⟩ := takeWhile_words hw hf (z ++ t :: rest)
  rw [withSyntaxLoop, hskip]
  simp only [Out.bind]
  rw [w1, w2, hres]
  simp only [Bool.false_eq_true, if_false, need, Token.is, hf, beq_self_eq_true, if_true, hg]
  rw [withWords_ok hl]
  simp only [Out.bind] at hclose ⊢
  cases hs : skip (Token.is .comma) (z ++ t :: rest) with
  | ok c =>
    simp only [hs] at hclose
    dsimp only
    rw [hclose]
    rfl
  | err => simp [hs] at hclose
  | panic => simp [hs] at hclose
  | diverge => simp [hs] at hclose

theorem syntax_reads {g l ts} (h : SyntaxNote g l ts) : ∀ fields (z : Token) rest, z.type = .curlyEnd →
    (∀ y ∈ l, ∃ f, get fields y.1 = some f ∧ (y.2.2 = true → mayBeLeftOut f)) →
    Ev fun n => withSyntaxLoop n g fields (ts ++ z :: rest) = .ok (l.foldl setWords fields, rest) := by
  induction h with
  | @last g opens closes a ws x f z h1 h2 ho hw hf hx hc =>
    intro fields e rest he hl
    obtain ⟨spec, hg, hm⟩ := hl _ (.head _)
    subst hx
    refine Ev.step (Ev.all fun n => ?_)
    have := syntax_turn (n := n) (rest := rest) (t := e) h1 (fun h => by rw [h2] at h; exact h) ho hw hf hc
      (by simp [he]) hg hm
    simp only [List.append_assoc, List.cons_append] at *
    rw [this]
    subst h2
    have hb : ((g || opens) && !(g || opens)) = false := by cases (g || opens) <;> rfl
    rw [hb]
    simp [skip, Token.is, he, Out.bind, setWords, hg]
  | @field g opens closes a ws x f z l us h1 h2 ho hw hf hx hc hs ih =>
    intro fields e rest he hl
    obtain ⟨spec, hg, hm⟩ := hl _ (.head _)
    subst hx
    obtain ⟨t, vs, hv, hi⟩ := syntax_head hs
    have ih := ih (put fields f.text (withWords (some (spaced ws)) spec)) e rest he ?_
    · subst hv
      refine Ev.step (ih.imp fun n hn => ?_)
      have := syntax_turn (n := n) (rest := vs ++ e :: rest) (t := t) h1 h2 ho hw hf hc
        ⟨hi.1, hi.2.1⟩ hg hm
      simp only [List.append_assoc, List.cons_append] at *
      rw [this]
      simp [skip, Token.is, hi.2.2, Out.bind, hn, setWords, hg]
    · intro y hy
      obtain ⟨f', hf', hm'⟩ := hl y (.tail _ hy)
      rw [get_put]
      by_cases hk : f.text = y.1
      · rw [if_pos hk]
        rw [← hk] at hf'
        rw [hg] at hf'
        cases hf'
        exact ⟨_, rfl, fun h => mayBeLeftOut_withWords.mpr (hm' h)⟩
      · rw [if_neg hk]
        exact ⟨f', hf', hm'⟩

theorem get_setWords (l : List (Text × Text × Bool)) (h : (l.map (·.1)).Nodup) (m : List (Text × ClassField))
    (k : Text) : get (l.foldl setWords m) k =
      (get m k).map fun f => match wordsFor l k with | some w => withWords (some w) f | none => f := by
  induction l generalizing m with
  | nil => simp [wordsFor]
  | cons e l ih =>
    rw [List.map_cons, List.nodup_cons] at h
    rw [List.foldl_cons, ih h.2]
    by_cases hk : e.1 = k
    · subst hk
      have hn : wordsFor l e.1 = none := by
        unfold wordsFor
        cases hf : l.find? fun x => decide (x.1 = e.1) with
        | none => rfl
        | some y =>
          have h1 := List.find?_some hf
          have h2 := List.mem_of_find?_eq_some hf
          simp at h1
          exact absurd (h1 ▸ List.mem_map_of_mem (f := (·.1)) h2) h.1
      have hw : wordsFor (e :: l) e.1 = some e.2.1 := by simp [wordsFor]
      rw [hn, hw]
      unfold setWords
      cases hg : get m e.1 with
      | none => simp [hg]
      | some f => simp [get_put]
    · have hw : wordsFor (e :: l) k = wordsFor l k := by simp [wordsFor, hk]
      rw [hw]
      unfold setWords
      cases hg : get m e.1 with
      | none => rfl
      | some f => simp [get_put, hk]

theorem setWords_sorted (l : List (Text × Text × Bool)) {m : List (Text × ClassField)} (h : KeySorted m) :
    KeySorted (l.foldl setWords m) := by
  induction l generalizing m with
  | nil => exact h
  | cons e l ih =>
    rw [List.foldl_cons]
    apply ih
    unfold setWords
    split
    · exact h.put _ _
    · exact h

theorem field_no_words {fs ts} (h : Listed FieldNote fs ts) : ∀ f ∈ fs, withWords none f.2 = f.2 := by
  induction h with
  | one h => 
    intro f hf
    cases List.mem_singleton.mp hf
    cases h <;> rfl
  | more h _ _ ih =>
    intro f hf
    rcases List.mem_cons.mp hf with rfl | hf
    · cases h <;> rfl
    · exact ih f hf

theorem get_map_words (fs : List (Text × ClassField)) (l : List (Text × Text × Bool)) (k : Text) :
    get (fs.map fun f => (f.1, withWords (wordsFor l f.1) f.2)) k =
      (get fs k).map (withWords (wordsFor l k)) := by
  induction fs with
  | nil => rfl
  | cons f fs ih =>
    rw [List.map_cons, get_cons, ih]
    obtain ⟨i, f⟩ := f
    rw [get_cons]
    by_cases h : i = k
    · subst h; simp
    · simp [h]

/-- The class as read is the class as written. -/
theorem class_table {fs ts l m} (hf : Listed FieldNote fs ts) (hl : (l.map (·.1)).Nodup)
    (ht : Table m (fs.map fun f => (f.1, withWords (wordsFor l f.1) f.2))) :
    l.foldl setWords (putAll [] fs) = m := by
  have hn : (fs.map (·.1)).Nodup := by
    have := ht.nodup
    simpa [List.map_map, Function.comp_def] using this
  refine KeySorted.ext (setWords_sorted l (putAll_sorted List.Pairwise.nil fs)) ht.2 fun k => ?_
  rw [get_setWords l hl, get_putAll _ _ hn, get_perm ht.1 ht.nodup, get_map_words]
  cases hg : get fs k with
  | none => simp [get]
  | some f =>
    have := field_no_words hf _ (get_mem hg)
    cases hw : wordsFor l k with
    | none => simpa using this.symm
    | some w => simp

/-- What follows a definition. -/
def DefStop (z : Token) : Prop := z.type = .identifier ∨ Word "END" z

theorem DefStop.stop {z} (h : DefStop z) (rest) : Stop (z :: rest) := by
  intro t ht
  simp at ht
  subst ht
  rcases h with h | h
  · simp [h]
  · simp [h.type]

theorem class_reads {i a k b e : Token} {x fs ts} (hi : ClassName x i) (ha : a.type = .assignment)
    (hk : Word "CLASS" k) (hb : b.type = .curlyBegin) (hf : Listed FieldNote fs ts) (he : e.type = .curlyEnd)
    (rest : Tokens) {m : List (Text × ClassField)} {rest' : Tokens}
    (hw : Ev fun n => parseWithSyntax n (putAll [] fs) rest = .ok (m, rest')) :
    Ev fun n => parseDefinition n (i :: a :: k :: b :: (ts ++ e :: rest)) =
      .ok (⟨x, .class m, none⟩, rest') := by
  have hnt : Ev fun n => parseType n (k :: b :: (ts ++ e :: rest)) = .err .unexpectedToken := by
    have h1 := not_isTypeRef (t := k) (by simp [hk.type])
    have h2 := not_isClassRef (t := k) (by simp [hk.type])
    have h3 : k.isBuiltin = false := by simp only [Token.isBuiltin, hk.text]; decide
    exact Ev.step (Ev.all fun n => by simp [parseType, h1, h2, h3])
  refine (hnt.and ((fields_reads hf [] e rest he).and hw)).imp fun n hn => ?_
  have h1 : parseTypeAssignment n (i :: a :: k :: b :: (ts ++ e :: rest)) = .err .unexpectedToken := by
    simp [parseTypeAssignment, need, hi.1.isTypeRef, Out.bind, parseParams, Token.is, ha, Out.attempt, hn.1]
  have h2 : parseClassAssignment n (i :: a :: k :: b :: (ts ++ e :: rest)) =
      .ok (⟨x, .class m, none⟩, rest') := by
    simp [parseClassAssignment, need, hi.isClassRef, Out.bind, Token.is, ha, parseClass, hk.isKeyword, hb,
      hn.2.1, hn.2.2, hi.1.text]
  simp [parseDefinition, hi.1.not_isValueRef, hi.1.isTypeRef, parseTypeish, h1, h2, Out.attempt, Out.bind]

/-! ## Object sets -/

theorem setElement_reads {e ts} (h : SetElementNote e ts) (rest : Tokens) :
    parseSetElement (ts ++ rest) = .ok (some e, rest) := by
  cases h with
  | objectRef h =>
    simp [parseSetElement, parseSetIsh, Token.is, h.type, Out.attempt, Out.bind, h.isValueRef, h.text]
  | setRef h =>
    simp [parseSetElement, parseSetIsh, Token.is, h.type, Out.attempt, Out.bind, h.not_isValueRef, h.isTypeRef,
      h.text]
  | object h => simp [parseSetElement, setish_reads h, Out.attempt, Out.bind]

theorem setElement_head {e ts} (h : SetElementNote e ts) :
    ∃ t us, ts = t :: us ∧ (t.type = .identifier ∨ t.type = .curlyBegin) := by
  cases h with
  | objectRef h => exact ⟨_, _, rfl, .inl h.type⟩
  | setRef h => exact ⟨_, _, rfl, .inl h.type⟩
  | object h => cases h with
    | mk h => exact ⟨_, _, rfl, .inr h⟩

theorem setElements_head {e ts} (h : SetElements e ts) :
    ∃ t us, ts = t :: us ∧ (t.type = .identifier ∨ t.type = .curlyBegin) := by
  cases h with
  | one h => exact setElement_head h
  | more h _ _ =>
    obtain ⟨t, us, rfl, ht⟩ := setElement_head h
    exact ⟨_, _, rfl, ht⟩

theorem marker_none {z : Token} (h : z.type = .identifier ∨ z.type = .curlyBegin) (rest : Tokens) :
    expect (Token.is .extension) (z :: rest) = .ok false ∧ parseMarker (z :: rest) = .ok (false, z :: rest) := by
  rcases h with h | h <;> simp [expect, parseMarker, skip, Token.is, h, Out.bind]

/-- One element of an object set and the sign after it. -/
theorem objectSet_element {e ts} (h : SetElementNote e ts) (root add : List SetElement) (m : Nat)
    (z w : Token) (rest : Tokens) (hz : z.type = .comma ∨ UnionSign z)
    (hw : w.type = .identifier ∨ w.type = .curlyBegin ∨ w.type = .extension) (n : Nat) :
    objectSetLoop (n + 1) root add m (ts ++ z :: w :: rest) =
      objectSetLoop n (if m = 0 then root ++ [e] else root) (if m = 0 then add else add ++ [e]) m
        (w :: rest) := by
  obtain ⟨t, us, rfl, ht⟩ := setElement_head h
  have h1 := marker_none ht (us ++ z :: w :: rest)
  have h2 := setElement_reads h (z :: w :: rest)
  simp only [List.cons_append] at *
  have hw1 : w.type ≠ .curlyEnd := by rcases hw with h | h | h <;> simp [h]
  have hw2 : w.isUnion = false := by
    rcases hw with h | h | h <;> simp [Token.isUnion, Token.is, Token.isKeyword, h]
  rw [objectSetLoop]
  rcases hz with hz | hz
  · simp [h1, h2, Out.bind, skip, Token.is, hz, hw1, hw2]
  · have hz1 : z.type ≠ .comma := by
      rcases hz with h | h
      · simp [h]
      · simp [h.type]
    simp [h1, h2, Out.bind, skip, Token.is, hz1, hw1, hz.is]

theorem objectSet_last {e ts} (h : SetElementNote e ts) (root add : List SetElement) (m : Nat)
    (z : Token) (rest : Tokens) (hz : z.type = .curlyEnd) (n : Nat) :
    objectSetLoop (n + 1) root add m (ts ++ z :: rest) =
      .ok ((if m = 0 then root ++ [e] else root, if m = 0 then add else add ++ [e]), rest) := by
  obtain ⟨t, us, rfl, ht⟩ := setElement_head h
  have h1 := marker_none ht (us ++ z :: rest)
  have h2 := setElement_reads h (z :: rest)
  have hz2 : z.isUnion = false := by simp [Token.isUnion, Token.is, Token.isKeyword, hz]
  simp only [List.cons_append] at *
  rw [objectSetLoop]
  simp [h1, h2, Out.bind, skip, Token.is, hz, hz2]

theorem setElements_reads {es ts} (h : SetElements es ts) : ∀ root add m (z : Token) rest,
    z.type = .curlyEnd →
    Ev fun n => objectSetLoop n root add m (ts ++ z :: rest) =
      .ok ((if m = 0 then root ++ es else root, if m = 0 then add else add ++ es), rest) := by
  induction h with
  | one h => exact fun root add m z rest hz => Ev.step (Ev.all fun n => objectSet_last h root add m z rest hz n)
  | @more e ts u es us h hu hs ih =>
    intro root add m z rest hz
    obtain ⟨t, vs, rfl, ht⟩ := setElements_head hs
    refine Ev.step ((ih (if m = 0 then root ++ [e] else root) (if m = 0 then add else add ++ [e]) m z rest hz).imp
      fun n hn => ?_)
    rw [List.append_assoc, List.cons_append, List.cons_append, objectSet_element h root add m u t _ (.inr hu)
      (ht.elim .inl fun h => .inr (.inl h))]
    rw [List.cons_append] at hn
    rw [hn]
    by_cases hm : m = 0 <;> simp [hm]

/-- The elements before `...`. -/
theorem setElements_before {es ts} (h : SetElements es ts) : ∀ root (c x : Token) rest, c.type = .comma →
    x.type = .extension → ∀ {r : (List SetElement × List SetElement) × Tokens},
    (Ev fun n => objectSetLoop n (root ++ es) [] 0 (x :: rest) = .ok r) →
    Ev fun n => objectSetLoop n root [] 0 (ts ++ c :: x :: rest) = .ok r := by
  induction h with
  | one h =>
    intro root c x rest hc hx r hr
    refine Ev.step (hr.imp fun n hn => ?_)
    rw [objectSet_element h root [] 0 c x _ (.inl hc) (.inr (.inr hx))]
    simpa using hn
  | @more e ts u es us h hu hs ih =>
    intro root c x rest hc hx r hr
    obtain ⟨t, vs, rfl, ht⟩ := setElements_head hs
    refine Ev.step ((ih (root ++ [e]) c x rest hc hx (by simpa using hr)).imp fun n hn => ?_)
    rw [List.append_assoc, List.cons_append, List.cons_append, objectSet_element h root [] 0 u t _ (.inr hu)
      (ht.elim .inl fun h => .inr (.inl h))]
    simpa using hn

/-- `...` and nothing after it. -/
theorem objectSet_marker_end (root : List SetElement) (x z : Token) (rest : Tokens) (hx : x.type = .extension)
    (hz : z.type = .curlyEnd) :
    Ev fun n => objectSetLoop n root [] 0 (x :: z :: rest) = .ok ((root, []), rest) := by
  refine Ev.step (Ev.all fun n => ?_)
  have h1 := not_isValueRef (t := z) (by simp [hz])
  have h2 := not_isTypeRef (t := z) (by simp [hz])
  have h3 : z.isUnion = false := by simp [Token.isUnion, Token.is, Token.isKeyword, hz]
  rw [objectSetLoop]
  simp [expect, parseMarker, skip, Token.is, hx, hz, Out.bind, parseSetElement, parseSetIsh, Out.attempt, h1, h2, h3]

/-- `...` and elements after it. -/
theorem objectSet_marker_more {es ts} (h : SetElements es ts) (root : List SetElement) (x d z : Token)
    (rest : Tokens) (hx : x.type = .extension) (hd : d.type = .comma) (hz : z.type = .curlyEnd) :
    Ev fun n => objectSetLoop n root [] 0 (x :: d :: (ts ++ z :: rest)) = .ok ((root, es), rest) := by
  have key : ∀ {e us} (_ : SetElementNote e us) (w : Token) (ws : Tokens) (n : Nat),
      objectSetLoop (n + 1) root [] 0 (x :: d :: (us ++ w :: ws)) =
        (skip (Token.is .comma) (w :: ws)).bind fun c => (skip Token.isUnion c.2).bind fun u =>
          (skip (Token.is .curlyEnd) u.2).bind fun z =>
            if z.1 then .ok ((root, [e]), z.2) else objectSetLoop n root [e] 1 z.2 := by
    intro e us he w ws n
    have h2 := setElement_reads he (w :: ws)
    have hm : parseMarker (x :: d :: (us ++ w :: ws)) = .ok (true, us ++ w :: ws) := by
      simp [parseMarker, skip, Token.is, hx, hd, Out.bind]
    rw [objectSetLoop, hm]
    simp [expect, Token.is, hx, Out.bind, h2]
  cases h with
  | one h =>
    refine Ev.step (Ev.all fun n => ?_)
    have h3 : z.isUnion = false := by simp [Token.isUnion, Token.is, Token.isKeyword, hz]
    rw [key h]
    simp [skip, Token.is, hz, Out.bind, h3]
  | @more e ts u es us h hu hs =>
    obtain ⟨t, vs, rfl, ht⟩ := setElements_head hs
    refine Ev.step ((setElements_reads hs root [e] 1 z rest hz).imp fun n hn => ?_)
    rw [List.append_assoc, List.cons_append, key h]
    have hz1 : u.type ≠ .comma := by
      rcases hu with h | h
      · simp [h]
      · simp [h.type]
    have ht1 : t.type ≠ .curlyEnd := by rcases ht with h | h <;> simp [h]
    simp only [List.cons_append] at hn
    simp [skip, Token.is, hz1, Out.bind, hu.is, ht1, hn]

theorem objectSet_reads {r s ts} (h : ObjectSetNote r s ts) (z : Token) (rest : Tokens) (hz : z.type = .curlyEnd) :
    Ev fun n => objectSetLoop n [] [] 0 (ts ++ z :: rest) = .ok ((r, s), rest) := by
  cases h with
  | closed h => simpa using setElements_reads h [] [] 0 z rest hz
  | @extensible _ ts c x h hc hx =>
    have := setElements_before h [] c x _ hc hx (objectSet_marker_end r x z rest hx hz)
    simpa using this
  | @extended _ ts c x d _ us h hc hx hd hs =>
    have := setElements_before h [] c x _ hc hx (objectSet_marker_more hs r x d z rest hx hd hz)
    simpa using this
  | empty hx => exact objectSet_marker_end [] _ z rest hx hz
  | onlyAdditions hx hd hs => exact objectSet_marker_more hs [] _ _ z rest hx hd hz

/-! ## Definitions -/

theorem simple_head {k ts} (h : SimpleNote k ts) : ∃ t us, ts = t :: us ∧
    (t.type = .keyword ∨ (∃ x, UpperName x t) ∧ ∀ u ∈ us.head?, u.type ≠ .assignment) := by
  cases h with
  | reference h => exact ⟨_, _, rfl, .inr ⟨⟨_, h⟩, by simp⟩⟩
  | external h h1 => exact ⟨_, _, rfl, .inr ⟨⟨_, h⟩, by simp [h1]⟩⟩
  | classField h h1 => exact ⟨_, _, rfl, .inr ⟨⟨_, h.1⟩, by simp [h1]⟩⟩
  | parameterized h h1 => exact ⟨_, _, rfl, .inr ⟨⟨_, h⟩, by simp [h1]⟩⟩
  | integer h => exact ⟨_, _, rfl, .inl h.type⟩
  | namedInteger h => exact ⟨_, _, rfl, .inl h.type⟩
  | bitString h => exact ⟨_, _, rfl, .inl h.type⟩
  | namedBitString h => exact ⟨_, _, rfl, .inl h.type⟩
  | octetString h => exact ⟨_, _, rfl, .inl h.type⟩
  | characterString h => exact ⟨_, _, rfl, .inl h.type⟩
  | objectIdentifier h => exact ⟨_, _, rfl, .inl h.type⟩
  | boolean h => exact ⟨_, _, rfl, .inl h.type⟩
  | null h => exact ⟨_, _, rfl, .inl h.type⟩
  | string _ h => exact ⟨_, _, rfl, .inl h.type⟩
  | enumerated h => exact ⟨_, _, rfl, .inl h.type⟩
  | extensible h => exact ⟨_, _, rfl, .inl h.type⟩
  | extended h => exact ⟨_, _, rfl, .inl h.type⟩

theorem constraints_head {cs ts} (h : ConstraintsNote cs ts) : ∀ u ∈ ts.head?, u.type = .roundBegin := by
  cases h with
  | nil => simp
  | cons h _ =>
    obtain ⟨b, us, rfl, hb⟩ := constraint_head h
    simpa using hb

theorem type_head {ty ts} (h : TypeNote ty ts) : ∃ t us, ts = t :: us ∧
    (t.type = .keyword ∨ (∃ x, UpperName x t) ∧ ∀ u ∈ us.head?, u.type ≠ .assignment) := by
  cases h with
  | type hk hc =>
    cases hk with
    | simple h =>
      obtain ⟨t, us, rfl, ht⟩ := simple_head h
      refine ⟨_, _, rfl, ht.imp_right fun ht => ⟨ht.1, ?_⟩⟩
      cases us with
      | nil =>
        intro u hu
        have := constraints_head hc u (by simpa using hu)
        simp [this]
      | cons v us => simpa using ht.2
    | emptySequence h => exact ⟨_, _, rfl, .inl h.type⟩
    | sequence h => exact ⟨_, _, rfl, .inl h.type⟩
    | choice h => exact ⟨_, _, rfl, .inl h.type⟩
  | sequenceOf h => exact ⟨_, _, rfl, .inl h.type⟩
  | sizedSequenceOf h => exact ⟨_, _, rfl, .inl h.type⟩

theorem Spec.UpperName.class_of {x t} (h : UpperName x t) (k : t.isClassRef = true) : ClassName x t := by
  refine ⟨h, fun c hc => ?_⟩
  simp only [Token.isClassRef, Bool.and_eq_true, List.all_eq_true] at k
  have := k.2 c (h.text ▸ hc)
  simpa [or_assoc] using this

/-- A definition of a value is not read as the definition of an object. -/
theorem not_object {i a : Token} {ty ts} (hty : TypeNote ty ts) (ha : a.type = .assignment)
    (rest : Tokens) (h : (∀ t ∈ ts.head?, ∀ y, ¬ ClassName y t) ∨
      ∃ t us, rest = t :: us ∧ t.type ≠ .curlyBegin ∧ t.type ≠ .roundBegin) :
    ∃ e, parseObjectAssignment (i :: (ts ++ a :: rest)) = .err e := by
  obtain ⟨t, us, rfl, ht⟩ := type_head hty
  have he : expectAll [Token.isValueRef, Token.isClassRef] (i :: (t :: us ++ a :: rest)) =
      .ok (i.isValueRef && t.isClassRef) := expectAll_two _ _ _ _ _
  simp only [parseObjectAssignment, he, Out.bind]
  by_cases hc : t.isClassRef = true
  · rcases ht with ht | ⟨⟨x, hx⟩, hu⟩
    · rw [not_isClassRef (by simp [ht])] at hc; cases hc
    · split
      · cases us with
        | nil =>
          rcases h with h | ⟨t', us', rfl, h1, h2⟩
          · exact absurd (hx.class_of hc) (h t (by simp) x)
          · refine ⟨.unexpectedToken, ?_⟩
            simp [need, Token.is, ha, parseSetIsh, h1, h2]
        | cons u us =>
          have := hu u (by simp)
          exact ⟨.unexpectedToken, by simp [need, Token.is, this]⟩
      · exact ⟨_, rfl⟩
  · exact ⟨.unexpectedToken, by simp [hc]⟩

theorem formal_reads {x ts} (h : FormalNote x ts) (z w : Token) (rest : Tokens)
    (hz : z.type = .comma ∨ z.type = .curlyEnd) :
    parseParam (ts ++ z :: w :: rest) = .ok (x, z :: w :: rest) := by
  cases h with
  | plain h =>
    have hc : Token.is .colon z = false := by rcases hz with h | h <;> simp [Token.is, h]
    simp only [List.cons_append, List.nil_append, parseParam, expectAll_three, hc, Out.bind]
    simp [parseBareParam, h.isTypeRef, h.text]
  | @governed g c x t hg hc ht =>
    have h1 : (g.isTypeRef || g.isBuiltin || g.isClassRef) = true := by
      rcases hg with ⟨y, h⟩ | h | h | h
      · simp [h.isTypeRef]
      · simp [h.isBuiltin (by decide)]
      · simp [h.isBuiltin (by decide)]
      · simp [h.isBuiltin (by decide)]
    have h2 : (t.isValueRef || t.isTypeRef) = true := by
      rcases ht with h | h
      · simp [h.isValueRef]
      · simp [h.isTypeRef]
    have h3 : t.text = x := by
      rcases ht with h | h
      · exact h.text
      · exact h.text
    simp only [List.cons_append, List.nil_append, parseParam, expectAll_three, h1, h2, Out.bind]
    simp [Token.is, hc, h3]

theorem formal_head {x ts} (h : FormalNote x ts) : ∃ t us, ts = t :: us ∧ t.type ≠ .curlyEnd := by
  cases h with
  | plain h => exact ⟨_, _, rfl, by simp [h.type]⟩
  | governed h _ _ =>
    refine ⟨_, _, rfl, ?_⟩
    rcases h with ⟨y, h⟩ | h | h | h <;> simp [h.type]

theorem formals_head {ps ts} (h : Listed FormalNote ps ts) : ∃ t us, ts = t :: us ∧ t.type ≠ .curlyEnd := by
  cases h with
  | one h => exact formal_head h
  | more h _ _ =>
    obtain ⟨t, us, rfl, ht⟩ := formal_head h
    exact ⟨_, _, rfl, ht⟩

theorem formals_reads {ps ts} (h : Listed FormalNote ps ts) : ∀ acc (e w : Token) rest, e.type = .curlyEnd →
    Ev fun n => paramsLoop n acc (ts ++ e :: w :: rest) = .ok (acc ++ ps, w :: rest) := by
  induction h with
  | one h =>
    intro acc e w rest he
    refine Ev.step (Ev.all fun n => ?_)
    rw [paramsLoop, formal_reads h e w rest (.inr he)]
    simp [Out.bind, skip, Token.is, he]
  | @more x ts c xs us h hc hl ih =>
    intro acc e w rest he
    obtain ⟨t, vs, rfl, ht⟩ := formals_head hl
    refine Ev.step ((ih (acc ++ [x]) e w rest he).imp fun n hn => ?_)
    rw [List.append_assoc, List.cons_append, List.cons_append, paramsLoop, formal_reads h c t _ (.inl hc)]
    simp only [List.cons_append] at hn
    simp [Out.bind, skip, Token.is, hc, ht, hn]

theorem definition_reads {d ts} (h : DefNote d ts) (z : Token) (rest : Tokens) (hz : DefStop z) :
    Ev fun n => parseDefinition n (ts ++ z :: rest) = .ok (d, z :: rest) := by
  cases h with
  | @value x i ty ts a v t hi hty ha hv =>
    have h1 := type_reads hty (a :: t :: z :: rest) (by intro u hu; simp at hu; subst hu; simp [ha])
    obtain ⟨e, h2⟩ := not_object (i := i) hty ha (t :: z :: rest)
      (.inr ⟨_, _, rfl, by rcases hv.2 with h | h | h | h | h <;> simp [h]⟩)
    refine h1.imp fun n hn => ?_
    simp only [List.cons_append, List.append_assoc, List.nil_append]
    simp [parseDefinition, hi.isValueRef, parseValueish, h2, Out.attempt, Out.bind, parseValueAssignment, need, hn,
      Token.is, ha, wordValue_reads hv, hi.text]
  | @bracedValue x i ty ts a v us hi hty hc ha hv =>
    have h1 := type_reads hty (a :: (us ++ z :: rest)) (by intro u hu; simp at hu; subst hu; simp [ha])
    obtain ⟨e, h2⟩ := not_object (i := i) hty ha (us ++ z :: rest) (.inl hc)
    refine h1.imp fun n hn => ?_
    simp only [List.cons_append, List.append_assoc]
    simp [parseDefinition, hi.isValueRef, parseValueish, h2, Out.attempt, Out.bind, parseValueAssignment, need, hn,
      Token.is, ha, value_reads (.braces hv), hi.text]
  | @type x i a ty ts hi ha hty =>
    refine (type_reads hty (z :: rest) (hz.stop rest)).imp fun n hn => ?_
    have hp : parseParams n (a :: (ts ++ z :: rest)) = .err .unexpectedToken := by
      simp [parseParams, need, Token.is, ha, Out.bind]
    simp only [List.cons_append]
    simp [parseDefinition, hi.not_isValueRef, hi.isTypeRef, parseTypeish, parseTypeAssignment, need, Out.bind, hp,
      Out.attempt, Token.is, ha, hn, hi.text]
  | @parameterized x i b ps ws e a ty ts hi hb hps he ha hty =>
    refine ((type_reads hty (z :: rest) (hz.stop rest)).and
      (formals_reads hps [] e a (ts ++ z :: rest) he)).imp fun n hn => ?_
    have hp : parseParams n (b :: (ws ++ e :: a :: (ts ++ z :: rest))) = .ok (ps, a :: (ts ++ z :: rest)) := by
      simpa [parseParams, need, Token.is, hb, Out.bind] using hn.2
    simp only [List.cons_append, List.append_assoc]
    have htake : (ts ++ z :: rest).take ((ts ++ z :: rest).length - (z :: rest).length) = ts := by simp
    simp only [parseDefinition, hi.not_isValueRef, hi.isTypeRef, parseTypeish, parseTypeAssignment, need, Out.bind, hp,
      Out.attempt, Token.is, ha, hn.1, hi.text, if_true, Option.map_some, Option.getD_some, beq_self_eq_true, htake,
      Bool.false_eq_true, if_false]
  | @classWithSyntax x i a k b fs ts e w s c l us z' m hi ha hk hb hf he hw hs hc hl hz' hn hfs ht =>
    have hn' : (fs.map (·.1)).Nodup := by
      have := ht.nodup
      simpa [List.map_map, Function.comp_def] using this
    have h1 := syntax_reads hl (putAll [] fs) z' (z :: rest) hz' (fun y hy => by
      obtain ⟨f, h1, h2⟩ := hfs y hy
      refine ⟨f, ?_, h2⟩
      rw [get_putAll _ _ hn', get_of_mem hn' h1]
      rfl)
    have h2 := class_reads hi ha hk hb hf he (w :: s :: c :: (us ++ z' :: z :: rest))
      (m := m) (rest' := z :: rest) (h1.imp fun n hn => by
        simp [parseWithSyntax, expectAll_two, hw.isKeyword, hs.isKeyword, Out.bind, need, Token.is, hc, hn,
          class_table hf (by assumption) ht])
    simpa using h2
  | @object x i c y a v us hi hc ha hv =>
    refine Ev.all fun n => ?_
    have : parseObjectAssignment (i :: c :: a :: (us ++ z :: rest)) =
        .ok (⟨x, .object y (.input v), none⟩, z :: rest) := by
      simp [parseObjectAssignment, expectAll_two, hi.isValueRef, hc.isClassRef, Out.bind, need, Token.is, ha,
        setish_reads hv, hi.text, hc.1.text]
    simp only [List.cons_append]
    simp [parseDefinition, hi.isValueRef, parseValueish, this, Out.attempt, Out.bind]
  | @objectSet x i c y a b r s ts e hi hc ha hb hs he =>
    refine (objectSet_reads hs e (z :: rest) he).imp fun n hn => ?_
    have h1 : parseTypeAssignment n (i :: c :: a :: b :: (ts ++ e :: z :: rest)) = .err .unexpectedToken := by
      simp [parseTypeAssignment, need, hi.isTypeRef, Out.bind, parseParams, Token.is, hc.1.type, Out.attempt]
    have h2 : parseClassAssignment n (i :: c :: a :: b :: (ts ++ e :: z :: rest)) = .err .unexpectedToken := by
      by_cases hk : i.isClassRef = true
      · simp [parseClassAssignment, need, hk, Out.bind, Token.is, hc.1.type]
      · simp [parseClassAssignment, need, hk, Out.bind]
    have h3 : parseObjectSetAssignment n (i :: c :: a :: b :: (ts ++ e :: z :: rest)) =
        .ok (⟨x, .objectSet y r s, none⟩, z :: rest) := by
      simp [parseObjectSetAssignment, need, hi.isTypeRef, hc.isClassRef, Out.bind, Token.is, ha, parseObjectSet, hb,
        hn, hi.text, hc.1.text]
    simp only [List.cons_append, List.append_assoc, List.nil_append]
    simp [parseDefinition, hi.not_isValueRef, hi.isTypeRef, parseTypeish, h1, h2, h3, Out.attempt, Out.bind]

theorem bareClass_reads {d ts} (h : BareClassNote d ts) (z w : Token) (rest : Tokens)
    (hz : z.type = .identifier) :
    Ev fun n => parseDefinition n (ts ++ z :: w :: rest) = .ok (d, z :: w :: rest) := by
  cases h with
  | @mk x i a k b fs ts e m hi ha hk hb hf he ht =>
    have := class_reads hi ha hk hb hf he (z :: w :: rest) (m := m) (rest' := z :: w :: rest) (Ev.all fun n => by
      simp [parseWithSyntax, expectAll_two, not_isKeyword (t := z) (by simp [hz]), Out.bind, ht.putAll])
    simpa using this

theorem def_head {d ts} (h : DefNote d ts) : ∃ t u us, ts = t :: u :: us ∧ t.type = .identifier := by
  cases h with
  | value h hty =>
    obtain ⟨t, us, rfl, _⟩ := type_head hty
    exact ⟨_, _, _, rfl, h.type⟩
  | bracedValue h hty =>
    obtain ⟨t, us, rfl, _⟩ := type_head hty
    exact ⟨_, _, _, rfl, h.type⟩
  | type h => exact ⟨_, _, _, rfl, h.type⟩
  | parameterized h => exact ⟨_, _, _, rfl, h.type⟩
  | classWithSyntax h => exact ⟨_, _, _, rfl, h.1.type⟩
  | object h => exact ⟨_, _, _, rfl, h.type⟩
  | objectSet h => exact ⟨_, _, _, rfl, h.type⟩

theorem bareClass_head {d ts} (h : BareClassNote d ts) : ∃ t u us, ts = t :: u :: us ∧ t.type = .identifier := by
  cases h with
  | mk h => exact ⟨_, _, _, rfl, h.1.type⟩

theorem defs_head {ds ts} (h : DefsNote ds ts) (hd : ds ≠ []) :
    ∃ t u us, ts = t :: u :: us ∧ t.type = .identifier := by
  cases h with
  | nil => exact absurd rfl hd
  | cons h _ =>
    obtain ⟨t, u, us, rfl, ht⟩ := def_head h
    exact ⟨_, _, _, rfl, ht⟩
  | bareClass h _ =>
    obtain ⟨t, u, us, rfl, ht⟩ := bareClass_head h
    exact ⟨_, _, _, rfl, ht⟩

theorem definitions_reads {ds ts} (h : DefsNote ds ts) : ∀ acc (e : Token) rest, Word "END" e →
    Ev fun n => definitionsLoop n acc (ts ++ e :: rest) =
      .ok (putAll acc (ds.map fun d => (d.id, d)), rest) := by
  have turn : ∀ {t : Token} {us : Tokens} {d : ParsedDef} {rest acc r}, t.type = .identifier →
      (Ev fun n => parseDefinition n (t :: us) = .ok (d, rest)) →
      (Ev fun n => definitionsLoop n (put acc d.id d) rest = .ok r) →
      Ev fun n => definitionsLoop n acc (t :: us) = .ok r := by
    intro t us d rest acc r ht h1 h2
    refine Ev.step ((h1.and h2).imp fun n hn => ?_)
    simp [definitionsLoop, skip, not_isKeyword (t := t) (by simp [ht]), Out.bind, hn.1, hn.2]
  induction h with
  | nil =>
    intro acc e rest he
    exact Ev.step (Ev.all fun n => by simp [definitionsLoop, skip, he.isKeyword, Out.bind, putAll])
  | @cons d ts ds us h hs ih =>
    intro acc e rest he
    obtain ⟨t, u, vs, rfl, ht⟩ := def_head h
    have hz : ∃ z ws, us ++ e :: rest = z :: ws ∧ DefStop z := by
      by_cases hd : ds = []
      · subst hd
        cases hs
        exact ⟨_, _, rfl, .inr he⟩
      · obtain ⟨t, u, us, rfl, ht⟩ := defs_head hs hd
        exact ⟨_, _, rfl, .inl ht⟩
    obtain ⟨z, ws, hzs, hz⟩ := hz
    have h1 := definition_reads h z ws hz
    have h2 := ih (put acc d.id d) e rest he
    rw [List.append_assoc, hzs]
    rw [hzs] at h2
    exact turn ht h1 h2
  | @bareClass d ts ds us h hs hd ih =>
    intro acc e rest he
    obtain ⟨t, u, vs, rfl, ht⟩ := bareClass_head h
    obtain ⟨z, w, ws, rfl, hz⟩ := defs_head hs hd
    have h1 := bareClass_reads h z w (ws ++ e :: rest) hz
    have h2 := ih (put acc d.id d) e rest he
    rw [List.append_assoc]
    exact turn ht h1 h2

/-! ## Modules -/

theorem digits_lt (ds : Text) (h : ∀ c ∈ ds, c.isDigit = true) (n : Nat) :
    ds.foldl (fun n c => 10 * n + digitVal c) n < (n + 1) * 10 ^ ds.length := by
  induction ds generalizing n with
  | nil => simp
  | cons c ds ih =>
    have hc : digitVal c ≤ 9 := by
      have := h c (.head _)
      simp only [Char.isDigit, Bool.and_eq_true, decide_eq_true_eq, UInt32.le_iff_toNat_le, ge_iff_le] at this
      have h9 : c.val.toNat ≤ 57 := this.2
      have h0 : digitVal c = c.val.toNat - 48 := rfl
      omega
    refine Nat.lt_of_lt_of_le (ih (fun d hd => h d (.tail _ hd)) _) ?_
    rw [List.length_cons, Nat.pow_succ, Nat.mul_comm (10 ^ ds.length) 10, ← Nat.mul_assoc]
    exact Nat.mul_le_mul_right _ (by show 10 * n + digitVal c + 1 ≤ _; omega)

theorem digitsVal_lt (ds : Text) (h : ∀ c ∈ ds, c.isDigit = true) : digitsVal ds < 10 ^ ds.length := by
  simpa [digitsVal] using digits_lt ds h 0

theorem smallNumber_reads {t} (h : SmallNumber t) : ∃ v, oidNumber t = .ok v := by
  obtain ⟨_, h2, h3, h4⟩ := h
  have h1 := digitsVal_lt t.text h4
  have h5 : 10 ^ t.text.length ≤ 10 ^ 9 := Nat.pow_le_pow_right (by omega) h3
  have h6 : isDigits t.text := by
    simp [isDigits, h2]
    exact h4
  have h7 : digitsVal t.text < 2 ^ 32 := by omega
  unfold oidNumber parseUnsigned
  split
  · exact ⟨_, rfl⟩
  · next he =>
    split at he
    · next ds hd =>
      have := h4 '+' (by simp [hd])
      simp at this
    · simp [h6, h7] at he

theorem known_reads {w : String} (h : w ∈ ["iso", "itu-t", "ccitt", "joint-iso-itu-t", "joint-iso-ccitt",
    "identified-organization", "network-operator", "administration", "question"]) :
    ∃ v, wellKnown w.toList = .ok v := by
  simp only [List.mem_cons, List.not_mem_nil, or_false] at h
  rcases h with rfl | rfl | rfl | rfl | rfl | rfl | rfl | rfl | rfl <;> exact ⟨_, rfl⟩

theorem oidComp_reads {ts} (h : OidCompNote ts) (z : Token) (rest : Tokens) (hz : z.type ≠ .roundBegin) :
    ∃ c, parseOidComponent (ts ++ z :: rest) = .ok (c, z :: rest) := by
  cases h with
  | @number t h =>
    obtain ⟨v, hv⟩ := smallNumber_reads h
    exact ⟨_, by simp [parseOidComponent, Token.is, h.1, hv, Out.bind]; rfl⟩
  | named hi hb ht he =>
    obtain ⟨v, hv⟩ := smallNumber_reads ht
    exact ⟨_, by simp [parseOidComponent, parseNamedOid, Token.is, hi.type, hi.isValueRef, hb, ht.1, he, hv, Out.bind]; rfl⟩
  | @known w i hw hi =>
    obtain ⟨v, hv⟩ := known_reads hw
    refine ⟨(some w.toList, v), ?_⟩
    simp only [List.cons_append, List.nil_append, parseOidComponent, Token.is, hi.type, beq_self_eq_true, if_true,
      parseNamedOid, hi.isValueRef, hi.text, hv, Out.bind]
    split
    · next h =>
      cases h
      simp [hz]
    · rfl

theorem oidComp_head {ts} (h : OidCompNote ts) :
    ∃ t us, ts = t :: us ∧ t.type ≠ .curlyEnd ∧ t.type ≠ .roundBegin := by
  cases h with
  | number h => exact ⟨_, _, rfl, by simp [h.1]⟩
  | named h => exact ⟨_, _, rfl, by simp [h.type]⟩
  | known _ h => exact ⟨_, _, rfl, by simp [h.type]⟩

theorem oidComps_reads {ts} (h : OidComps ts) : ∀ acc (e : Token) rest, e.type = .curlyEnd →
    ∃ cs, Ev fun n => oidLoop n acc (ts ++ e :: rest) = .ok (cs, rest) := by
  induction h with
  | nil =>
    intro acc e rest he
    exact ⟨acc, Ev.step (Ev.all fun n => by simp [oidLoop, skip, Token.is, he, Out.bind])⟩
  | @cons ts us h hs ih =>
    intro acc e rest he
    have hz : ∃ z ws, us ++ e :: rest = z :: ws ∧ z.type ≠ .roundBegin := by
      cases hs with
      | nil => exact ⟨_, _, rfl, by simp [he]⟩
      | cons h _ =>
        obtain ⟨t, us, rfl, _, ht⟩ := oidComp_head h
        exact ⟨_, _, rfl, ht⟩
    obtain ⟨z, ws, hzs, hz⟩ := hz
    obtain ⟨c, hc⟩ := oidComp_reads h z ws hz
    obtain ⟨cs, hcs⟩ := ih (acc ++ [c]) e rest he
    obtain ⟨t, vs, rfl, ht, _⟩ := oidComp_head h
    refine ⟨cs, Ev.step (hcs.imp fun n hn => ?_)⟩
    rw [List.append_assoc, hzs]
    rw [hzs] at hn
    rw [List.cons_append] at *
    simp [oidLoop, skip, Token.is, ht, Out.bind, hc, hn]

theorem oid_reads {ts} (h : OidNote ts) (z : Token) (rest : Tokens) (hz : z.type ≠ .curlyBegin) :
    ∃ o, Ev fun n => parseMaybeOid n (ts ++ z :: rest) = .ok (o, z :: rest) := by
  cases h with
  | none => exact ⟨none, Ev.all fun n => by simp [parseMaybeOid, Token.is, hz]⟩
  | @some b ts e hb hs he =>
    obtain ⟨cs, hcs⟩ := oidComps_reads hs [] e (z :: rest) he
    refine ⟨some cs, hcs.imp fun n hn => ?_⟩
    simp [parseMaybeOid, Token.is, hb, hn, Out.bind]

theorem moduleName_reads {x i os} (hi : UpperName x i) (h : OidNote os) (z : Token) (rest : Tokens)
    (hz : z.type ≠ .curlyBegin) :
    ∃ o, Ev fun n => parseModuleName n (i :: (os ++ z :: rest)) = .ok ((x, o), z :: rest) := by
  obtain ⟨o, ho⟩ := oid_reads h z rest hz
  exact ⟨o, ho.imp fun n hn => by simp [parseModuleName, hi.isTypeRef, hn, Out.bind, hi.text]⟩

/-- A single identifier. -/
abbrev NameNote (x : Text) (us : Tokens) : Prop := ∃ t : Token, us = [t] ∧ t.type = .identifier ∧ t.text = x

theorem names_reads {ns ts} (h : Listed NameNote ns ts) : ∀ acc (f : Token) rest, Word "FROM" f →
    Ev fun n => importNames n acc (ts ++ f :: rest) = .ok (acc ++ ns, rest) := by
  induction h with
  | one h =>
    obtain ⟨t, rfl, ht, rfl⟩ := h
    intro acc f rest hf
    refine Ev.step (Ev.step (Ev.all fun n => ?_))
    simp [importNames, not_isKeyword (t := t) (by simp [ht]), skip, Token.is, hf.type, Out.bind, ht, hf.isKeyword]
  | @more x ts c xs us h hc _ ih =>
    obtain ⟨t, rfl, ht, rfl⟩ := h
    intro acc f rest hf
    refine Ev.step ((ih (acc ++ [t.text]) f rest hf).imp fun n hn => ?_)
    simp [importNames, not_isKeyword (t := t) (by simp [ht]), skip, Token.is, hc, Out.bind, ht, hn]

theorem addImports_ok (m : Text) (ds : List Text) (acc : List (Text × Text)) (h1 : ∀ d ∈ ds, get acc d = none)
    (h2 : ds.Nodup) : addImports m acc ds = .ok (putAll acc (ds.map fun d => (d, m))) := by
  induction ds generalizing acc with
  | nil => rfl
  | cons d ds ih =>
    rw [List.nodup_cons] at h2
    rw [addImports, h1 d (.head _)]
    simp only [Option.isSome_none, Bool.false_eq_true, if_false]
    rw [ih _ _ h2.2]
    · rfl
    · intro e he
      rw [get_put, if_neg (by rintro rfl; exact h2.1 he)]
      exact h1 e (.tail _ he)

theorem names_head {ns ts} (h : Listed NameNote ns ts) : ∃ t us, ts = t :: us ∧ t.type = .identifier := by
  cases h with
  | one h =>
    obtain ⟨t, rfl, ht, _⟩ := h
    exact ⟨_, _, rfl, ht⟩
  | more h _ _ =>
    obtain ⟨t, rfl, ht, _⟩ := h
    exact ⟨_, _, rfl, ht⟩

theorem froms_head {l ts} (h : FromsNote l ts) : ∃ t us, ts = t :: us ∧ t.type = .identifier := by
  have : ∀ {l ts}, FromNote l ts → ∃ t us, ts = t :: us ∧ t.type = .identifier := by
    intro l ts h
    cases h with
    | mk h _ _ _ =>
      obtain ⟨t, us, rfl, ht⟩ := names_head h
      exact ⟨_, _, rfl, ht⟩
  cases h with
  | one h => exact this h
  | more h _ =>
    obtain ⟨t, us, rfl, ht⟩ := this h
    exact ⟨_, _, rfl, ht⟩

theorem get_putAll_none {α : Type} {acc l : List (Text × α)} (hl : (l.map (·.1)).Nodup) {k : Text}
    (h1 : get acc k = none) (h2 : k ∉ l.map (·.1)) : get (putAll acc l) k = none := by
  rw [get_putAll _ _ hl, h1]
  cases hg : get l k with
  | none => rfl
  | some v => exact absurd (List.mem_map_of_mem (f := (·.1)) (get_mem hg)) h2

/-- One FROM. -/
theorem from_reads {l ts} (h : FromNote l ts) (acc : List (Text × Text)) (hl : (l.map (·.1)).Nodup)
    (hacc : ∀ x ∈ l, get acc x.1 = none) (z : Token) (rest : Tokens) (hz : z.type ≠ .curlyBegin) :
    Ev fun n => importsLoop (n + 1) acc (ts ++ z :: rest) =
      if z.type = .semiColon then .ok (putAll acc l, rest) else importsLoop n (putAll acc l) (z :: rest) := by
  cases h with
  | @mk ns ts f m i os hn hf hi ho =>
    obtain ⟨o, h2⟩ := moduleName_reads hi ho z rest hz
    refine ((names_reads hn [] f (i :: (os ++ z :: rest)) hf).and h2).imp fun n hn => ?_
    have h3 := addImports_ok m ns acc (fun d hd => hacc (d, m) (List.mem_map_of_mem (f := fun n => (n, m)) hd))
      (by simpa [List.map_map, Function.comp_def] using hl)
    rw [List.append_assoc, List.cons_append, List.cons_append, importsLoop, hn.1]
    simp only [Out.bind, hn.2, List.nil_append, h3, skip, Token.is, beq_iff_eq]
    by_cases hs : z.type = .semiColon <;> simp [hs]

theorem froms_reads {l ts} (h : FromsNote l ts) : ∀ acc (z : Token) rest, z.type = .semiColon →
    (l.map (·.1)).Nodup → (∀ x ∈ l, get acc x.1 = none) →
    Ev fun n => importsLoop n acc (ts ++ z :: rest) = .ok (putAll acc l, rest) := by
  induction h with
  | one h =>
    intro acc z rest hz hl hacc
    refine Ev.step ((from_reads h acc hl hacc z rest (by simp [hz])).imp fun n hn => ?_)
    simpa [hz] using hn
  | @more l ts ms us h hs ih =>
    intro acc z rest hz hl hacc
    rw [List.map_append, List.nodup_append] at hl
    obtain ⟨t, vs, rfl, ht⟩ := froms_head hs
    have h1 := from_reads h acc hl.1 (fun x hx => hacc x (List.mem_append_left _ hx)) t (vs ++ z :: rest) (by simp [ht])
    have h2 := ih (putAll acc l) z rest hz hl.2.1 (fun x hx => by
      refine get_putAll_none hl.1 (hacc x (List.mem_append_right _ hx)) fun hm => ?_
      exact hl.2.2 _ hm _ (List.mem_map_of_mem (f := (·.1)) hx) rfl)
    refine Ev.step ((h1.and h2).imp fun n hn => ?_)
    rw [List.append_assoc, List.cons_append, hn.1, if_neg (by simp [ht])]
    rw [List.cons_append] at hn
    rw [hn.2]
    simp [putAll, List.foldl_append]

theorem imports_reads {l ts imports} (h : ImportsNote l ts) (ht : Table imports l) (z : Token) (rest : Tokens)
    (hz : DefStop z) : Ev fun n => parseImports n (ts ++ z :: rest) = .ok (imports, z :: rest) := by
  have hp := ht.putAll
  cases h with
  | none =>
    have : z.isKeyword "IMPORTS" = false := by
      rcases hz with h | h
      · exact not_isKeyword (by simp [h])
      · simp [Token.isKeyword, h.text]
    cases hp
    exact Ev.all fun n => by simp [parseImports, skip, this, Out.bind, putAll]
  | @some i _ ts s hi hl hs =>
    refine (froms_reads hl [] s (z :: rest) hs ht.nodup (fun _ _ => rfl)).imp fun n hn => ?_
    simp [parseImports, skip, hi.isKeyword, Out.bind, hn, hp]

theorem tags_reads {ts} (h : TagsNote ts) (z : Token) (rest : Tokens) (hz : z.type = .assignment) :
    parseTags (ts ++ z :: rest) = .ok ((), z :: rest) := by
  cases h with
  | none => simp [parseTags, skip, not_isKeyword (t := z) (by simp [hz]), Out.bind]
  | @some t u ht hu =>
    have : (t.isKeyword "EXPLICIT" || t.isKeyword "IMPLICIT" || t.isKeyword "AUTOMATIC") = true := by
      rcases ht with h | h | h <;> simp [h.isKeyword]
    simp only [List.cons_append, List.nil_append, parseTags, skip, this, if_true, Out.bind]
    simp [need, hu.isKeyword]

theorem module_reads {m ts} (h : ModuleNote m ts) (rest : Tokens) :
    Ev fun n => parseModule n (ts ++ rest) = .ok (m, rest) := by
  cases h with
  | @mk x i os d gs a b l is ds ts e imports defs hi ho hd hg ha hb hl hds he ht1 ht2 =>
    obtain ⟨o, h1⟩ := moduleName_reads hi ho d (gs ++ a :: b :: (is ++ (ts ++ e :: rest))) (by simp [hd.type])
    have h2 := tags_reads hg a (b :: (is ++ (ts ++ e :: rest))) ha
    have hz : ∃ z ws, ts ++ e :: rest = z :: ws ∧ DefStop z := by
      by_cases hd : ds = []
      · subst hd
        cases hds
        exact ⟨_, _, rfl, .inr he⟩
      · obtain ⟨t, u, us, rfl, ht⟩ := defs_head hds hd
        exact ⟨_, _, rfl, .inl ht⟩
    obtain ⟨z, ws, hzs, hz⟩ := hz
    have h3 := imports_reads hl ht1 z ws hz
    have h4 := definitions_reads hds [] e rest he
    rw [← hzs] at h3
    rw [ht2.putAll] at h4
    refine (h1.and (h3.and h4)).imp fun n hn => ?_
    simp only [List.cons_append, List.append_assoc, List.nil_append]
    simp [parseModule, hn.1, Out.bind, need, hd.isKeyword, h2, Token.is, ha, hb.isKeyword, hn.2.1, hn.2.2]

theorem modules_reads {ms ts} (h : ModulesNote ms ts) : ∀ acc,
    Ev fun n => modulesLoop n acc ts = .ok (acc ++ ms) := by
  induction h with
  | one h =>
    intro acc
    refine Ev.step ((module_reads h []).imp fun n hn => ?_)
    rw [List.append_nil] at hn
    simp [modulesLoop, hn, Out.bind]
  | @more m ts ms us h hs ih =>
    intro acc
    have hne : us ≠ [] := by
      cases hs with
      | one h => cases h; simp
      | more h _ => cases h; simp
    refine Ev.step (((module_reads h us).and (ih (acc ++ [m]))).imp fun n hn => ?_)
    simp [modulesLoop, hn.1, Out.bind, hne, hn.2]

/-- What is written is read. -/
theorem parse_reads {ms ts us} (h : ModulesNote ms us) (hu : ts.filter (fun t => !t.is .comment) = us) :
    Ev fun n => parse n ts = .ok ms := by
  refine (modules_reads h []).imp fun n hn => ?_
  rw [parse, hu, hn, List.nil_append]

end Hampi.Compiler
