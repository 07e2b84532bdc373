import Verif.Lemmas.ParserAcceptsTypes
import Verif.Lemmas.Tables
/-!
# What the parser takes is in the notation that is accepted: definitions and modules
-/
namespace Hampi.Compiler.Acc
open Hampi.Compiler.Spec

/-! ## Tables -/

/-- The last of the entries with this name. -/
def lastOf {α : Type} (xs : List (Text × α)) (k : Text) : Option α :=
  ((xs.filter fun e => e.1 == k).getLast?).map (·.2)

theorem lastOf_append {α : Type} (xs : List (Text × α)) (e : Text × α) (k : Text) :
    lastOf (xs ++ [e]) k = if e.1 = k then some e.2 else lastOf xs k := by
  unfold lastOf
  rw [List.filter_append]
  split
  · rename_i h
    simp [List.filter_cons, h]
  · rename_i h
    simp [List.filter_cons, h]

theorem filter_last {α : Type} {xs : List (Text × α)} {k : Text} {e : Text × α}
    (h : (xs.filter fun e => e.1 == k).getLast? = some e) : e.1 = k := by
  have := List.mem_of_getLast? h
  simpa using (List.mem_filter.mp this).2

theorem lastOf_some {α : Type} {xs : List (Text × α)} {k : Text} {v : α} :
    lastOf xs k = some v ↔ (xs.filter fun e => e.1 == k).getLast? = some (k, v) := by
  unfold lastOf
  constructor
  · intro h
    cases h' : (xs.filter fun e => e.1 == k).getLast? with
    | none => rw [h'] at h; cases h
    | some e =>
      rw [h'] at h
      have := filter_last h'
      obtain ⟨a, b⟩ := e
      cases h
      cases this
      rfl
  · intro h
    rw [h]; rfl

theorem get_of_mem {α : Type} {m : List (Text × α)} (hs : KeySorted m) {k : Text} {v : α} :
    (k, v) ∈ m ↔ get m k = some v := by
  induction m with
  | nil => simp [get]
  | cons e m ih =>
    obtain ⟨a, b⟩ := e
    have hs' := List.pairwise_cons.mp hs
    have ih := ih hs'.2
    rw [get_cons, List.mem_cons]
    by_cases h : a = k
    · subst h
      rw [if_pos rfl]
      constructor
      · rintro (h | h)
        · cases h; rfl
        · exact absurd (hs'.1 _ h) (Std.lt_irrefl)
      · intro h; cases h; exact .inl rfl
    · rw [if_neg h]
      constructor
      · rintro (h' | h')
        · cases h'; exact absurd rfl h
        · exact ih.mp h'
      · exact fun h' => .inr (ih.mpr h')

/-- A table filled entry by entry. -/
def Filled {α : Type} (m xs : List (Text × α)) : Prop := KeySorted m ∧ ∀ k, get m k = lastOf xs k

theorem Filled.nil {α : Type} : Filled (α := α) [] [] := ⟨List.Pairwise.nil, fun _ => rfl⟩

theorem Filled.put {α : Type} {m xs : List (Text × α)} (h : Filled m xs) (k : Text) (v : α) :
    Filled (put m k v) (xs ++ [(k, v)]) := by
  refine ⟨h.1.put k v, fun j => ?_⟩
  rw [get_put, lastOf_append, h.2]

theorem Filled.lastOf {α : Type} {m xs : List (Text × α)} (h : Filled m xs) : LastOf m xs :=
  ⟨fun k v => by rw [get_of_mem h.1, h.2, lastOf_some], h.1⟩

theorem put_perm {α : Type} {m : List (Text × α)} {k : Text} (h : get m k = none) (v : α) :
    (put m k v).Perm ((k, v) :: m) := by
  induction m with
  | nil => exact .refl _
  | cons e m ih =>
    rw [get_cons] at h
    split at h
    · cases h
    · rename_i he
      rw [put]
      split
      · exact absurd (Eq.symm (by assumption)) he
      · split
        · exact .refl _
        · exact ((ih h).cons e).trans (.swap _ _ _)

theorem Table.fresh {α : Type} {m xs : List (Text × α)} (h : Table m xs) {k : Text} (hk : get m k = none) (v : α) :
    Table (put m k v) (xs ++ [(k, v)]) :=
  ⟨((put_perm hk v).trans (h.1.cons _)).trans (List.perm_append_comm (l₁ := [(k, v)])), KeySorted.put h.2 k v⟩

/-! ## Classes -/

theorem parseFieldEnd_ok {α : Type} {p : Parser α} {P : α → Tokens → Prop} {ts rest : Tokens} {o : Bool} {d : Option α}
    (g : Gen ts) (hp : ∀ us v r, p us = .ok (v, r) → Gen us → ∃ vs, us = vs ++ r ∧ P v vs)
    (h : parseFieldEnd p ts = .ok ((o, d), rest)) : ∃ us, ts = us ++ rest ∧ EndingNote P o d us := by
  cases ts with
  | nil => cases h
  | cons t ts =>
    rw [parseFieldEnd] at h
    split at h
    · rename_i ht
      cases h
      exact ⟨[t], rfl, .optional (word_of ht)⟩
    · split at h
      · rename_i ht
        replace h := bind_ok h; obtain ⟨⟨v, r⟩, h1, h⟩ := h
        cases h
        obtain ⟨vs, rfl, hv⟩ := hp _ _ _ h1 g.tail
        exact ⟨t :: vs, rfl, .default (word_of ht) hv⟩
      · cases h
        exact ⟨[], rfl, .none⟩

theorem value_acc (us : Tokens) (v : Text) (r : Tokens) (h : parseValue us = .ok (v, r)) (_ : Gen us) :
    ∃ vs, us = vs ++ r ∧ AccValue v vs := by
  obtain ⟨t, vs, rfl, hv, -⟩ := parseValue_ok h
  exact ⟨t :: vs, rfl, hv⟩

theorem type_acc (n : Nat) (us : Tokens) (v : AsnType) (r : Tokens) (h : parseType n us = .ok (v, r)) (g : Gen us) :
    ∃ vs, us = vs ++ r ∧ AccType v vs := by
  obtain ⟨t, vs, rfl, hv, -⟩ := (accAt n).type _ _ _ h g
  exact ⟨t :: vs, rfl, hv⟩

theorem parseUnique_ok (ts : Tokens) : ∃ us, ts = us ++ (parseUnique ts).2 ∧ UniqueNote (parseUnique ts).1 us := by
  cases ts with
  | nil => exact ⟨[], rfl, .none⟩
  | cons t ts =>
    rw [parseUnique]
    split
    · exact ⟨[t], rfl, .unique (word_of ‹_›)⟩
    · exact ⟨[], rfl, .none⟩

theorem valueField_of {t : Token} (g : Genuine t) (h : t.isValueField = true) : ValueFieldName t.text t := by
  simp only [Token.isValueField, Bool.and_eq_true, is_iff] at h
  obtain ⟨w, hw⟩ := g.field h.1
  have h2 := h.2
  rw [hw] at h2
  obtain ⟨c, cs, e, hc⟩ := starts_of h2
  refine ⟨h.1, rfl, c, cs, ?_, hc⟩
  rw [hw]; rw [List.drop_succ_cons, List.drop_zero] at e; rw [e]

theorem typeField_of {t : Token} (g : Genuine t) (h : t.isTypeField = true) : TypeFieldName t.text t := by
  simp only [Token.isTypeField, Bool.and_eq_true, is_iff] at h
  obtain ⟨w, hw⟩ := g.field h.1
  have h2 := h.2
  rw [hw] at h2
  obtain ⟨c, cs, e, hc⟩ := starts_of h2
  refine ⟨h.1, rfl, c, cs, ?_, hc⟩
  rw [hw]; rw [List.drop_succ_cons, List.drop_zero] at e; rw [e]

theorem parseFieldSpec_ok {n : Nat} {ts rest : Tokens} {f : Text × ClassField} (g : Gen ts)
    (h : parseFieldSpec n ts = .ok (f, rest)) : ∃ us, ts = us ++ rest ∧ AccField f us := by
  cases ts with
  | nil => cases h
  | cons t ts =>
    rw [parseFieldSpec] at h
    split at h
    · rename_i ht
      rw [parseValueFieldSpec] at h
      replace h := bind_ok h; obtain ⟨⟨i, r⟩, h1, h⟩ := h
      obtain ⟨e, hi⟩ := need_ok h1
      cases e
      replace h := bind_ok h; obtain ⟨⟨ty, r⟩, h2, h⟩ := h
      obtain ⟨us, rfl, hty⟩ := type_acc n _ _ _ h2 g.tail
      obtain ⟨vs, e, hu⟩ := parseUnique_ok r
      replace h := bind_ok h; obtain ⟨⟨⟨o, d⟩, r'⟩, h3, h⟩ := h
      rw [e] at g
      obtain ⟨ws, e2, he⟩ := parseFieldEnd_ok g.tail.right.right value_acc h3
      split at h
      · cases h
      · rename_i hn
        cases h
        refine ⟨t :: (us ++ (vs ++ ws)), ?_, .value (valueField_of g.head hi) hty hu he ?_⟩
        · rw [e]
          rw [e2]
          simp
        · intro h0
          rw [h0] at hn
          cases d with
          | none => rfl
          | some d => simp at hn
    · split at h
      · rename_i ht
        rw [parseTypeFieldSpec] at h
        replace h := bind_ok h; obtain ⟨⟨i, r⟩, h1, h⟩ := h
        obtain ⟨e, hi⟩ := need_ok h1
        cases e
        replace h := bind_ok h; obtain ⟨⟨⟨o, d⟩, r'⟩, h3, h⟩ := h
        obtain ⟨ws, rfl, he⟩ := parseFieldEnd_ok g.tail (type_acc n) h3
        cases h
        exact ⟨t :: ws, rfl, .type (typeField_of g.head hi) he⟩
      · cases h

/-- The words of a field of a class that is just read. -/
theorem accField_words {f : Text × ClassField} {ts : Tokens} (h : AccField f ts) : withWords none f.2 = f.2 := by
  cases h <;> rfl

theorem classLoop_ok : ∀ (n : Nat) (m xs : List (Text × ClassField)) (ts rest : Tokens) (r : List (Text × ClassField)),
    classLoop n m ts = .ok (r, rest) → Gen ts → Filled m xs →
    ∃ us fs e, ts = us ++ e :: rest ∧ Listed AccField fs us ∧ e.type = .curlyEnd ∧ Filled r (xs ++ fs) := by
  intro n
  induction n with
  | zero => intro _ _ _ _ _ h; cases h
  | succ n ih =>
    intro m xs ts rest r h g hm
    rw [classLoop] at h
    replace h := bind_ok h; obtain ⟨⟨⟨x, f⟩, ts'⟩, h1, h⟩ := h
    obtain ⟨us, rfl, hf⟩ := parseFieldSpec_ok g h1
    have hm' := hm.put x f
    cases ts' with
    | nil => cases h
    | cons t ts' =>
      simp only at h
      split at h
      · rename_i ht
        obtain ⟨us', fs, e, rfl, hl, he, hr⟩ := ih _ _ _ _ _ h g.right.tail hm'
        exact ⟨us ++ t :: us', (x, f) :: fs, e, by simp, .more hf (is_iff.mp ht) hl, he, by simpa using hr⟩
      · split at h
        · rename_i ht
          cases h
          exact ⟨us, [(x, f)], t, rfl, .one hf, is_iff.mp ht, hm'⟩
        · cases h

/-! ### Syntax -/

theorem withWords_ok {b : Bool} {w : Text} {f f' : ClassField} (h : f.withWords b w = .ok f') :
    f' = withWords (some w) f ∧ (b = true → mayBeLeftOut f) := by
  have aux : ∀ {α : Type} (o : Bool) (d : Option α), ¬ (b && !o && d.isNone) = true → b = true → o = true ∨ d ≠ none := by
    intro α o d h1 h2
    subst h2
    cases o <;> cases d <;> simp_all
  cases f with
  | type i o d w' =>
    rw [ClassField.withWords] at h
    split at h
    · cases h
    · cases h
      exact ⟨rfl, aux o d ‹_›⟩
  | fixedTypeValue i ty u o d w' =>
    rw [ClassField.withWords] at h
    split at h
    · cases h
    · cases h
      exact ⟨rfl, aux o d ‹_›⟩

theorem closeGroup_ok {b b' : Bool} {ts rest : Tokens} (h : closeGroup b ts = .ok (b', rest)) :
    ∃ closes z, ts = z ++ rest ∧ BracketNote .squareEnd closes z ∧ (closes = true → b = true) ∧ b' = (b && !closes) := by
  rw [closeGroup] at h
  replace h := bind_ok h; obtain ⟨⟨e, r⟩, h1, h⟩ := h
  rcases skip_ok h1 with ⟨rfl, t, rfl, ht⟩ | ⟨rfl, rfl, -⟩
  · simp only [if_true] at h
    split at h
    · rename_i hb
      cases h
      exact ⟨true, [t], rfl, .some (is_iff.mp ht), fun _ => hb, by simp⟩
    · cases h
  · cases h
    exact ⟨false, [], rfl, .none, nofun, by simp⟩

theorem mayBeLeftOut_words {w : Option Text} {f : ClassField} : mayBeLeftOut (withWords w f) ↔ mayBeLeftOut f := by
  cases f <;> rfl

theorem withWords_words {w w' : Option Text} {f : ClassField} : withWords w (withWords w' f) = withWords w f := by
  cases f <;> rfl

theorem lastWords_append (l : List (Text × Text × Bool)) (x w : Text) (b : Bool) (k : Text) :
    lastWords (l ++ [(x, w, b)]) k = if x = k then some w else lastWords l k := by
  have := lastOf_append (l.map fun e => (e.1, e.2.1)) (x, w) k
  have h : ∀ l : List (Text × Text × Bool), lastWords l k = lastOf (l.map fun e => (e.1, e.2.1)) k := by
    intro l
    unfold lastWords lastOf
    rw [List.filter_map, List.getLast?_map]
    simp [Function.comp_def]
  rw [h, h, List.map_append]
  exact this

theorem lastOf_map {α β : Type} (xs : List (Text × α)) (F : Text → α → β) (k : Text) :
    lastOf (xs.map fun f => (f.1, F f.1 f.2)) k = (lastOf xs k).map (F k) := by
  unfold lastOf
  rw [List.filter_map, List.getLast?_map]
  simp only [Function.comp_def]
  cases h : (xs.filter fun e => e.1 == k).getLast? with
  | none => rfl
  | some e => simp [filter_last h]

theorem withSyntaxLoop_ok (fs : List (Text × ClassField)) : ∀ (n : Nat) (b : Bool) (m : List (Text × ClassField))
    (l : List (Text × Text × Bool)) (ts rest : Tokens) (r : List (Text × ClassField)),
    withSyntaxLoop n b m ts = .ok (r, rest) →
    Filled m (fs.map fun f => (f.1, withWords (lastWords l f.1) f.2)) →
    ∃ us l' z, ts = us ++ z :: rest ∧ AccSyntax b l' us ∧ l' ≠ [] ∧ z.type = .curlyEnd ∧
      (∀ y ∈ l', ∃ f, lastOf fs y.1 = some f ∧ (y.2.2 = true → mayBeLeftOut f)) ∧
      Filled r (fs.map fun f => (f.1, withWords (lastWords (l ++ l') f.1) f.2)) := by
  intro n
  induction n with
  | zero => intro _ _ _ _ _ _ h; cases h
  | succ n ih =>
    intro b m l ts rest r h hm
    rw [withSyntaxLoop] at h
    replace h := bind_ok h; obtain ⟨⟨opens, r1⟩, h1, h⟩ := h
    have ha : ∃ a, ts = a ++ r1 ∧ BracketNote .squareBegin opens a := by
      rcases skip_ok h1 with ⟨rfl, t, rfl, ht⟩ | ⟨rfl, rfl, -⟩
      · exact ⟨[t], rfl, .some (is_iff.mp ht)⟩
      · exact ⟨[], rfl, .none⟩
    obtain ⟨a, rfl, ha⟩ := ha
    simp only at h
    split at h
    · cases h
    · rename_i hw
      replace h := bind_ok h; obtain ⟨⟨f, r2⟩, h2, h⟩ := h
      obtain ⟨e2, hf⟩ := need_ok h2
      have hf := is_iff.mp hf
      have e1 : r1 = r1.takeWhile (fun t => !t.is .andIdentifier) ++ f :: r2 := by
        rw [← e2, List.takeWhile_append_dropWhile]
      have hws : ∀ t ∈ r1.takeWhile (fun t => !t.is .andIdentifier),
          t.type ≠ .andIdentifier ∧ ∀ w ∈ notInSyntax, t.text ≠ w.toList := by
        intro t ht
        refine ⟨?_, ?_⟩
        · have := List.all_takeWhile (l := r1) (p := fun t => !t.is .andIdentifier)
          have := List.all_eq_true.mp this t ht
          intro h0
          simp [is_iff.mpr h0] at this
        · intro w hw' e
          refine hw (List.any_eq_true.mpr ⟨t, ht, ?_⟩)
          exact List.any_eq_true.mpr ⟨w, hw', by simpa using e⟩
      generalize hwords : r1.takeWhile (fun t => !t.is .andIdentifier) = ws at *
      split at h
      · cases h
      · rename_i spec hs
        replace h := bind_ok h; obtain ⟨spec', h3, h⟩ := h
        obtain ⟨rfl, hleft⟩ := withWords_ok h3
        replace h := bind_ok h; obtain ⟨⟨c, r3⟩, h4, h⟩ := h
        obtain ⟨cs, rfl, hc⟩ := perhaps_of h4
        replace h := bind_ok h; obtain ⟨⟨b', r4⟩, h5, h⟩ := h
        obtain ⟨closes, z, rfl, hz, hcl, rfl⟩ := closeGroup_ok h5
        replace h := bind_ok h; obtain ⟨⟨stop, r5⟩, h6, h⟩ := h
        have hf0 : ∃ f0, lastOf fs f.text = some f0 ∧ ((b || opens) = true → mayBeLeftOut f0) ∧
            withWords (lastWords l f.text) f0 = spec := by
          have := hm.2 f.text
          rw [hs, lastOf_map fs (fun x c => withWords (lastWords l x) c)] at this
          cases h0 : lastOf fs f.text with
          | none => rw [h0] at this; cases this
          | some f0 =>
            rw [h0] at this
            cases this
            exact ⟨f0, rfl, fun hb => mayBeLeftOut_words.mp (hleft hb), rfl⟩
        obtain ⟨f0, hf0, hleft0, rfl⟩ := hf0
        have hm' : Filled (put m f.text (withWords (some (concatTexts ws [' '])) (withWords (lastWords l f.text) f0)))
            (fs.map fun e => (e.1, withWords (lastWords (l ++ [(f.text, spaced ws, b || opens)]) e.1) e.2)) := by
          refine ⟨hm.1.put _ _, fun k => ?_⟩
          rw [get_put, lastOf_map fs (fun x c => withWords (lastWords (l ++ [(f.text, spaced ws, b || opens)]) x) c),
            lastWords_append, hm.2, lastOf_map fs (fun x c => withWords (lastWords l x) c), withWords_words]
          split
          · rename_i hk
            subst hk
            rw [hf0]
            rfl
          · rfl
        rcases skip_ok h6 with ⟨rfl, y, rfl, hy⟩ | ⟨rfl, rfl, -⟩
        · simp only [if_true] at h
          split at h
          · cases h
          · rename_i hb'
            cases h
            refine ⟨a ++ (ws ++ f :: (cs ++ (z ++ []))), [(f.text, spaced ws, b || opens)], y, ?_, ?_, by simp, is_iff.mp hy, ?_, hm'⟩
            · rw [e1]; simp
            · refine .cons ha hws hf rfl hc hcl hz ?_
              rw [Bool.eq_false_iff.mpr hb']
              exact .nil
            · intro y' hy'
              cases List.mem_singleton.mp hy'
              exact ⟨f0, hf0, hleft0⟩
        · simp only [Bool.false_eq_true, if_false] at h
          obtain ⟨us, l', y, rfl, hs', hne, hy, hl', hr⟩ := ih _ _ _ _ _ _ h hm'
          refine ⟨a ++ (ws ++ f :: (cs ++ (z ++ us))), (f.text, spaced ws, b || opens) :: l', y, ?_, ?_, by simp, hy, ?_, ?_⟩
          · rw [e1]; simp
          · exact .cons ha hws hf rfl hc hcl hz hs'
          · intro y' hy'
            rcases List.mem_cons.mp hy' with rfl | hy'
            · exact ⟨f0, hf0, hleft0⟩
            · exact hl' y' hy'
          · simpa using hr

theorem listed_words {fs : List (Text × ClassField)} {ts : Tokens} (h : Listed AccField fs ts) :
    (fs.map fun f => (f.1, withWords (lastWords [] f.1) f.2)) = fs := by
  induction h with
  | one h => simp [lastWords, accField_words h]
  | more h _ _ ih => rw [List.map_cons, ih]; simp [lastWords, accField_words h]

theorem parseClass_ok {n : Nat} {ts rest : Tokens} {m : List (Text × ClassField)} (g : Gen ts)
    (h : parseClass n ts = .ok (m, rest)) : ∃ us, ts = us ++ rest ∧ AccClass m us := by
  rw [parseClass] at h
  replace h := bind_ok h; obtain ⟨⟨k, r⟩, h1, h⟩ := h
  obtain ⟨rfl, hk⟩ := need_ok h1
  replace h := bind_ok h; obtain ⟨⟨b, r⟩, h2, h⟩ := h
  obtain ⟨rfl, hb⟩ := need_ok h2
  replace h := bind_ok h; obtain ⟨⟨f, r⟩, h3, h⟩ := h
  obtain ⟨us, fs, e, rfl, hl, he, hm⟩ := classLoop_ok _ _ [] _ _ _ h3 g.tail.tail .nil
  rw [List.nil_append] at hm
  rw [parseWithSyntax] at h
  replace h := bind_ok h; obtain ⟨s, h4, h⟩ := h
  cases s with
  | false =>
    cases h
    exact ⟨k :: b :: (us ++ [e]), by simp, .bare (word_of hk) (is_iff.mp hb) hl he hm.lastOf⟩
  | true =>
    obtain ⟨w, s, r', rfl, hw, hs⟩ := expectAll_two h4
    rw [if_pos rfl] at h
    replace h := bind_ok h; obtain ⟨⟨c, r⟩, h5, h⟩ := h
    obtain ⟨e', hc⟩ := need_ok h5
    simp only [List.drop_succ_cons, List.drop_zero] at e'
    subst e'
    have hm' : Filled f (fs.map fun f => (f.1, withWords (lastWords [] f.1) f.2)) := by rw [listed_words hl]; exact hm
    obtain ⟨vs, l, z, rfl, hs', hne, hz, hl', hr⟩ := withSyntaxLoop_ok fs _ _ _ [] _ _ _ h hm'
    refine ⟨k :: b :: (us ++ e :: w :: s :: c :: (vs ++ [z])), by simp,
      .withSyntax (word_of hk) (is_iff.mp hb) hl he (word_of hw) (word_of hs) (is_iff.mp hc) hs' hne hz ?_ hr.lastOf⟩
    intro y hy
    obtain ⟨f, hf, hx⟩ := hl' y hy
    exact ⟨f, lastOf_some.mp hf, hx⟩

/-! ## Object sets -/

theorem parseSetElement_ok {ts rest : Tokens} {x : Option SetElement} (g : Gen ts)
    (h : parseSetElement ts = .ok (x, rest)) :
    (x = none ∧ ts = rest) ∨ ∃ y us, x = some y ∧ ts = us ++ rest ∧ AccElement y us := by
  unfold parseSetElement at h
  replace h := attempt_ok h; rcases h with ⟨⟨v, r⟩, h1, h⟩ | ⟨-, h⟩
  · cases h
    obtain ⟨t, us, rfl, hg, -⟩ := parseSetIsh_ok h1
    exact .inr ⟨_, t :: us, rfl, rfl, .object hg⟩
  · cases ts with
    | nil => cases h
    | cons t ts =>
      simp only at h
      split at h
      · rename_i ht
        cases h
        exact .inr ⟨_, [t], rfl, rfl, .objectRef (lower_of ht)⟩
      · split at h
        · rename_i ht
          cases h
          exact .inr ⟨_, [t], rfl, rfl, .setRef (upper_of g.head ht)⟩
        · cases h
          exact .inl ⟨rfl, rfl⟩

theorem accSet_after {k r s us} (h : AccSetItems k r s us) (hk : k = true) : r = [] := by
  induction h with
  | done => rfl
  | comma _ _ ih => exact ih hk
  | sign _ _ ih => exact ih hk
  | marker _ _ _ => rfl
  | root _ _ _ => cases hk
  | added _ _ _ => rfl

theorem AccSetItems.perhaps {k r s us vs} (h : Perhaps .comma us) (hi : AccSetItems k r s vs) :
    AccSetItems k r s (us ++ vs) := by
  cases h with
  | none => exact hi
  | some h => exact .comma h hi

theorem objectSetLoop_ok : ∀ (n : Nat) (root add : List SetElement) (m : Bool) (ts rest : Tokens)
    (r : List SetElement × List SetElement), objectSetLoop n root add m.toNat ts = .ok (r, rest) → Gen ts →
    ∃ us e a b, ts = us ++ e :: rest ∧ e.type = .curlyEnd ∧ r = (root ++ a, add ++ b) ∧ AccSetItems m a b us := by
  intro n
  induction n with
  | zero => intro _ _ _ _ _ _ h; cases h
  | succ n ih =>
    intro root add m ts rest r h g
    rw [objectSetLoop] at h
    replace h := bind_ok h; obtain ⟨b, h1, h⟩ := h
    obtain ⟨y, ys, rfl, hy⟩ := expect_ok h1
    split at h
    · cases h
    · rename_i hb
      replace h := bind_ok h; obtain ⟨⟨x, r2⟩, h2, h⟩ := h
      have hm : ∃ (m' : Bool) (ws : Tokens), y :: ys = ws ++ r2 ∧ m.toNat + x.toNat = m'.toNat ∧
          ∀ {a b vs}, AccSetItems m' a b vs → AccSetItems m a b (ws ++ vs) := by
        rcases parseMarker_ok h2 with ⟨rfl, y', ds, e, hy', hd⟩ | ⟨rfl, rfl⟩
        · cases e
          have hb' : b = true := by rw [← hy]; exact is_iff.mpr hy'
          cases m with
          | true => simp [hb'] at hb
          | false =>
            refine ⟨true, y :: ds, rfl, rfl, ?_⟩
            intro a b vs hi
            cases accSet_after hi rfl
            exact .marker hy' (AccSetItems.perhaps hd hi)
        · exact ⟨m, [], rfl, by simp, fun hi => hi⟩
      obtain ⟨m', ws, e', em, hm⟩ := hm
      rw [e'] at g
      rw [e']
      clear e'
      simp only [em] at h
      replace h := bind_ok h; obtain ⟨⟨el, r3⟩, h3, h⟩ := h
      replace h := bind_ok h; obtain ⟨⟨c, r4⟩, h4, h⟩ := h
      obtain ⟨cs, rfl, hc⟩ := perhaps_of h4
      replace h := bind_ok h; obtain ⟨⟨u, r5⟩, h5, h⟩ := h
      have hu : ∃ us, r4 = us ++ r5 ∧ ∀ {a b vs}, AccSetItems m' a b vs → AccSetItems m' a b (us ++ vs) := by
        rcases skip_ok h5 with ⟨rfl, t, rfl, ht⟩ | ⟨rfl, rfl, -⟩
        · exact ⟨[t], rfl, fun hi => .sign (union_of ht) hi⟩
        · exact ⟨[], rfl, fun hi => hi⟩
      obtain ⟨us, rfl, hu⟩ := hu
      have hel : ∃ vs, r2 = vs ++ (cs ++ (us ++ r5)) ∧ ∀ {a b ws}, AccSetItems m' a b ws →
          AccSetItems m' ((if m'.toNat = 0 then el.toList else []) ++ a) ((if m'.toNat = 0 then [] else el.toList) ++ b)
            (vs ++ ws) := by
        rcases parseSetElement_ok g.right h3 with ⟨rfl, rfl⟩ | ⟨e, vs, rfl, rfl, he⟩
        · exact ⟨[], rfl, fun hi => by simpa using hi⟩
        · refine ⟨vs, rfl, ?_⟩
          intro a b ws hi
          cases m' with
          | false => exact .root he hi
          | true =>
            cases accSet_after hi rfl
            exact .added he hi
      obtain ⟨vs, rfl, hel⟩ := hel
      replace h := bind_ok h; obtain ⟨⟨z, r6⟩, h6, h⟩ := h
      have all : ∀ {a b os}, AccSetItems m' a b os →
          AccSetItems m ((if m'.toNat = 0 then el.toList else []) ++ a) ((if m'.toNat = 0 then [] else el.toList) ++ b)
            (ws ++ (vs ++ (cs ++ (us ++ os)))) := fun hi => hm (hel (AccSetItems.perhaps hc (hu hi)))
      have er : ∀ a, (if m'.toNat = 0 then root ++ el.toList else root) ++ a =
          root ++ ((if m'.toNat = 0 then el.toList else []) ++ a) := by intro a; split <;> simp
      have ea : ∀ a, (if m'.toNat = 0 then add else add ++ el.toList) ++ a =
          add ++ ((if m'.toNat = 0 then [] else el.toList) ++ a) := by intro a; split <;> simp
      rcases skip_ok h6 with ⟨rfl, e, rfl, he⟩ | ⟨rfl, rfl, -⟩
      · cases h
        refine ⟨_, e, _, _, ?_, is_iff.mp he, ?_, all .done⟩
        · simp
        · rw [← er, ← ea]; simp
      · simp only [Bool.false_eq_true, if_false] at h
        obtain ⟨os, e, a, b, rfl, he, rfl, hi⟩ := ih _ _ _ _ _ _ h g.right.right.right.right
        refine ⟨_, e, _, _, ?_, he, ?_, all hi⟩
        · simp
        · rw [er, ea]

/-! ## Definitions -/

theorem governor_of {t : Token} (g : Genuine t) (h : (t.isTypeRef || t.isBuiltin || t.isClassRef) = true) :
    (∃ y, UpperName y t) ∨ ∃ w ∈ typeWords, Word w t := by
  simp only [Bool.or_eq_true] at h
  rcases h with (h | h) | h
  · exact .inl ⟨_, upper_of g h⟩
  · exact .inr (builtin_of g h)
  · exact .inl ⟨_, (class_of g h).1⟩

theorem parseParam_ok {ts rest : Tokens} {x : Text} (g : Gen ts) (h : parseParam ts = .ok (x, rest)) :
    ∃ us, ts = us ++ rest ∧ AccFormal x us := by
  rw [parseParam] at h
  replace h := bind_ok h; obtain ⟨b, h1, h⟩ := h
  cases b with
  | true =>
    obtain ⟨t, c, u, us, rfl, ht, hc, hu⟩ := expectAll_three h1
    cases h
    refine ⟨[t, c, u], rfl, .governed (governor_of g.head ht) (is_iff.mp hc) ?_⟩
    simp only [Bool.or_eq_true] at hu
    rcases hu with hu | hu
    · exact .inl (lower_of hu)
    · exact .inr (upper_of (g u (by simp)) hu)
  | false =>
    simp only [Bool.false_eq_true, if_false] at h
    cases ts with
    | nil => cases h
    | cons t ts =>
      rw [parseBareParam] at h
      split at h
      · rename_i ht
        cases h
        refine ⟨[t], rfl, .plain ?_⟩
        simp only [Bool.or_eq_true] at ht
        rcases ht with ht | ht
        · exact upper_of g.head ht
        · exact (class_of g.head ht).1
      · cases h

theorem paramsLoop_ok : ∀ (n : Nat) (names : List Text) (ts rest : Tokens) (r : List Text),
    paramsLoop n names ts = .ok (r, rest) → Gen ts →
    ∃ us new e, ts = us ++ e :: rest ∧ r = names ++ new ∧ new ≠ [] ∧ Followed AccFormal new us ∧ e.type = .curlyEnd := by
  intro n
  induction n with
  | zero => intro _ _ _ _ h; cases h
  | succ n ih =>
    intro names ts rest r h g
    rw [paramsLoop] at h
    replace h := bind_ok h; obtain ⟨⟨x, r1⟩, h1, h⟩ := h
    obtain ⟨us, rfl, hx⟩ := parseParam_ok g h1
    replace h := bind_ok h; obtain ⟨⟨c, r2⟩, h2, h⟩ := h
    obtain ⟨cs, rfl, hc⟩ := perhaps_of h2
    replace h := bind_ok h; obtain ⟨⟨z, r3⟩, h3, h⟩ := h
    rcases skip_ok h3 with ⟨rfl, e, rfl, he⟩ | ⟨rfl, rfl, -⟩
    · cases h
      exact ⟨us ++ (cs ++ []), [x], e, by simp, rfl, by simp, .cons hx hc .nil, is_iff.mp he⟩
    · simp only [Bool.false_eq_true, if_false] at h
      obtain ⟨vs, new, e, rfl, rfl, -, hn, he⟩ := ih _ _ _ _ h g.right.right
      exact ⟨us ++ (cs ++ vs), x :: new, e, by simp, by simp, by simp, .cons hx hc hn, he⟩

theorem parseDefinition_ok {n : Nat} {ts rest : Tokens} {d : ParsedDef} (g : Gen ts)
    (h : parseDefinition n ts = .ok (d, rest)) : ∃ us, ts = us ++ rest ∧ AccDef d us := by
  cases ts with
  | nil => cases h
  | cons t ts =>
    rw [parseDefinition] at h
    split at h
    · rw [parseValueish] at h
      replace h := attempt_ok h; rcases h with ⟨⟨d', r⟩, h1, h⟩ | ⟨-, h⟩
      · cases h
        rw [parseObjectAssignment] at h1
        replace h1 := bind_ok h1; obtain ⟨b, h2, h1⟩ := h1
        cases b with
        | false => cases h1
        | true =>
          obtain ⟨i, c, us, e, hi, hc⟩ := expectAll_two h2
          cases e
          rw [if_pos rfl] at h1
          replace h1 := bind_ok h1; obtain ⟨⟨a, r'⟩, h3, h1⟩ := h1
          obtain ⟨e, ha⟩ := need_ok h3
          simp only [List.drop_succ_cons, List.drop_zero] at e
          subst e
          replace h1 := bind_ok h1; obtain ⟨⟨v, r''⟩, h4, h1⟩ := h1
          cases h1
          obtain ⟨u, us, rfl, hv, -⟩ := parseSetIsh_ok h4
          exact ⟨t :: c :: a :: u :: us, rfl, .object (lower_of hi) (class_of (g c (by simp)) hc) (is_iff.mp ha) hv⟩
      · replace h := attempt_ok h; rcases h with ⟨⟨d', r⟩, h1, h⟩ | ⟨-, h⟩
        · cases h
          rw [parseValueAssignment] at h1
          replace h1 := bind_ok h1; obtain ⟨⟨i, r1⟩, h2, h1⟩ := h1
          obtain ⟨e, hi⟩ := need_ok h2
          cases e
          replace h1 := bind_ok h1; obtain ⟨⟨ty, r2⟩, h3, h1⟩ := h1
          obtain ⟨us, rfl, hty⟩ := type_acc n _ _ _ h3 g.tail
          replace h1 := bind_ok h1; obtain ⟨⟨a, r3⟩, h4, h1⟩ := h1
          obtain ⟨rfl, ha⟩ := need_ok h4
          replace h1 := bind_ok h1; obtain ⟨⟨v, r4⟩, h5, h1⟩ := h1
          cases h1
          obtain ⟨u, vs, rfl, hv, -⟩ := parseValue_ok h5
          exact ⟨t :: (us ++ a :: u :: vs), by simp, .value (lower_of hi) hty (is_iff.mp ha) hv⟩
        · cases h
    · split at h
      · rw [parseTypeish] at h
        replace h := attempt_ok h; rcases h with ⟨⟨d', r⟩, h1, h⟩ | ⟨-, h⟩
        · cases h
          rw [parseTypeAssignment] at h1
          replace h1 := bind_ok h1; obtain ⟨⟨i, r1⟩, h2, h1⟩ := h1
          obtain ⟨e, hi⟩ := need_ok h2
          cases e
          have hi := upper_of g.head hi
          replace h1 := attempt_ok h1; rcases h1 with ⟨⟨ps, r2⟩, h3, h1⟩ | ⟨-, h1⟩
          · rw [parseParams] at h3
            replace h3 := bind_ok h3; obtain ⟨⟨b, r3⟩, h4, h3⟩ := h3
            obtain ⟨rfl, hb⟩ := need_ok h4
            obtain ⟨us, new, e, rfl, e', hne, hp, he⟩ := paramsLoop_ok _ _ _ _ _ h3 g.tail.tail
            rw [List.nil_append] at e'
            subst e'
            replace h1 := bind_ok h1; obtain ⟨⟨a, r3⟩, h5, h1⟩ := h1
            obtain ⟨e', ha⟩ := need_ok h5
            simp only [Option.map_some, Option.getD_some] at e'
            subst e'
            replace h1 := bind_ok h1; obtain ⟨⟨ty, r4⟩, h6, h1⟩ := h1
            obtain ⟨vs, rfl, hty⟩ := type_acc n _ _ _ h6 g.tail.tail.right.tail.tail
            cases h1
            refine ⟨t :: b :: (us ++ e :: a :: vs), by simp, ?_⟩
            have : (vs ++ r4).take (List.length (vs ++ r4) - r4.length) = vs := by simp
            simp only [Option.map_some, this]
            exact .parameterized hi (is_iff.mp hb) hp hne he (is_iff.mp ha) hty
          · replace h1 := bind_ok h1; obtain ⟨⟨a, r3⟩, h5, h1⟩ := h1
            obtain ⟨e', ha⟩ := need_ok h5
            simp only [Option.map_none, Option.getD_none] at e'
            subst e'
            replace h1 := bind_ok h1; obtain ⟨⟨ty, r4⟩, h6, h1⟩ := h1
            obtain ⟨vs, rfl, hty⟩ := type_acc n _ _ _ h6 g.tail.tail
            cases h1
            exact ⟨t :: a :: vs, by simp, .type hi (is_iff.mp ha) hty⟩
        · replace h := attempt_ok h; rcases h with ⟨⟨d', r⟩, h1, h⟩ | ⟨-, h⟩
          · cases h
            rw [parseClassAssignment] at h1
            replace h1 := bind_ok h1; obtain ⟨⟨i, r1⟩, h2, h1⟩ := h1
            obtain ⟨e, hi⟩ := need_ok h2
            cases e
            replace h1 := bind_ok h1; obtain ⟨⟨a, r3⟩, h4, h1⟩ := h1
            obtain ⟨rfl, ha⟩ := need_ok h4
            replace h1 := bind_ok h1; obtain ⟨⟨m, r4⟩, h5, h1⟩ := h1
            cases h1
            obtain ⟨us, rfl, hm⟩ := parseClass_ok g.tail.tail h5
            exact ⟨t :: a :: us, rfl, .class (class_of g.head hi) (is_iff.mp ha) hm⟩
          · replace h := attempt_ok h; rcases h with ⟨⟨d', r⟩, h1, h⟩ | ⟨-, h⟩
            · cases h
              rw [parseObjectSetAssignment] at h1
              replace h1 := bind_ok h1; obtain ⟨⟨i, r1⟩, h2, h1⟩ := h1
              obtain ⟨e, hi⟩ := need_ok h2
              cases e
              replace h1 := bind_ok h1; obtain ⟨⟨c, r2⟩, h3, h1⟩ := h1
              obtain ⟨rfl, hc⟩ := need_ok h3
              replace h1 := bind_ok h1; obtain ⟨⟨a, r3⟩, h4, h1⟩ := h1
              obtain ⟨rfl, ha⟩ := need_ok h4
              replace h1 := bind_ok h1; obtain ⟨⟨s, r4⟩, h5, h1⟩ := h1
              cases h1
              rw [parseObjectSet] at h5
              replace h5 := bind_ok h5; obtain ⟨⟨b, r5⟩, h6, h5⟩ := h5
              obtain ⟨rfl, hb⟩ := need_ok h6
              obtain ⟨us, e, x, y, rfl, he, rfl, hs⟩ := objectSetLoop_ok n [] [] false _ _ _ h5 g.tail.tail.tail.tail
              exact ⟨t :: c :: a :: b :: (us ++ [e]), by simp,
                .objectSet (upper_of g.head hi) (class_of (g c (by simp)) hc) (is_iff.mp ha) (is_iff.mp hb) hs he⟩
            · cases h
      · cases h

/-! ## Modules -/

theorem oidNumber_ok {t : Token} {v : Nat} (g : Genuine t) (ht : t.type = .numberInt) (h : oidNumber t = .ok v) :
    Decimal t := by
  have hp := g.number ht
  unfold oidNumber parseUnsigned at h
  refine ⟨ht, ?_⟩
  generalize t.text = x at *
  have key : ∀ {v : Nat}, (if isDigits x ∧ digitsVal x < 2 ^ 32 then some (digitsVal x) else none) = some v →
      x ≠ [] ∧ (∀ c ∈ x, c.isDigit = true) ∧ x.foldl (fun n c => 10 * n + (c.toNat - '0'.toNat)) 0 < 2 ^ 32 := by
    intro v h
    split at h
    · rename_i hx
      refine ⟨?_, ?_, hx.2⟩
      · rintro rfl; simp [isDigits] at hx
      · have := hx.1
        simp only [isDigits, Bool.and_eq_true, List.all_eq_true] at this
        exact this.2
    · cases h
  split at h
  · rename_i h1
    split at h1
    · simp at hp
    · exact key h1
  · cases h

theorem parseOidComponent_ok {ts rest : Tokens} {c : Option Text × Nat} (g : Gen ts)
    (h : parseOidComponent ts = .ok (c, rest)) : ∃ us, ts = us ++ rest ∧ AccOidComp us := by
  cases ts with
  | nil => cases h
  | cons t ts =>
    rw [parseOidComponent] at h
    split at h
    · unfold parseNamedOid at h
      split at h
      · rename_i ht
        have ht := lower_of ht
        have known : ((wellKnown t.text).bind fun v => .ok ((some t.text, v), ts)) = .ok (c, rest) →
            ∃ us, t :: ts = us ++ rest ∧ AccOidComp us := by
          intro h
          replace h := bind_ok h; obtain ⟨v, h1, h⟩ := h
          cases h
          refine ⟨[t], rfl, ?_⟩
          unfold wellKnown at h1
          split at h1
          · rename_i x hx
            have hm := List.mem_of_find?_eq_some hx
            have hp := List.find?_some hx
            simp only [beq_iff_eq] at hp
            refine .known (w := x.1) ?_ (hp ▸ ht)
            simp only [WELL_KNOWN, List.mem_cons, List.not_mem_nil, or_false] at hm
            rcases hm with rfl | rfl | rfl | rfl | rfl | rfl | rfl | rfl | rfl <;> simp
          · cases h1
        match ts, g, h, known with
        | [], _, h, known => exact known h
        | [_], _, h, known => exact known h
        | [_, _], _, h, known => exact known h
        | a :: b :: e :: us, g, h, known =>
          simp only at h
          split at h
          · rename_i hc
            simp only [Bool.and_eq_true, is_iff] at hc
            replace h := bind_ok h; obtain ⟨v, h1, h⟩ := h
            cases h
            exact ⟨[t, a, b, e], rfl, .named ht hc.1.1 (oidNumber_ok (g b (by simp)) hc.1.2 h1) hc.2⟩
          · exact known h
      · cases h
    · split at h
      · rename_i ht
        replace h := bind_ok h; obtain ⟨v, h1, h⟩ := h
        cases h
        exact ⟨[t], rfl, .number (oidNumber_ok g.head (is_iff.mp ht) h1)⟩
      · cases h

theorem oidLoop_ok : ∀ (n : Nat) (cs : List (Option Text × Nat)) (ts rest : Tokens) (r : List (Option Text × Nat)),
    oidLoop n cs ts = .ok (r, rest) → Gen ts → ∃ us e, ts = us ++ e :: rest ∧ AccOidComps us ∧ e.type = .curlyEnd := by
  intro n
  induction n with
  | zero => intro _ _ _ _ h; cases h
  | succ n ih =>
    intro cs ts rest r h g
    rw [oidLoop] at h
    replace h := bind_ok h; obtain ⟨⟨z, r1⟩, h1, h⟩ := h
    rcases skip_ok h1 with ⟨rfl, e, rfl, he⟩ | ⟨rfl, rfl, -⟩
    · cases h
      exact ⟨[], e, rfl, .nil, is_iff.mp he⟩
    · simp only [Bool.false_eq_true, if_false] at h
      replace h := bind_ok h; obtain ⟨⟨c, r2⟩, h2, h⟩ := h
      obtain ⟨us, rfl, hc⟩ := parseOidComponent_ok g h2
      obtain ⟨vs, e, rfl, hv, he⟩ := ih _ _ _ _ h g.right
      exact ⟨us ++ vs, e, by simp, .cons hc hv, he⟩

theorem parseModuleName_ok {n : Nat} {ts rest : Tokens} {r : Text × Option (List (Option Text × Nat))} (g : Gen ts)
    (h : parseModuleName n ts = .ok (r, rest)) : ∃ i os, ts = i :: (os ++ rest) ∧ UpperName r.1 i ∧ AccOid os := by
  cases ts with
  | nil => cases h
  | cons t ts =>
    rw [parseModuleName] at h
    split at h
    · rename_i ht
      replace h := bind_ok h; obtain ⟨⟨o, r1⟩, h1, h⟩ := h
      cases h
      have ht := upper_of g.head ht
      cases ts with
      | nil => cases h1; exact ⟨t, [], rfl, ht, .none⟩
      | cons b ts =>
        rw [parseMaybeOid] at h1
        split at h1
        · rename_i hb
          replace h1 := bind_ok h1; obtain ⟨⟨c, r2⟩, h2, h1⟩ := h1
          cases h1
          obtain ⟨us, e, rfl, hu, he⟩ := oidLoop_ok _ _ _ _ _ h2 g.tail.tail
          exact ⟨t, b :: (us ++ [e]), by simp, ht, .some (is_iff.mp hb) hu he⟩
        · cases h1
          exact ⟨t, [], rfl, ht, .none⟩
    · cases h

theorem parseTags_ok {ts rest : Tokens} {x : Unit} (h : parseTags ts = .ok (x, rest)) : ∃ us, ts = us ++ rest ∧ TagsNote us := by
  rw [parseTags] at h
  replace h := bind_ok h; obtain ⟨⟨a, r1⟩, h1, h⟩ := h
  rcases skip_ok h1 with ⟨rfl, t, rfl, ht⟩ | ⟨rfl, rfl, -⟩
  · simp only [if_true] at h
    replace h := bind_ok h; obtain ⟨⟨u, r2⟩, h2, h⟩ := h
    obtain ⟨rfl, hu⟩ := need_ok h2
    cases h
    simp only [Bool.or_eq_true] at ht
    refine ⟨[t, u], rfl, .some ?_ (word_of hu)⟩
    rcases ht with (ht | ht) | ht
    · exact .inl (word_of ht)
    · exact .inr (.inl (word_of ht))
    · exact .inr (.inr (word_of ht))
  · cases h
    exact ⟨[], rfl, .none⟩

theorem not_word {w : String} {t : Token} (h : ¬ t.isKeyword w = true) : ¬ Word w t := by
  intro hw
  exact h (by simp [Token.isKeyword, Token.is, hw.1, hw.2])

theorem importNames_ok : ∀ (n : Nat) (names : List Text) (ts rest : Tokens) (r : List Text),
    importNames n names ts = .ok (r, rest) →
    ∃ us f, ts = us ++ f :: rest ∧ (∀ t ∈ us, ¬ Word "FROM" t) ∧ Word "FROM" f ∧
      r = names ++ (us.filter fun t => t.type == .identifier).map Token.text := by
  intro n
  induction n with
  | zero => intro _ _ _ _ h; cases h
  | succ n ih =>
    intro names ts rest r h
    cases ts with
    | nil => cases h
    | cons t ts =>
      rw [importNames] at h
      split at h
      · rename_i ht
        cases h
        exact ⟨[], t, rfl, nofun, word_of ht, by simp⟩
      · rename_i ht
        have ht := not_word ht
        replace h := bind_ok h; obtain ⟨⟨c, r1⟩, h1, h⟩ := h
        have hc : ∃ cs, ts = cs ++ r1 ∧ ∀ c ∈ cs, c.type = .comma := by
          obtain ⟨cs, rfl, hc⟩ := perhaps_of h1
          refine ⟨cs, rfl, ?_⟩
          cases hc with
          | none => nofun
          | some h => intro c hc; cases List.mem_singleton.mp hc; exact h
        obtain ⟨cs, rfl, hc⟩ := hc
        obtain ⟨us, f, rfl, hu, hf, rfl⟩ := ih _ _ _ _ h
        refine ⟨t :: (cs ++ us), f, by simp, ?_, hf, ?_⟩
        · intro u hm
          rcases List.mem_cons.mp hm with rfl | hm
          · exact ht
          · rcases List.mem_append.mp hm with hm | hm
            · intro hw
              have := hw.1
              rw [hc u hm] at this
              cases this
            · exact hu u hm
        · have : cs.filter (fun t => t.type == .identifier) = [] := by
            rw [List.filter_eq_nil_iff]
            intro c h
            simp [hc c h]
          rw [List.filter_cons, List.filter_append, this]
          by_cases h0 : t.type = .identifier <;> simp [Token.is, h0]

theorem addImports_acc (m : Text) : ∀ (ds : List Text) (is is' l : List (Text × Text)), addImports m is ds = .ok is' →
    Table is l → Table is' (l ++ ds.map fun d => (d, m)) := by
  intro ds
  induction ds with
  | nil => intro is is' l h ht; cases h; simpa using ht
  | cons d ds ih =>
    intro is is' l h ht
    rw [addImports] at h
    split at h
    · cases h
    · rename_i hn
      have hn : get is d = none := by simpa using hn
      have := ih _ _ _ h (Table.fresh ht hn m)
      simpa using this

theorem importsLoop_ok : ∀ (n : Nat) (is l : List (Text × Text)) (ts rest : Tokens) (r : List (Text × Text)),
    importsLoop n is ts = .ok (r, rest) → Gen ts → Table is l →
    ∃ us z l', ts = us ++ z :: rest ∧ z.type = .semiColon ∧ AccFroms l' us ∧ Table r (l ++ l') := by
  intro n
  induction n with
  | zero => intro _ _ _ _ _ h; cases h
  | succ n ih =>
    intro is l ts rest r h g ht
    rw [importsLoop] at h
    replace h := bind_ok h; obtain ⟨⟨ns, r1⟩, h1, h⟩ := h
    obtain ⟨us, f, rfl, hu, hf, rfl⟩ := importNames_ok _ _ _ _ _ h1
    replace h := bind_ok h; obtain ⟨⟨m, r2⟩, h2, h⟩ := h
    obtain ⟨i, os, rfl, hi, ho⟩ := parseModuleName_ok g.right.tail h2
    replace h := bind_ok h; obtain ⟨is', h3, h⟩ := h
    have ht' := addImports_acc _ _ _ _ _ h3 ht
    rw [List.nil_append] at ht'
    have hfrom := AccFrom.mk hu hf hi ho
    replace h := bind_ok h; obtain ⟨⟨z, r3⟩, h4, h⟩ := h
    rcases skip_ok h4 with ⟨rfl, e, rfl, he⟩ | ⟨rfl, rfl, -⟩
    · cases h
      exact ⟨_, e, _, by simp, is_iff.mp he, .one hfrom, ht'⟩
    · simp only [Bool.false_eq_true, if_false] at h
      obtain ⟨vs, e, l', rfl, he, hl, hr⟩ := ih _ _ _ _ _ h g.right.tail.tail.right ht'
      exact ⟨_, e, _, by simp, he, .more hfrom hl, by simpa using hr⟩

theorem parseImports_ok {n : Nat} {ts rest : Tokens} {is : List (Text × Text)} (g : Gen ts)
    (h : parseImports n ts = .ok (is, rest)) : ∃ us l, ts = us ++ rest ∧ AccImports l us ∧ Table is l := by
  rw [parseImports] at h
  replace h := bind_ok h; obtain ⟨⟨a, r1⟩, h1, h⟩ := h
  rcases skip_ok h1 with ⟨rfl, t, rfl, ht⟩ | ⟨rfl, rfl, -⟩
  · simp only [if_true] at h
    obtain ⟨us, z, l, rfl, hz, hl, hr⟩ := importsLoop_ok _ _ [] _ _ _ h g.tail ⟨.refl _, .nil⟩
    exact ⟨t :: (us ++ [z]), l, by simp, .some (word_of ht) hl hz, hr⟩
  · cases h
    exact ⟨[], [], rfl, .none, .refl _, .nil⟩

theorem definitionsLoop_ok : ∀ (n : Nat) (m xs : List (Text × ParsedDef)) (ts rest : Tokens) (r : List (Text × ParsedDef)),
    definitionsLoop n m ts = .ok (r, rest) → Gen ts → Filled m xs →
    ∃ us ds e, ts = us ++ e :: rest ∧ AccDefs ds us ∧ Word "END" e ∧ Filled r (xs ++ ds.map fun d => (d.id, d)) := by
  intro n
  induction n with
  | zero => intro _ _ _ _ _ h; cases h
  | succ n ih =>
    intro m xs ts rest r h g hm
    rw [definitionsLoop] at h
    replace h := bind_ok h; obtain ⟨⟨z, r1⟩, h1, h⟩ := h
    rcases skip_ok h1 with ⟨rfl, e, rfl, he⟩ | ⟨rfl, rfl, -⟩
    · cases h
      exact ⟨[], [], e, rfl, .nil, word_of he, by simpa using hm⟩
    · simp only [Bool.false_eq_true, if_false] at h
      replace h := bind_ok h; obtain ⟨⟨d, r2⟩, h2, h⟩ := h
      obtain ⟨us, rfl, hd⟩ := parseDefinition_ok g h2
      obtain ⟨vs, ds, e, rfl, hds, he, hr⟩ := ih _ _ _ _ _ h g.right (hm.put d.id d)
      exact ⟨us ++ vs, d :: ds, e, by simp, .cons hd hds, he, by simpa using hr⟩

theorem parseModule_ok {n : Nat} {ts rest : Tokens} {m : ParsedModule} (g : Gen ts)
    (h : parseModule n ts = .ok (m, rest)) : ∃ us, ts = us ++ rest ∧ AccModule m us := by
  rw [parseModule] at h
  replace h := bind_ok h; obtain ⟨⟨nm, r1⟩, h1, h⟩ := h
  obtain ⟨i, os, rfl, hi, ho⟩ := parseModuleName_ok g h1
  have g := g.tail.right
  replace h := bind_ok h; obtain ⟨⟨d, r2⟩, h2, h⟩ := h
  obtain ⟨rfl, hd⟩ := need_ok h2
  replace h := bind_ok h; obtain ⟨⟨⟨⟩, r3⟩, h3, h⟩ := h
  obtain ⟨gs, rfl, hg⟩ := parseTags_ok h3
  replace h := bind_ok h; obtain ⟨⟨a, r4⟩, h4, h⟩ := h
  obtain ⟨rfl, ha⟩ := need_ok h4
  replace h := bind_ok h; obtain ⟨⟨b, r5⟩, h5, h⟩ := h
  obtain ⟨rfl, hb⟩ := need_ok h5
  have g := g.tail.right.tail.tail
  replace h := bind_ok h; obtain ⟨⟨is, r6⟩, h6, h⟩ := h
  obtain ⟨us, l, rfl, hl, ht⟩ := parseImports_ok g h6
  replace h := bind_ok h; obtain ⟨⟨defs, r7⟩, h7, h⟩ := h
  obtain ⟨vs, ds, e, rfl, hds, he, hr⟩ := definitionsLoop_ok _ _ [] _ _ _ h7 g.right .nil
  cases h
  rw [List.nil_append] at hr
  exact ⟨i :: (os ++ d :: (gs ++ a :: b :: (us ++ (vs ++ [e])))), by simp,
    .mk hi ho (word_of hd) hg (is_iff.mp ha) (word_of hb) hl hds he ht hr.lastOf⟩

theorem modulesLoop_ok : ∀ (n : Nat) (ms : List ParsedModule) (ts : Tokens) (r : List ParsedModule),
    modulesLoop n ms ts = .ok r → Gen ts → ∃ new, r = ms ++ new ∧ AccModules new ts := by
  intro n
  induction n with
  | zero => intro _ _ _ h; cases h
  | succ n ih =>
    intro ms ts r h g
    rw [modulesLoop] at h
    replace h := bind_ok h; obtain ⟨⟨m, r1⟩, h1, h⟩ := h
    obtain ⟨us, rfl, hm⟩ := parseModule_ok g h1
    split at h
    · rename_i he
      cases h
      have he : r1 = [] := by simpa using he
      subst he
      exact ⟨[m], rfl, by rw [List.append_nil]; exact .one hm⟩
    · obtain ⟨new, rfl, hn⟩ := ih _ _ _ h g.right
      exact ⟨m :: new, by simp, .more hm hn⟩

end Hampi.Compiler.Acc
