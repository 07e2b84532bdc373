import Verif.Lemmas.ParserReads
/-! # The parser reads what the notation writes: types -/
namespace Hampi.Compiler
open _root_.Hampi.Compiler.Spec

/-- The tokens after a type do not look like a part of it. -/
def Stop (rest : Tokens) : Prop :=
  ∀ t ∈ rest.head?, t.type ≠ .curlyBegin ∧ t.type ≠ .dot ∧ t.type ≠ .roundBegin

theorem Stop.kind {rest} (h : Stop rest) : KStop rest := fun t ht => ⟨(h t ht).1, (h t ht).2.1⟩

/-- The token after an element of a set does not look like a part of it. -/
def ElStop (z : Token) : Prop :=
  z.type ≠ .lessThan ∧ z.type ≠ .rangeSeparator ∧ z.type ≠ .curlyBegin ∧ z.type ≠ .dot ∧
    z.type ≠ .roundBegin

theorem ElStop.stop {z} (h : ElStop z) (rest) : Stop (z :: rest) := by
  intro t ht
  simp at ht
  subst ht
  exact ⟨h.2.2.1, h.2.2.2.1, h.2.2.2.2⟩

/-- The token after a component. -/
def CompStop (z : Token) : Prop := z.type = .comma ∨ z.type = .curlyEnd ∨ z.type = .additionGroupsEnd

theorem CompStop.stop {z} (h : CompStop z) (rest) : Stop (z :: rest) := by
  intro t ht
  simp at ht
  subst ht
  rcases h with h | h | h <;> simp [h]

theorem set_head {e ts} (h : SetNote e ts) : ∃ b us, ts = b :: us ∧ b.type = .roundBegin := by
  cases h <;> exact ⟨_, _, rfl, by assumption⟩

theorem constraint_head {c ts} (h : ConstraintNote c ts) : ∃ b us, ts = b :: us ∧ b.type = .roundBegin := by
  cases h with
  | subtype h => exact set_head h
  | relation h => exact ⟨_, _, rfl, h⟩
  | containing h => exact ⟨_, _, rfl, h⟩

theorem need_stops {p : Token → Bool} {rest : Tokens} (h : ∀ t ∈ rest.head?, p t = false) :
    ∃ e, need p rest = .err e := by
  cases rest with
  | nil => exact ⟨_, rfl⟩
  | cons t ts => exact ⟨_, by simp [need, h t (by simp)]; rfl⟩

/-- No constraint starts here. -/
theorem constraint_stops {rest : Tokens} (h : ∀ t ∈ rest.head?, t.type ≠ .roundBegin) :
    Ev fun n => parseConstraint n rest = .err .parse := by
  obtain ⟨e, he⟩ := need_stops (p := Token.is .roundBegin) (rest := rest)
    (fun t ht => by simp [Token.is, h t ht])
  refine Ev.step (Ev.step (Ev.all fun n => ?_))
  simp [parseConstraint, parseElementSet, parseTable, parseContents, he, Out.bind, Out.attempt]

/-- No element of a set starts here. -/
theorem elements_stops {z : Token} (hz : z.type = .roundEnd ∧ z.text = [')'] ∨ Word "CONTAINING" z)
    (rest : Tokens) : Ev fun n => parseElements n (z :: rest) = .err .parse := by
  have hk : ∀ w : String, w.toList ≠ "CONTAINING".toList → z.isKeyword w = false := by
    intro w hw
    rcases hz with h | h
    · simp [Token.isKeyword, Token.is, h.1]
    · simp only [Token.isKeyword, h.text, Bool.and_eq_false_imp, beq_eq_false_iff_ne]
      exact fun _ e => hw e.symm
  have h5 : parseValue (z :: rest) = .err .unexpectedToken := by
    rcases hz with h | h
    · simp [parseValue, Token.isSimpleValue, Token.is, h.1]
    · simp [parseValue, Token.isSimpleValue, Token.is, h.type]
  have h6 : z.is .roundBegin = false := by
    rcases hz with h | h
    · simp [Token.is, h.1]
    · simp [Token.is, h.type]
  have h7 : z.type ≠ .identifier := by
    rcases hz with h | h
    · simp [h.1]
    · simp [h.type]
  have h8 : z.isBuiltin = false := by
    rcases hz with h | h
    · simp only [Token.isBuiltin, h.2]; decide
    · simp only [Token.isBuiltin, h.text]; decide
  refine Ev.step (Ev.step (Ev.step (Ev.all fun n => ?_)))
  simp [parseElements, parseElementsRest, parseRange, parseEndPoint, parseType, need, expect, h5, h6, h8,
    hk "SIZE" (by decide), hk "FROM" (by decide), hk "MIN" (by decide), hk "MAX" (by decide),
    not_isTypeRef h7, not_isClassRef h7, Out.bind, Out.attempt]

theorem endPoint_reads {v ts} (h : EndNote v ts) (rest : Tokens) :
    parseEndPoint (ts ++ rest) = .ok (v, rest) := by
  cases h with
  | value h =>
    simp [parseEndPoint, wordValue_reads h, Out.attempt, Out.bind]
  | @min t h =>
    have : ∀ us, parseValue (t :: us) = .err .unexpectedToken := fun us => by
      simp [parseValue, Token.isSimpleValue, Token.is, h.type]
    simp [parseEndPoint, this, Out.attempt, Out.bind, need, h.isKeyword, h.text]
  | @max t h =>
    have : ∀ us, parseValue (t :: us) = .err .unexpectedToken := fun us => by
      simp [parseValue, Token.isSimpleValue, Token.is, h.type]
    simp [parseEndPoint, this, Out.attempt, Out.bind, need, h.isKeyword, h.text]

theorem endNote_head {v ts} (h : EndNote v ts) :
    ∃ t us, ts = t :: us ∧ t.type ≠ .lessThan ∧ t.isKeyword "SIZE" = false ∧ t.isKeyword "FROM" = false := by
  cases h with
  | value h =>
    refine ⟨_, _, rfl, ?_⟩
    rcases h.2 with h | h | h | h | h <;> simp [h, Token.isKeyword, Token.is]
  | min h => exact ⟨_, _, rfl, by simp [h.type], by simp [Token.isKeyword, h.text], by simp [Token.isKeyword, h.text]⟩
  | max h => exact ⟨_, _, rfl, by simp [h.type], by simp [Token.isKeyword, h.text], by simp [Token.isKeyword, h.text]⟩

theorem range_reads {lo ts a us r b vs hi ws} (h1 : EndNote lo ts) (h2 : OpenNote a us)
    (h3 : r.type = .rangeSeparator) (h4 : OpenNote b vs) (h5 : EndNote hi ws) (rest : Tokens) :
    parseRange (ts ++ (us ++ r :: (vs ++ (ws ++ rest)))) = .ok (.range lo a hi b, rest) := by
  rw [parseRange, endPoint_reads h1]
  have hm : parseLowerMark (us ++ r :: (vs ++ (ws ++ rest))) = .ok (a, vs ++ (ws ++ rest)) := by
    cases h2 with
    | closed => simp [parseLowerMark, Token.is, h3]
    | «open» h => simp [parseLowerMark, Token.is, h]
  have hs : skip (Token.is .lessThan) (vs ++ (ws ++ rest)) = .ok (!b, ws ++ rest) := by
    cases h4 with
    | closed =>
      obtain ⟨t, xs, rfl, ht, -⟩ := endNote_head h5
      simp [skip, Token.is, ht]
    | «open» h => simp [skip, Token.is, h]
  simp [Out.bind, hm, hs, endPoint_reads h5]

theorem value_head {v ts} (h : ValueNote v ts) :
    ∃ t us, ts = t :: us ∧ t.type ≠ .keyword ∧ t.type ≠ .roundBegin := by
  cases h with
  | word h =>
    refine ⟨_, _, rfl, ?_⟩
    rcases h.2 with h | h | h | h | h <;> simp [h]
  | braces h =>
    cases h with
    | mk h => exact ⟨_, _, rfl, by simp [h], by simp [h]⟩

theorem single_reads {v ts} (h : ValueNote v ts) {z : Token} (h1 : z.type ≠ .lessThan)
    (h2 : z.type ≠ .rangeSeparator) (rest : Tokens) :
    Ev fun n => parseElements n (ts ++ z :: rest) = .ok (.single v, z :: rest) := by
  have hv := value_reads h (z :: rest)
  obtain ⟨t, us, rfl, ht, hb⟩ := value_head h
  simp only [List.cons_append] at *
  refine Ev.step (Ev.step (Ev.all fun n => ?_))
  simp only [parseElements, not_isKeyword ht, Bool.or_false, Bool.false_eq_true, if_false]
  simp [parseElementsRest, parseRange, parseEndPoint, hv, Out.attempt, Out.bind, parseLowerMark, Token.is, h1,
    h2, expect, hb]

theorem presence_none {z : Token} (hz : CompStop z) (rest : Tokens) :
    parsePresence (z :: rest) = .ok ((false, none), z :: rest) := by
  have h : z.type ≠ .keyword := by rcases hz with h | h | h <;> simp [h]
  simp [parsePresence, skip, not_isKeyword h, Out.bind]

theorem seqVersion_reads {v ts} (h : VersionNote v ts) (z : Token) (rest : Tokens)
    (hz : z.type ≠ .numberInt) : parseSeqVersion (ts ++ z :: rest) = .ok (v, z :: rest) := by
  cases h with
  | none => simp [parseSeqVersion, Token.is, hz]
  | some h1 h2 => simp [parseSeqVersion, Token.is, h1, h2, need, Out.bind]

theorem choiceVersion_reads {v ts} (h : VersionNote v ts) (z : Token) (rest : Tokens)
    (hz : z.type ≠ .numberInt) : parseChoiceVersion (ts ++ z :: rest) = .ok (v, z :: rest) := by
  cases h with
  | none => simp [parseChoiceVersion, Token.is, hz]
  | some h1 h2 => simp [parseChoiceVersion, Token.is, h1, h2, need, Out.bind]

theorem comp_head {c ts} (h : CompNote c ts) : ∃ i us, ts = i :: us ∧ i.type = .identifier := by
  cases h with
  | mk h _ => exact ⟨_, _, rfl, h.type⟩

theorem seqComp_head {c ts} (h : SeqCompNote c ts) : ∃ i us, ts = i :: us ∧ i.type = .identifier := by
  cases h with
  | required h _ => exact ⟨_, _, rfl, h.type⟩
  | optional h _ _ => exact ⟨_, _, rfl, h.type⟩
  | default h _ _ _ => exact ⟨_, _, rfl, h.type⟩

theorem seqComps_head {c ts} (h : SeqComps c ts) : ∃ i us, ts = i :: us ∧ i.type = .identifier := by
  cases h with
  | one h => exact seqComp_head h
  | more h _ _ =>
    obtain ⟨i, us, rfl, hi⟩ := seqComp_head h
    exact ⟨_, _, rfl, hi⟩

theorem comps_head {c ts} (h : Comps c ts) : ∃ i us, ts = i :: us ∧ i.type = .identifier := by
  cases h with
  | one h => exact comp_head h
  | more h _ _ =>
    obtain ⟨i, us, rfl, hi⟩ := comp_head h
    exact ⟨_, _, rfl, hi⟩

theorem seqGroup_head {c ts} (h : SeqGroupNote c ts) :
    ∃ i us, ts = i :: us ∧ i.type = .additionGroupsBegin := by
  cases h with
  | mk h _ _ _ => exact ⟨_, _, rfl, h⟩

theorem choiceGroup_head {c ts} (h : ChoiceGroupNote c ts) :
    ∃ i us, ts = i :: us ∧ i.type = .additionGroupsBegin := by
  cases h with
  | mk h _ _ _ => exact ⟨_, _, rfl, h⟩

/-- No component starts here. -/
theorem component_stops {z : Token} (hz : z.type ≠ .identifier) (rest : Tokens) :
    Ev fun n => parseComponent n (z :: rest) = .err .unexpectedToken := by
  refine Ev.step (Ev.all fun n => ?_)
  simp [parseComponent, need, not_isValueRef hz, Out.bind]

theorem seqComponent_stops {z : Token} (hz : z.type ≠ .identifier) (rest : Tokens) :
    Ev fun n => parseSeqComponent n (z :: rest) = .ok (none, z :: rest) := by
  refine Ev.step ((component_stops hz rest).imp fun n hn => ?_)
  simp [parseSeqComponent, hn, Out.attempt, Out.bind]

theorem Spec.UnionSign.elStop {z} (h : UnionSign z) : ElStop z := by
  rcases h with h | h
  · simp [ElStop, h]
  · simp [ElStop, h.type]

theorem Spec.IntersectionSign.elStop {z} (h : IntersectionSign z) : ElStop z := by
  rcases h with h | h
  · simp [ElStop, h]
  · simp [ElStop, h.type]

theorem Spec.UnionSign.is {z} (h : UnionSign z) : z.isUnion = true ∧ z.isIntersection = false := by
  rcases h with h | h
  · simp [Token.isUnion, Token.isIntersection, Token.is, Token.isKeyword, h]
  · simp [Token.isUnion, Token.isIntersection, Token.is, Token.isKeyword, h.type, h.text]

theorem Spec.IntersectionSign.is {z} (h : IntersectionSign z) : z.isIntersection = true := by
  rcases h with h | h
  · simp [Token.isIntersection, Token.is, Token.isKeyword, h]
  · simp [Token.isIntersection, Token.is, Token.isKeyword, h.type, h.text]

theorem inter_ne {es ts} (h : InterNote es ts) : es ≠ [] := by cases h <;> simp

theorem union_ne {es ts} (h : UnionNote es ts) : es ≠ [] := by cases h <;> simp

/-- What follows a union. -/
def SetStop (z : Token) : Prop := z.type = .comma ∨ z.type = .roundEnd

theorem SetStop.elStop {z} (h : SetStop z) : ElStop z := by
  rcases h with h | h <;> simp [ElStop, h]

theorem SetStop.is {z} (h : SetStop z) : z.isUnion = false ∧ z.isIntersection = false := by
  rcases h with h | h <;>
    simp [Token.isUnion, Token.isIntersection, Token.is, Token.isKeyword, h]

/-- `({Set}{@...})` and `(CONTAINING T)` are not sets of values. -/
theorem relation_not_set {a b s c d : Token} {x} (ha : a.type = .roundBegin) (hb : b.type = .curlyBegin)
    (hs : UpperName x s) (hc : c.type = .curlyEnd) (hd : d.type = .curlyBegin) (rest : Tokens) :
    Ev fun n => parseElementSet n (a :: b :: s :: c :: d :: rest) = .err .unexpectedToken := by
  have hv : ValueNote (spaced (b :: ([s] ++ [c]))) (b :: ([s] ++ [c])) :=
    .braces (.mk hb (.other (by simp [hs.type]) (by simp [hs.type]) .nil) hc)
  have hd' : d.isIntersection = false ∧ d.isUnion = false := by
    simp [Token.isIntersection, Token.isUnion, Token.is, Token.isKeyword, hd]
  refine Ev.step (Ev.step (Ev.step ((single_reads hv (z := d) (by simp [hd]) (by simp [hd]) rest).imp
    fun n hn => ?_)))
  simp only [List.cons_append, List.nil_append] at hn
  simp [parseElementSet, unionLoop, interLoop, need, skip, hn, Token.is, ha, hd, hd', Out.attempt, Out.bind]

theorem containing_not_set {a c : Token} (ha : a.type = .roundBegin) (hc : Word "CONTAINING" c)
    (rest : Tokens) : Ev fun n => parseElementSet n (a :: c :: rest) = .err .parse := by
  have hc' : c.isIntersection = false ∧ c.isUnion = false := by
    simp [Token.isIntersection, Token.isUnion, Token.is, Token.isKeyword, hc.type, hc.text]
  refine Ev.step (Ev.step (Ev.step ((elements_stops (.inr hc) rest).imp fun n hn => ?_)))
  simp [parseElementSet, unionLoop, interLoop, need, skip, hn, Token.is, ha, hc', Out.attempt, Out.bind]

/-! ## One level of the parser on top of another -/

theorem constraints_stops {rest : Tokens} (h : ∀ t ∈ rest.head?, t.type ≠ .roundBegin) :
    Ev fun n => parseConstraints n rest = .ok ([], rest) := by
  refine Ev.step ((constraint_stops h).imp fun n hn => ?_)
  simp [parseConstraints, hn, Out.bind, Out.attempt]

theorem type_of_kind {t k us cs} {rest rest' : Tokens} (ht : TypeStart t)
    (h1 : Ev fun n => parseKind n t us = .ok (k, rest))
    (h2 : Ev fun n => parseConstraints n rest = .ok (cs, rest')) :
    Ev fun n => parseType n (t :: us) = .ok (.mk k (some cs), rest') := by
  refine Ev.step ((h1.and h2).imp fun n hn => ?_)
  unfold TypeStart at ht
  simp only [parseType]
  rw [if_pos ht, hn.1]
  simp [Out.bind, hn.2]

theorem kind_of_seqOrSeqOf {t k us} {rest : Tokens} (ht : Word "SEQUENCE" t)
    (h : Ev fun n => parseSeqOrSeqOf n (t :: us) = .ok (k, rest)) :
    Ev fun n => parseKind n t us = .ok (k, rest) := by
  refine Ev.step (h.imp fun n hn => ?_)
  simp [parseKind, ht.text, isStringType, hn]

theorem kind_of_seqOf {t u k us} {rest : Tokens} (ht : Word "SEQUENCE" t) (hu : u.type ≠ .curlyBegin)
    (h : Ev fun n => parseSeqOf n (u :: us) = .ok (k, rest)) :
    Ev fun n => parseKind n t (u :: us) = .ok (k, rest) := by
  refine kind_of_seqOrSeqOf ht (Ev.step (h.imp fun n hn => ?_))
  simp [parseSeqOrSeqOf, need, expect, ht.isKeyword, Token.is, hu, Out.bind, hn]

theorem kind_of_seqLoop {t b k us} {rest : Tokens} (ht : Word "SEQUENCE" t) (hb : b.type = .curlyBegin)
    (h : Ev fun n => seqLoop n [] [] 0 us = .ok (k, rest)) :
    Ev fun n => parseKind n t (b :: us) = .ok (k, rest) := by
  refine kind_of_seqOrSeqOf ht (Ev.step (h.imp fun n hn => ?_))
  simp [parseSeqOrSeqOf, need, expect, ht.isKeyword, Token.is, hb, Out.bind, hn]

theorem kind_of_choiceLoop {t b k us} {rest : Tokens} (ht : Word "CHOICE" t) (hb : b.type = .curlyBegin)
    (h : Ev fun n => choiceLoop n [] [] [] 0 us = .ok (k, rest)) :
    Ev fun n => parseKind n t (b :: us) = .ok (k, rest) := by
  refine Ev.step (Ev.step (h.imp fun n hn => ?_))
  simp [parseKind, ht.text, isStringType, parseChoice, need, ht.isKeyword, Token.is, hb, Out.bind, hn]

/-- `seqLoop` where no component and no group starts. -/
theorem seqLoop_of_after {root adds m z us k} {rest : Tokens} (h1 : z.type ≠ .identifier)
    (h2 : z.type ≠ .additionGroupsBegin)
    (h : Ev fun n => seqAfter n root adds m (z :: us) = .ok (k, rest)) :
    Ev fun n => seqLoop n root adds m (z :: us) = .ok (k, rest) := by
  refine Ev.step (((seqComponent_stops h1 us).and h).imp fun n hn => ?_)
  simp [seqLoop, hn, Out.attempt, Out.bind, expect, Token.is, h2]

theorem seqLoop_of_component {root adds m c us z vs k} {rest : Tokens} (hz : z.type ≠ .additionGroupsBegin)
    (h1 : Ev fun n => parseSeqComponent n us = .ok (some c, z :: vs))
    (h : Ev fun n => seqAfter n (root ++ [c]) adds m (z :: vs) = .ok (k, rest)) :
    Ev fun n => seqLoop n root adds m us = .ok (k, rest) := by
  refine Ev.step ((h1.and h).imp fun n hn => ?_)
  simp [seqLoop, hn, Out.attempt, Out.bind, expect, Token.is, hz]

theorem seqLoop_of_group {root adds g z us vs k} {rest : Tokens} (hz : z.type = .additionGroupsBegin)
    (h1 : Ev fun n => parseSeqGroup n (z :: us) = .ok (g, vs))
    (h : Ev fun n => seqAfter n root (adds ++ [g]) 1 vs = .ok (k, rest)) :
    Ev fun n => seqLoop n root adds 1 (z :: us) = .ok (k, rest) := by
  refine Ev.step (((seqComponent_stops (z := z) (by simp [hz]) us).and (h1.and h)).imp fun n hn => ?_)
  simp [seqLoop, hn, Out.attempt, Out.bind, expect, Token.is, hz]

theorem choiceLoop_of_after {root groups bare m z us k} {rest : Tokens} (h1 : z.type ≠ .identifier)
    (h2 : z.type ≠ .additionGroupsBegin)
    (h : Ev fun n => choiceAfter n root groups bare m (z :: us) = .ok (k, rest)) :
    Ev fun n => choiceLoop n root groups bare m (z :: us) = .ok (k, rest) := by
  refine Ev.step (((component_stops h1 us).and h).imp fun n hn => ?_)
  simp [choiceLoop, hn, Out.attempt, Out.bind, expect, Token.is, h2]

theorem choiceLoop_of_root {root groups bare c us z vs k} {rest : Tokens}
    (hz : z.type ≠ .additionGroupsBegin)
    (h1 : Ev fun n => parseComponent n us = .ok (c, z :: vs))
    (h : Ev fun n => choiceAfter n (root ++ [c]) groups bare 0 (z :: vs) = .ok (k, rest)) :
    Ev fun n => choiceLoop n root groups bare 0 us = .ok (k, rest) := by
  refine Ev.step ((h1.and h).imp fun n hn => ?_)
  simp [choiceLoop, hn, Out.attempt, Out.bind, expect, Token.is, hz]

theorem choiceLoop_of_bare {root groups bare c us z vs k} {rest : Tokens}
    (hz : z.type ≠ .additionGroupsBegin)
    (h1 : Ev fun n => parseComponent n us = .ok (c, z :: vs))
    (h : Ev fun n => choiceAfter n root groups (bare ++ [c]) 1 (z :: vs) = .ok (k, rest)) :
    Ev fun n => choiceLoop n root groups bare 1 us = .ok (k, rest) := by
  refine Ev.step ((h1.and h).imp fun n hn => ?_)
  simp [choiceLoop, hn, Out.attempt, Out.bind, expect, Token.is, hz]

theorem choiceLoop_of_group {root groups bare g z us vs k} {rest : Tokens}
    (hz : z.type = .additionGroupsBegin)
    (h1 : Ev fun n => parseChoiceGroup n (z :: us) = .ok (g, vs))
    (h : Ev fun n => choiceAfter n root (groups ++ [g]) bare 1 vs = .ok (k, rest)) :
    Ev fun n => choiceLoop n root groups bare 1 (z :: us) = .ok (k, rest) := by
  refine Ev.step (((component_stops (z := z) (by simp [hz]) us).and (h1.and h)).imp fun n hn => ?_)
  simp [choiceLoop, hn, Out.attempt, Out.bind, expect, Token.is, hz]

/-- A SEQUENCE ends. -/
theorem seqAfter_end {root adds m e} {rest : Tokens} (he : e.type = .curlyEnd) :
    Ev fun n => seqAfter n root adds m (e :: rest) = .ok (.sequence root adds (0 < m), rest) := by
  refine Ev.step (Ev.all fun n => ?_)
  simp [seqAfter, parseMarker, skip, Token.is, he, Out.bind]

/-- A comma in a SEQUENCE, and no `...` after it. -/
theorem seqAfter_comma {root adds m c z us k} {rest : Tokens} (hc : c.type = .comma)
    (hz : z.type ≠ .extension) (hz' : z.type ≠ .curlyEnd)
    (h : Ev fun n => seqLoop n root adds m (z :: us) = .ok (k, rest)) :
    Ev fun n => seqAfter n root adds m (c :: z :: us) = .ok (k, rest) := by
  refine Ev.step (h.imp fun n hn => ?_)
  simp [seqAfter, parseMarker, skip, Token.is, hc, hz, hz', Out.bind, hn]

/-- The marker of a SEQUENCE, with or without a comma before it, then a comma and more. -/
theorem seqAfter_marker {root adds m x d z us k} {rest : Tokens} (hx : x.type = .extension)
    (hd : d.type = .comma) (hz : z.type ≠ .curlyEnd)
    (h : Ev fun n => seqLoop n root adds (m + 1) (z :: us) = .ok (k, rest)) :
    (Ev fun n => seqAfter n root adds m (x :: d :: z :: us) = .ok (k, rest)) ∧
    ∀ c : Token, c.type = .comma →
      Ev fun n => seqAfter n root adds m (c :: x :: d :: z :: us) = .ok (k, rest) := by
  constructor
  · refine Ev.step (h.imp fun n hn => ?_)
    simp [seqAfter, parseMarker, skip, Token.is, hx, hd, hz, Out.bind, hn]
  · intro c hc
    refine Ev.step (h.imp fun n hn => ?_)
    simp [seqAfter, parseMarker, skip, Token.is, hc, hx, hd, hz, Out.bind, hn]

/-- The marker of a SEQUENCE, with or without a comma before it, then the end. -/
theorem seqAfter_marker_end {root adds m x e} {rest : Tokens} (hx : x.type = .extension)
    (he : e.type = .curlyEnd) :
    (Ev fun n => seqAfter n root adds m (x :: e :: rest) = .ok (.sequence root adds true, rest)) ∧
    ∀ c : Token, c.type = .comma →
      Ev fun n => seqAfter n root adds m (c :: x :: e :: rest) = .ok (.sequence root adds true, rest) := by
  constructor
  · refine Ev.step (Ev.all fun n => ?_)
    simp [seqAfter, parseMarker, skip, Token.is, hx, he, Out.bind]
  · intro c hc
    refine Ev.step (Ev.all fun n => ?_)
    simp [seqAfter, parseMarker, skip, Token.is, hx, he, hc, Out.bind]

theorem choiceAfter_end {root groups bare m e} {rest : Tokens} (he : e.type = .curlyEnd) :
    Ev fun n => choiceAfter n root groups bare m (e :: rest) =
      .ok (.choice root (choiceAdditions m groups bare), rest) := by
  refine Ev.step (Ev.all fun n => ?_)
  simp [choiceAfter, parseMarker, skip, expect, Token.is, he, Out.bind]

theorem choiceAfter_comma {root groups bare m c z us k} {rest : Tokens} (hc : c.type = .comma)
    (hz : z.type ≠ .extension) (hz' : z.type ≠ .curlyEnd)
    (h : Ev fun n => choiceLoop n root groups bare m (z :: us) = .ok (k, rest)) :
    Ev fun n => choiceAfter n root groups bare m (c :: z :: us) = .ok (k, rest) := by
  refine Ev.step (h.imp fun n hn => ?_)
  simp [choiceAfter, parseMarker, skip, expect, Token.is, hc, hz, hz', Out.bind, hn]

theorem choiceAfter_marker {root groups bare x d z us k} {rest : Tokens} (hx : x.type = .extension)
    (hd : d.type = .comma) (hz : z.type ≠ .curlyEnd)
    (h : Ev fun n => choiceLoop n root groups bare 1 (z :: us) = .ok (k, rest)) :
    (Ev fun n => choiceAfter n root groups bare 0 (x :: d :: z :: us) = .ok (k, rest)) ∧
    ∀ c : Token, c.type = .comma →
      Ev fun n => choiceAfter n root groups bare 0 (c :: x :: d :: z :: us) = .ok (k, rest) := by
  constructor
  · refine Ev.step (h.imp fun n hn => ?_)
    simp [choiceAfter, parseMarker, skip, expect, Token.is, hx, hd, hz, Out.bind, hn]
  · intro c hc
    refine Ev.step (h.imp fun n hn => ?_)
    simp [choiceAfter, parseMarker, skip, expect, Token.is, hc, hx, hd, hz, Out.bind, hn]

theorem choiceAfter_marker_end {root groups bare x e} {rest : Tokens} (hx : x.type = .extension)
    (he : e.type = .curlyEnd) :
    (Ev fun n => choiceAfter n root groups bare 0 (x :: e :: rest) =
      .ok (.choice root (choiceAdditions 1 groups bare), rest)) ∧
    ∀ c : Token, c.type = .comma →
      Ev fun n => choiceAfter n root groups bare 0 (c :: x :: e :: rest) =
        .ok (.choice root (choiceAdditions 1 groups bare), rest) := by
  constructor
  · refine Ev.step (Ev.all fun n => ?_)
    simp [choiceAfter, parseMarker, skip, expect, Token.is, hx, he, Out.bind]
  · intro c hc
    refine Ev.step (Ev.all fun n => ?_)
    simp [choiceAfter, parseMarker, skip, expect, Token.is, hx, he, hc, Out.bind]

theorem seqItems_head {k cs gs j ts} (h : SeqItems k cs gs j ts) :
    ∃ z us, ts = z :: us ∧ z.type ≠ .curlyEnd := by
  cases h with
  | component _ h _ => obtain ⟨i, us, rfl, hi⟩ := seqComp_head h; exact ⟨_, _, rfl, by simp [hi]⟩
  | group h _ => obtain ⟨i, us, rfl, hi⟩ := seqGroup_head h; exact ⟨_, _, rfl, by simp [hi]⟩
  | marker _ h _ => exact ⟨_, _, rfl, by simp [h]⟩

theorem choiceItems_head {k cs gs bs x ts} (h : ChoiceItems k cs gs bs x ts) :
    ∃ z us, ts = z :: us ∧ z.type ≠ .curlyEnd := by
  cases h with
  | root h _ => obtain ⟨i, us, rfl, hi⟩ := comp_head h; exact ⟨_, _, rfl, by simp [hi]⟩
  | bare _ h _ => obtain ⟨i, us, rfl, hi⟩ := comp_head h; exact ⟨_, _, rfl, by simp [hi]⟩
  | group h _ => obtain ⟨i, us, rfl, hi⟩ := choiceGroup_head h; exact ⟨_, _, rfl, by simp [hi]⟩
  | marker h _ => exact ⟨_, _, rfl, by simp [h]⟩

theorem seqMore_head {k cs gs j ts} (h : SeqMore k cs gs j ts) (e : Token) (he : e.type = .curlyEnd)
    (rest : Tokens) : ∃ z us, ts ++ e :: rest = z :: us ∧ CompStop z := by
  cases h with
  | done => exact ⟨_, _, rfl, .inr (.inl he)⟩
  | more h _ => exact ⟨_, _, rfl, .inl h⟩

theorem choiceMore_head {k cs gs bs x ts} (h : ChoiceMore k cs gs bs x ts) (e : Token)
    (he : e.type = .curlyEnd) (rest : Tokens) : ∃ z us, ts ++ e :: rest = z :: us ∧ CompStop z := by
  cases h with
  | done => exact ⟨_, _, rfl, .inr (.inl he)⟩
  | more h _ => exact ⟨_, _, rfl, .inl h⟩

theorem CompStop.ne_group {z} (h : CompStop z) : z.type ≠ .additionGroupsBegin := by
  rcases h with h | h | h <;> simp [h]

/-! ## Types -/

mutual

theorem type_reads {ty ts} (h : TypeNote ty ts) :
    ∀ rest, Stop rest → Ev fun n => parseType n (ts ++ rest) = .ok (ty, rest) := by
  match h with
  | .type (us := us) hk hc =>
    intro rest hr
    have hs : KStop (us ++ rest) := by
      cases hc with
      | nil => exact hr.kind
      | cons h _ =>
        obtain ⟨b, vs, rfl, hb⟩ := constraint_head h
        intro t ht
        simp at ht
        subst ht
        simp [hb]
    obtain ⟨t, vs, rfl, ht, hk⟩ := kind_reads hk (us ++ rest) hs
    have hc := constraints_reads hc rest (fun t ht => (hr t ht).2.2)
    rw [List.append_assoc]
    exact type_of_kind ht hk hc
  | .sequenceOf (t := t) (o := o) (us := us) ht ho hty =>
    intro rest hr
    have hty := type_reads hty rest hr
    refine type_of_kind (ht.start (by decide)) (kind_of_seqOf ht (by simp [ho.type]) (Ev.step ?_))
      (constraints_stops (fun t ht => (hr t ht).2.2))
    refine (hty.and (constraint_stops (rest := o :: (us ++ rest)) (by simp [ho.type]))).imp fun n hn => ?_
    simp [parseSeqOf, hn, Out.attempt, Out.bind, need, ho.isKeyword]
  | .sizedSequenceOf (ts := ts) (o := o) (us := us) ht hc ho hty =>
    intro rest hr
    have hty := type_reads hty rest hr
    obtain ⟨b, vs, hv, hb⟩ := constraint_head hc
    have hc := constraint_reads hc (o :: (us ++ rest))
    subst hv
    simp only [List.cons_append, List.append_assoc] at *
    refine type_of_kind (ht.start (by decide)) (kind_of_seqOf ht (by simp [hb]) (Ev.step ?_))
      (constraints_stops (fun t ht => (hr t ht).2.2))
    refine (hty.and hc).imp fun n hn => ?_
    simp [parseSeqOf, hn, Out.attempt, Out.bind, need, ho.isKeyword]
termination_by structural h

theorem kind_reads {k ts} (h : KindNote k ts) : ∀ rest, KStop rest →
    ∃ t us, ts = t :: us ∧ TypeStart t ∧ Ev fun n => parseKind n t (us ++ rest) = .ok (k, rest) := by
  match h with
  | .simple h => exact fun rest hr => simple_reads h rest hr
  | .emptySequence (e := e) ht hb he =>
    intro rest hr
    exact ⟨_, _, rfl, ht.start (by decide), kind_of_seqLoop ht hb
      (seqLoop_of_after (by simp [he]) (by simp [he]) (seqAfter_end he))⟩
  | .sequence ht hb hi he =>
    intro rest hr
    refine ⟨_, _, rfl, ht.start (by decide), ?_⟩
    have := (seqItems_reads hi [] [] _ rest he).1
    simp only [List.cons_append, List.append_assoc, List.nil_append] at *
    exact kind_of_seqLoop ht hb this
  | .choice ht hb hi he =>
    intro rest hr
    refine ⟨_, _, rfl, ht.start (by decide), ?_⟩
    have := (choiceItems_reads hi [] [] [] _ rest he (by simp)).1
    simp only [List.cons_append, List.append_assoc, List.nil_append] at *
    exact kind_of_choiceLoop ht hb this
termination_by structural h

theorem seqItems_reads {k cs gs j ts} (h : SeqItems k cs gs j ts) :
    ∀ root adds (e : Token) rest, e.type = .curlyEnd →
      (Ev fun n => seqLoop n root adds k (ts ++ e :: rest) =
        .ok (.sequence (root ++ cs) (adds ++ gs) (0 < j), rest)) ∧
      ∀ c : Token, c.type = .comma → Ev fun n => seqAfter n root adds k (c :: (ts ++ e :: rest)) =
        .ok (.sequence (root ++ cs) (adds ++ gs) (0 < j), rest) := by
  match h with
  | .component (c := c) (us := us) hk hc hm =>
    intro root adds e rest he
    obtain ⟨z, vs, hz, hzs⟩ := seqMore_head hm e he rest
    have hm := seqMore_reads hm (root ++ [c]) adds e rest he
    obtain ⟨i, ws, hi, hit⟩ := seqComp_head hc
    have hc := seqComp_reads hc z vs hzs
    rw [hz] at hm
    rw [List.append_assoc, hz]
    have := seqLoop_of_component hzs.ne_group hc hm
    simp only [List.append_assoc, List.cons_append, List.nil_append] at this
    refine ⟨this, fun d hd => ?_⟩
    subst hi
    exact seqAfter_comma hd (by simp [hit]) (by simp [hit]) this
  | .group (g := g) (us := us) hg hm =>
    intro root adds e rest he
    have hm := seqMore_reads hm root (adds ++ [g]) e rest he
    obtain ⟨i, ws, hi, hit⟩ := seqGroup_head hg
    have hg := seqGroup_reads hg (us ++ e :: rest)
    subst hi
    rw [List.append_assoc]
    have := seqLoop_of_group hit hg hm
    simp only [List.append_assoc, List.cons_append, List.nil_append] at this
    refine ⟨this, fun d hd => ?_⟩
    exact seqAfter_comma hd (by simp [hit]) (by simp [hit]) this
  | .marker (k := k) hk hx hm =>
    intro root adds e rest he
    have key := seqMarker_reads hm root adds k _ e rest hx rfl he
    exact ⟨seqLoop_of_after (by simp [hx]) (by simp [hx]) key.1, key.2⟩
termination_by structural h

theorem seqMore_reads {k cs gs j ts} (h : SeqMore k cs gs j ts) :
    ∀ root adds (e : Token) rest, e.type = .curlyEnd →
      Ev fun n => seqAfter n root adds k (ts ++ e :: rest) =
        .ok (.sequence (root ++ cs) (adds ++ gs) (0 < j), rest) := by
  match h with
  | .done =>
    intro root adds e rest he
    simpa using seqAfter_end he
  | .more hc hi =>
    intro root adds e rest he
    exact (seqItems_reads hi root adds e rest he).2 _ hc
termination_by structural h

theorem seqMarker_reads {k cs gs j ts} (h : SeqMore k cs gs j ts) :
    ∀ root adds (m : Nat) (x e : Token) rest, x.type = .extension → k = m + 1 → e.type = .curlyEnd →
      (Ev fun n => seqAfter n root adds m (x :: (ts ++ e :: rest)) =
        .ok (.sequence (root ++ cs) (adds ++ gs) (0 < j), rest)) ∧
      ∀ c : Token, c.type = .comma → Ev fun n => seqAfter n root adds m (c :: x :: (ts ++ e :: rest)) =
        .ok (.sequence (root ++ cs) (adds ++ gs) (0 < j), rest) := by
  match h with
  | .done =>
    intro root adds m x e rest hx hk he
    subst hk
    simpa using seqAfter_marker_end hx he
  | .more hc hi =>
    intro root adds m x e rest hx hk he
    obtain ⟨z, vs, hz, hz'⟩ := seqItems_head hi
    have := (seqItems_reads hi root adds e rest he).1
    subst hz hk
    exact seqAfter_marker hx hc hz' this
termination_by structural h

theorem seqComp_reads {c ts} (h : SeqCompNote c ts) : ∀ (z : Token) rest, CompStop z →
    Ev fun n => parseSeqComponent n (ts ++ z :: rest) = .ok (some c, z :: rest) := by
  match h with
  | .required hx ht =>
    intro z rest hz
    have ht := type_reads ht (z :: rest) (hz.stop rest)
    refine Ev.step (Ev.step (ht.imp fun n hn => ?_))
    simp [parseSeqComponent, parseComponent, need, hx.isValueRef, hx.text, Out.bind, Out.attempt, hn,
      presence_none hz]
  | .optional (o := o) hx ht ho =>
    intro z rest hz
    have ht := type_reads ht (o :: z :: rest) (fun t ht => by simp at ht; subst ht; simp [ho.type])
    have hzk : z.type ≠ .keyword := by rcases hz with h | h | h <;> simp [h]
    refine Ev.step (Ev.step (ht.imp fun n hn => ?_))
    simp [parseSeqComponent, parseComponent, need, hx.isValueRef, hx.text, Out.bind, Out.attempt, hn,
      parsePresence, skip, ho.isKeyword, not_isKeyword hzk]
  | .default (d := d) (us := us) hx ht hd hv =>
    intro z rest hz
    have ht := type_reads ht (d :: (us ++ z :: rest)) (fun t ht => by simp at ht; subst ht; simp [hd.type])
    have hv := value_reads hv (z :: rest)
    have hd' : d.isKeyword "OPTIONAL" = false := by simp [Token.isKeyword, hd.text]
    refine Ev.step (Ev.step (ht.imp fun n hn => ?_))
    simp [parseSeqComponent, parseComponent, need, hx.isValueRef, hx.text, Out.bind, Out.attempt, hn,
      parsePresence, skip, hd.isKeyword, hd', hv]
termination_by structural h

theorem seqGroup_reads {g ts} (h : SeqGroupNote g ts) :
    ∀ rest, Ev fun n => parseSeqGroup n (ts ++ rest) = .ok (g, rest) := by
  match h with
  | .mk (ts := ts) (cs := cs) (us := us) (e := e) hb hv hc he =>
    intro rest
    obtain ⟨i, vs, hi, hit⟩ := seqComps_head hc
    have hne : cs.isEmpty = false := by cases hc <;> rfl
    have hc := seqComps_reads hc [] e rest he
    subst hi
    refine Ev.step (hc.imp fun n hn => ?_)
    simp only [List.cons_append, List.append_assoc, List.nil_append] at *
    simp [parseSeqGroup, need, Token.is, hb, Out.bind, seqVersion_reads hv i _ (by simp [hit]), hn, hne, he]
termination_by structural h

theorem seqComps_reads {cs ts} (h : SeqComps cs ts) :
    ∀ acc (e : Token) rest, e.type = .additionGroupsEnd →
      Ev fun n => seqGroupLoop n acc (ts ++ e :: rest) = .ok (acc ++ cs, e :: rest) := by
  match h with
  | .one (c := c) hc =>
    intro acc e rest he
    have hc := seqComp_reads hc e rest (.inr (.inr he))
    have hs : Ev fun n => seqGroupLoop n (acc ++ [c]) (e :: rest) = .ok (acc ++ [c], e :: rest) := by
      refine Ev.step ((seqComponent_stops (z := e) (by simp [he]) rest).imp fun n hn => ?_)
      rw [seqGroupLoop, hn]
      simp [Out.bind]
    refine Ev.step ((hc.and hs).imp fun n hn => ?_)
    rw [seqGroupLoop, hn.1]
    simp [Out.bind, skip, Token.is, he, hn.2]
  | .more (c := c) (x := x) (us := us) hc hx hcs =>
    intro acc e rest he
    have hc := seqComp_reads hc x (us ++ e :: rest) (.inl hx)
    have hcs := seqComps_reads hcs (acc ++ [c]) e rest he
    refine Ev.step ((hc.and hcs).imp fun n hn => ?_)
    rw [List.append_assoc, List.cons_append, seqGroupLoop, hn.1]
    simp [Out.bind, skip, Token.is, hx, hn.2]
termination_by structural h

theorem choiceItems_reads {k cs gs bs x ts} (h : ChoiceItems k cs gs bs x ts) :
    ∀ root groups bare (e : Token) rest, e.type = .curlyEnd → (k < 2 → bare = []) →
      (Ev fun n => choiceLoop n root groups bare (min k 1) (ts ++ e :: rest) =
        .ok (.choice (root ++ cs) (additionsOf x (groups ++ gs) (bare ++ bs)), rest)) ∧
      ∀ c : Token, c.type = .comma →
        Ev fun n => choiceAfter n root groups bare (min k 1) (c :: (ts ++ e :: rest)) =
          .ok (.choice (root ++ cs) (additionsOf x (groups ++ gs) (bare ++ bs)), rest) := by
  match h with
  | .root (c := c) hc hm =>
    intro root groups bare e rest he hb
    obtain ⟨z, vs, hz, hzs⟩ := choiceMore_head hm e he rest
    have hm := choiceMore_reads hm (root ++ [c]) groups bare e rest he hb
    obtain ⟨i, ws, hi, hit⟩ := comp_head hc
    have hc := comp_reads hc z vs hzs
    rw [hz] at hm
    rw [List.append_assoc, hz]
    have := choiceLoop_of_root hzs.ne_group hc hm
    simp only [List.append_assoc, List.cons_append, List.nil_append] at this
    refine ⟨this, fun d hd => ?_⟩
    subst hi
    exact choiceAfter_comma hd (by simp [hit]) (by simp [hit]) this
  | .bare (k := k) (c := c) hk hc hm =>
    intro root groups bare e rest he hb
    obtain ⟨z, vs, hz, hzs⟩ := choiceMore_head hm e he rest
    have hm := choiceMore_reads hm root groups (bare ++ [c]) e rest he (by omega)
    obtain ⟨i, ws, hi, hit⟩ := comp_head hc
    have hc := comp_reads hc z vs hzs
    rw [hz] at hm
    rw [List.append_assoc, hz, show min k 1 = 1 by omega]
    have := choiceLoop_of_bare hzs.ne_group hc hm
    simp only [List.append_assoc, List.cons_append, List.nil_append] at this
    refine ⟨this, fun d hd => ?_⟩
    subst hi
    exact choiceAfter_comma hd (by simp [hit]) (by simp [hit]) this
  | .group (g := g) (us := us) hg hm =>
    intro root groups bare e rest he hb
    have hm := choiceMore_reads hm root (groups ++ [g]) bare e rest he hb
    obtain ⟨i, ws, hi, hit⟩ := choiceGroup_head hg
    have hg := choiceGroup_reads hg (us ++ e :: rest)
    subst hi
    rw [List.append_assoc]
    have := choiceLoop_of_group hit hg hm
    simp only [List.append_assoc, List.cons_append, List.nil_append] at this
    refine ⟨this, fun d hd => ?_⟩
    exact choiceAfter_comma hd (by simp [hit]) (by simp [hit]) this
  | .marker hx hm =>
    intro root groups bare e rest he hb
    have key := choiceMarker_reads hm root groups bare _ e rest hx rfl he (hb (by omega))
    exact ⟨choiceLoop_of_after (by simp [hx]) (by simp [hx]) key.1, key.2⟩
termination_by structural h

theorem choiceMore_reads {k cs gs bs x ts} (h : ChoiceMore k cs gs bs x ts) :
    ∀ root groups bare (e : Token) rest, e.type = .curlyEnd → (k < 2 → bare = []) →
      Ev fun n => choiceAfter n root groups bare (min k 1) (ts ++ e :: rest) =
        .ok (.choice (root ++ cs) (additionsOf x (groups ++ gs) (bare ++ bs)), rest) := by
  match h with
  | .done (k := k) =>
    intro root groups bare e rest he hb
    have := choiceAfter_end (root := root) (groups := groups) (bare := bare) (m := min k 1) (rest := rest) he
    have ha : choiceAdditions (min k 1) groups bare = additionsOf (0 < k) groups bare := by
      unfold choiceAdditions additionsOf
      by_cases hk : 0 < k
      · rw [if_pos (by omega)]
        simp only [hk, decide_true, if_true]
        cases bare <;> simp
      · rw [if_neg (by omega)]
        simp [hk]
    rw [ha] at this
    simpa using this
  | .more hc hi =>
    intro root groups bare e rest he hb
    exact (choiceItems_reads hi root groups bare e rest he hb).2 _ hc
termination_by structural h

theorem choiceMarker_reads {k cs gs bs x ts} (h : ChoiceMore k cs gs bs x ts) :
    ∀ root groups bare (m e : Token) rest, m.type = .extension → k = 1 → e.type = .curlyEnd → bare = [] →
      (Ev fun n => choiceAfter n root groups bare 0 (m :: (ts ++ e :: rest)) =
        .ok (.choice (root ++ cs) (additionsOf x (groups ++ gs) (bare ++ bs)), rest)) ∧
      ∀ c : Token, c.type = .comma →
        Ev fun n => choiceAfter n root groups bare 0 (c :: m :: (ts ++ e :: rest)) =
          .ok (.choice (root ++ cs) (additionsOf x (groups ++ gs) (bare ++ bs)), rest) := by
  match h with
  | .done =>
    intro root groups bare m e rest hm hk he hb
    subst hk hb
    simpa [choiceAdditions, additionsOf] using
      choiceAfter_marker_end (root := root) (groups := groups) (bare := []) (rest := rest) hm he
  | .more hc hi =>
    intro root groups bare m e rest hm hk he hb
    obtain ⟨z, vs, hz, hz'⟩ := choiceItems_head hi
    have := (choiceItems_reads hi root groups bare e rest he (fun _ => hb)).1
    subst hz hk
    exact choiceAfter_marker hm hc hz' this
termination_by structural h

theorem comp_reads {c ts} (h : CompNote c ts) : ∀ (z : Token) rest, CompStop z →
    Ev fun n => parseComponent n (ts ++ z :: rest) = .ok (c, z :: rest) := by
  match h with
  | .mk hx ht =>
    intro z rest hz
    have ht := type_reads ht (z :: rest) (hz.stop rest)
    refine Ev.step (ht.imp fun n hn => ?_)
    simp [parseComponent, need, hx.isValueRef, hx.text, Out.bind, hn]
termination_by structural h

theorem choiceGroup_reads {g ts} (h : ChoiceGroupNote g ts) :
    ∀ rest, Ev fun n => parseChoiceGroup n (ts ++ rest) = .ok (g, rest) := by
  match h with
  | .mk (ts := ts) (cs := cs) (us := us) (e := e) hb hv hc he =>
    intro rest
    obtain ⟨i, vs, hi, hit⟩ := comps_head hc
    have hne : cs.isEmpty = false := by cases hc <;> rfl
    have hc := comps_reads hc [] e rest he
    subst hi
    refine Ev.step (hc.imp fun n hn => ?_)
    simp only [List.cons_append, List.append_assoc, List.nil_append] at *
    simp [parseChoiceGroup, need, Token.is, hb, Out.bind, choiceVersion_reads hv i _ (by simp [hit]), hn, hne]
termination_by structural h

theorem comps_reads {cs ts} (h : Comps cs ts) :
    ∀ acc (e : Token) rest, e.type = .additionGroupsEnd →
      Ev fun n => choiceGroupLoop n acc (ts ++ e :: rest) = .ok (acc ++ cs, rest) := by
  match h with
  | .one hc =>
    intro acc e rest he
    have hc := comp_reads hc e rest (.inr (.inr he))
    refine Ev.step (hc.imp fun n hn => ?_)
    simp [choiceGroupLoop, hn, Out.attempt, Out.bind, skip, Token.is, he]
  | .more (c := c) (x := x) (us := us) hc hx hcs =>
    intro acc e rest he
    obtain ⟨i, vs, hi, hit⟩ := comps_head hcs
    have hc := comp_reads hc x (us ++ e :: rest) (.inl hx)
    have hcs := comps_reads hcs (acc ++ [c]) e rest he
    subst hi
    refine Ev.step ((hc.and hcs).imp fun n hn => ?_)
    rw [List.append_assoc, List.cons_append, choiceGroupLoop, hn.1]
    have hn := hn.2
    simp only [List.cons_append] at *
    simp [Out.bind, Out.attempt, skip, Token.is, hx, hit, hn]
termination_by structural h

theorem constraints_reads {cs ts} (h : ConstraintsNote cs ts) :
    ∀ rest : Tokens, (∀ t ∈ rest.head?, t.type ≠ .roundBegin) →
      Ev fun n => parseConstraints n (ts ++ rest) = .ok (cs, rest) := by
  match h with
  | .nil => exact fun rest hr => constraints_stops hr
  | .cons (us := us) h1 h2 =>
    intro rest hr
    refine Ev.step (((constraint_reads h1 (us ++ rest)).and (constraints_reads h2 rest hr)).imp fun n hn => ?_)
    rw [List.append_assoc, parseConstraints, hn.1]
    simp [Out.bind, Out.attempt, hn.2]
termination_by structural h

theorem constraint_reads {c ts} (h : ConstraintNote c ts) :
    ∀ rest, Ev fun n => parseConstraint n (ts ++ rest) = .ok (c, rest) := by
  match h with
  | .subtype hs =>
    intro rest
    refine Ev.step ((set_reads hs rest).imp fun n hn => ?_)
    rw [parseConstraint, hn]
    simp [Out.attempt, Out.bind]
  | .relation (i := i) (e := e) (z := z) ha hb hx hc hd hi he hz =>
    intro rest
    refine Ev.step ((relation_not_set ha hb hx hc hd (i :: e :: z :: rest)).imp fun n hn => ?_)
    simp only [List.cons_append, List.nil_append]
    rw [parseConstraint, hn]
    simp [Out.attempt, Out.bind, parseTable, need, expectAll_three, Token.is, ha, hb, hx.isTypeRef, hc, hd, hi,
      he, hz, hx.text]
  | .containing (t := t) (z := z) ha hc hx hz =>
    intro rest
    refine Ev.step ((containing_not_set ha hc (t :: z :: rest)).imp fun n hn => ?_)
    simp only [List.cons_append, List.nil_append]
    rw [parseConstraint, hn]
    simp [Out.attempt, Out.bind, parseTable, parseContents, need, expectAll_three, Token.is, ha, hc.type,
      hc.isKeyword, hx.isTypeRef, hz, hx.text]
termination_by structural h

theorem set_reads {e ts} (h : SetNote e ts) :
    ∀ rest, Ev fun n => parseElementSet n (ts ++ rest) = .ok (e, rest) := by
  match h with
  | .closed (us := us) (e := e) hb hu he =>
    intro rest
    have hne : us.isEmpty = false := by cases hu <;> rfl
    refine Ev.step ((union_reads hu [] e rest (.inr he)).imp fun n hn => ?_)
    simp only [List.cons_append, List.append_assoc, List.nil_append] at *
    simp [parseElementSet, need, skip, Token.is, hb, Out.bind, hn, hne, he]
  | .extensible (us := us) (c := c) (x := x) (e := e) hb hu hc hx he het =>
    intro rest
    have hne : us.isEmpty = false := by cases hu <;> rfl
    have hs := SetStop.is (z := e) (.inr he)
    have h2 : Ev fun n => unionLoop n [] (e :: rest) = .ok ([], e :: rest) := by
      refine Ev.step (Ev.step ((elements_stops (.inl ⟨he, het⟩) rest).imp fun n hn => ?_))
      simp [unionLoop, interLoop, hn, Out.attempt, Out.bind, skip, hs]
    refine Ev.step (((union_reads hu [] c (x :: e :: rest) (.inl hc)).and h2).imp fun n hn => ?_)
    simp only [List.cons_append, List.append_assoc, List.nil_append] at *
    simp [parseElementSet, need, skip, Token.is, hb, Out.bind, hn, hne, hc, hx, he, Out.attempt]
  | .extended (us := us) (c := c) (x := x) (d := d) (ss := ss) (e := e) hb hu hc hx hd hw he =>
    intro rest
    have hne : us.isEmpty = false := by cases hu <;> rfl
    refine Ev.step (((union_reads hu [] c (x :: d :: (ss ++ e :: rest)) (.inl hc)).and
      (union_reads hw [] e rest (.inr he))).imp fun n hn => ?_)
    simp only [List.cons_append, List.append_assoc, List.nil_append] at *
    simp [parseElementSet, need, skip, Token.is, hb, Out.bind, hn, hne, hc, hx, hd, he, Out.attempt]
termination_by structural h

theorem union_reads {us ts} (h : UnionNote us ts) : ∀ acc (z : Token) rest, SetStop z →
    Ev fun n => unionLoop n acc (ts ++ z :: rest) = .ok (acc ++ us, z :: rest) := by
  match h with
  | .one (is := is) hi =>
    intro acc z rest hz
    have hne : is.isEmpty = false := by cases hi <;> rfl
    refine Ev.step ((inter_reads hi [] false z rest hz.elStop hz.is.2).imp fun n hn => ?_)
    rw [unionLoop, hn]
    simp [Out.bind, skip, hz.is.1, hne]
  | .more (is := is) (u := u) (ss := ss) hi hu hr =>
    intro acc z rest hz
    have hne : is.isEmpty = false := by cases hi <;> rfl
    refine Ev.step (((inter_reads hi [] false u (ss ++ z :: rest) hu.elStop hu.is.2).and
      (union_reads hr (acc ++ [is]) z rest hz)).imp fun n hn => ?_)
    rw [List.append_assoc, List.cons_append, unionLoop, hn.1]
    simp [Out.bind, skip, hu.is.1, hne, hn.2]
termination_by structural h

theorem inter_reads {es ts} (h : InterNote es ts) :
    ∀ acc b (z : Token) rest, ElStop z → z.isIntersection = false →
      Ev fun n => interLoop n acc b (ts ++ z :: rest) = .ok (acc ++ es, z :: rest) := by
  match h with
  | .one he =>
    intro acc b z rest hz hi
    refine Ev.step ((elements_reads he z rest hz).imp fun n hn => ?_)
    rw [interLoop, hn]
    simp [Out.bind, Out.attempt, skip, hi]
  | .more (e := e) (s := s) (us := us) he hs hr =>
    intro acc b z rest hz hi
    refine Ev.step (((elements_reads he s (us ++ z :: rest) hs.elStop).and
      (inter_reads hr (acc ++ [e]) true z rest hz hi)).imp fun n hn => ?_)
    rw [List.append_assoc, List.cons_append, interLoop, hn.1]
    simp [Out.bind, Out.attempt, skip, hs.is, hn.2]
termination_by structural h

theorem elements_reads {e ts} (h : ElementsNote e ts) : ∀ (z : Token) rest, ElStop z →
    Ev fun n => parseElements n (ts ++ z :: rest) = .ok (e, z :: rest) := by
  match h with
  | .single hv => exact fun z rest hz => single_reads hv hz.1 hz.2.1 rest
  | .range h1 h2 h3 h4 h5 =>
    intro z rest hz
    have := range_reads h1 h2 h3 h4 h5 (z :: rest)
    obtain ⟨t, us, rfl, ht, hs, hf⟩ := endNote_head h1
    refine Ev.step (Ev.step (Ev.all fun n => ?_))
    simp only [List.cons_append, List.append_assoc] at *
    rw [parseElements, hs, hf, if_neg (by simp), parseElementsRest, this]
    simp [Out.attempt, Out.bind]
  | .size hs he =>
    intro z rest hz
    obtain ⟨b, us, hu, hb⟩ := set_head he
    have he := set_reads he (z :: rest)
    subst hu
    refine Ev.step (he.imp fun n hn => ?_)
    simp only [List.cons_append] at *
    simp [parseElements, hs.isKeyword, expect, Token.is, hb, Out.bind, hn]
  | .alphabet (s := s) hs he =>
    intro z rest hz
    obtain ⟨b, us, hu, hb⟩ := set_head he
    have he := set_reads he (z :: rest)
    have hs' : s.isKeyword "SIZE" = false := by simp [Token.isKeyword, hs.text]
    subst hu
    refine Ev.step (he.imp fun n hn => ?_)
    simp only [List.cons_append] at *
    simp [parseElements, hs.isKeyword, hs', expect, Token.is, hb, Out.bind, hn]
  | .contained (t := t) (ts := ts) ht hk =>
    intro z rest hz
    have ht := type_reads ht (z :: rest) (hz.stop rest)
    have hb : t.isBuiltin = true := by
      obtain ⟨n, hn⟩ := ht
      have := hn (n + 1) (by omega)
      have hi : t.type ≠ .identifier := by simp [hk]
      simp only [List.cons_append, parseType, not_isTypeRef hi, not_isClassRef hi, Bool.false_or,
        Bool.or_false] at this
      cases hb : t.isBuiltin with
      | true => rfl
      | false => rw [hb] at this; cases this
    have hw : ∀ w : String, w ∉ BUILTIN_TYPES → t.isKeyword w = false := by
      intro w hw
      simp only [Token.isKeyword, Bool.and_eq_false_imp, beq_eq_false_iff_ne]
      intro _ h
      simp only [Token.isBuiltin, List.any_eq_true] at hb
      obtain ⟨v, hv, hb⟩ := hb
      simp only [h, beq_iff_eq, String.toList_inj] at hb
      exact hw (hb ▸ hv)
    have h5 : parseValue (t :: (ts ++ z :: rest)) = .err .unexpectedToken := by
      simp [parseValue, Token.isSimpleValue, Token.is, hk]
    refine Ev.step (Ev.step (ht.imp fun n hn => ?_))
    simp only [List.cons_append] at *
    simp [parseElements, hw "SIZE" (by decide), hw "FROM" (by decide), parseElementsRest, parseRange,
      parseEndPoint, h5, need, hw "MIN" (by decide), hw "MAX" (by decide), expect, Token.is, hk, Out.attempt,
      Out.bind, hn]
termination_by structural h

end

end Hampi.Compiler
