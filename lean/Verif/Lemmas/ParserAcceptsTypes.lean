import Verif.Lemmas.ParserAccepts
/-!
# What the parser takes is in the notation that is accepted: types with components and constraints
-/
namespace Hampi.Compiler.Acc
open Hampi.Compiler.Spec

/-- What is said of the functions that call each other, for the bound `n`. -/
structure AccAt (n : Nat) : Prop where
  type : ∀ ts ty rest, parseType n ts = .ok (ty, rest) → Gen ts →
    ∃ t us, ts = t :: (us ++ rest) ∧ AccType ty (t :: us) ∧ (t.isTypeRef || t.isBuiltin || t.isClassRef) = true
  kind : ∀ t ts k rest, parseKind n t ts = .ok (k, rest) → Gen (t :: ts) →
    (t.isTypeRef || t.isBuiltin || t.isClassRef) = true → ∃ us, ts = us ++ rest ∧ AccKind k (t :: us)
  constraints : ∀ ts cs rest, parseConstraints n ts = .ok (cs, rest) → Gen ts → ∃ us, ts = us ++ rest ∧ AccConstraints cs us
  constraint : ∀ ts c rest, parseConstraint n ts = .ok (c, rest) → Gen ts → ∃ us, ts = us ++ rest ∧ AccConstraint c us
  elementSet : ∀ ts e rest, parseElementSet n ts = .ok (e, rest) → Gen ts → ∃ us, ts = us ++ rest ∧ AccSet e us
  unionLoop : ∀ sets ts r rest, Compiler.unionLoop n sets ts = .ok (r, rest) → Gen ts →
    ∃ us new, ts = us ++ rest ∧ r = sets ++ new ∧ AccUnion new us
  interLoop : ∀ es b ts r rest, Compiler.interLoop n es b ts = .ok (r, rest) → Gen ts →
    ∃ us new, ts = us ++ rest ∧ r = es ++ new ∧
      (AccElementsList new us ∨ (b = false ∧ (AccInter new us ∨ (new = [] ∧ us = []))))
  elements : ∀ ts e rest, parseElements n ts = .ok (e, rest) → Gen ts → ∃ us, ts = us ++ rest ∧ AccElements e us
  elementsRest : ∀ ts e rest, parseElementsRest n ts = .ok (e, rest) → Gen ts → ∃ us, ts = us ++ rest ∧ AccPart e us
  seqOrSeqOf : ∀ t ts k rest, parseSeqOrSeqOf n (t :: ts) = .ok (k, rest) → Gen (t :: ts) →
    ∃ us, ts = us ++ rest ∧ AccKind k (t :: us)
  seqLoop : ∀ root adds m ts k rest, Compiler.seqLoop n root adds m ts = .ok (k, rest) → Gen ts →
    ∃ us e cs gs j, ts = us ++ e :: rest ∧ e.type = .curlyEnd ∧ k = .sequence (root ++ cs) (adds ++ gs) (0 < j) ∧
      AccSeqItems m cs gs j us
  seqAfter : ∀ root adds m ts k rest, Compiler.seqAfter n root adds m ts = .ok (k, rest) → Gen ts →
    ∃ us e cs gs j, ts = us ++ e :: rest ∧ e.type = .curlyEnd ∧ k = .sequence (root ++ cs) (adds ++ gs) (0 < j) ∧
      AccSeqItems m cs gs j us
  seqOf : ∀ t ts k rest, parseSeqOf n ts = .ok (k, rest) → Word "SEQUENCE" t → Gen ts →
    ∃ us, ts = us ++ rest ∧ AccKind k (t :: us)
  seqComponent : ∀ ts c rest, parseSeqComponent n ts = .ok (c, rest) → Gen ts →
    (c = none ∧ rest = ts) ∨ ∃ x us, c = some x ∧ ts = us ++ rest ∧ AccSeqComp x us
  seqGroup : ∀ ts g rest, parseSeqGroup n ts = .ok (g, rest) → Gen ts → ∃ us, ts = us ++ rest ∧ AccSeqGroup g us
  seqGroupLoop : ∀ cs ts r rest, Compiler.seqGroupLoop n cs ts = .ok (r, rest) → Gen ts →
    ∃ us new, ts = us ++ rest ∧ r = cs ++ new ∧ AccSeqComps new us
  component : ∀ ts c rest, parseComponent n ts = .ok (c, rest) → Gen ts →
    ∃ us x i ty vs, ts = us ++ rest ∧ c = .mk x ty ∧ us = i :: vs ∧ LowerName x i ∧ AccType ty vs
  choice : ∀ t ts k rest, parseChoice n (t :: ts) = .ok (k, rest) → Gen (t :: ts) →
    ∃ us, ts = us ++ rest ∧ AccKind k (t :: us)
  choiceLoop : ∀ root groups bare (m : Bool) ts k rest,
    Compiler.choiceLoop n root groups bare m.toNat ts = .ok (k, rest) → Gen ts →
    ∃ us e cs gs bs x, ts = us ++ e :: rest ∧ e.type = .curlyEnd ∧
      k = .choice (root ++ cs) (additionsOf x (groups ++ gs) (bare ++ bs)) ∧ AccChoiceItems m cs gs bs x us
  choiceAfter : ∀ root groups bare (m : Bool) ts k rest,
    Compiler.choiceAfter n root groups bare m.toNat ts = .ok (k, rest) → Gen ts →
    ∃ us e cs gs bs x, ts = us ++ e :: rest ∧ e.type = .curlyEnd ∧
      k = .choice (root ++ cs) (additionsOf x (groups ++ gs) (bare ++ bs)) ∧ AccChoiceItems m cs gs bs x us
  choiceGroup : ∀ ts g rest, parseChoiceGroup n ts = .ok (g, rest) → Gen ts → ∃ us, ts = us ++ rest ∧ AccChoiceGroup g us
  choiceGroupLoop : ∀ cs ts r rest, Compiler.choiceGroupLoop n cs ts = .ok (r, rest) → Gen ts →
    ∃ us e new, ts = us ++ e :: rest ∧ e.type = .additionGroupsEnd ∧ r = cs ++ new ∧ AccComps new us

theorem AccAt.zero : AccAt 0 := by
  constructor <;> intros <;> rename_i h _ <;>
    simp [parseType, parseKind, parseConstraints, parseConstraint, parseElementSet, Compiler.unionLoop,
      Compiler.interLoop, parseElements, parseElementsRest, parseSeqOrSeqOf, Compiler.seqLoop, Compiler.seqAfter, parseSeqOf,
      parseSeqComponent, parseSeqGroup, Compiler.seqGroupLoop, parseComponent, parseChoice, Compiler.choiceLoop,
      Compiler.choiceAfter, parseChoiceGroup, Compiler.choiceGroupLoop] at *

theorem AccUnion.ne {is : List Elements} {ts : Tokens} (h : AccElementsList is ts) : is ≠ [] := by
  cases h <;> simp

theorem accInter_ne {is : List Elements} {ts : Tokens} (h : AccInter is ts) : is ≠ [] := by
  cases h with
  | plain h => exact AccUnion.ne h
  | led _ h => exact AccUnion.ne h

theorem AccSeqItems.perhaps {k : Nat} {cs gs j us vs} (h : Perhaps .comma us) (hi : AccSeqItems k cs gs j vs) :
    AccSeqItems k cs gs j (us ++ vs) := by
  cases h with
  | none => exact hi
  | some h => exact .comma h hi

theorem AccChoiceItems.perhaps {k : Bool} {cs gs bs x us vs} (h : Perhaps .comma us) (hi : AccChoiceItems k cs gs bs x vs) :
    AccChoiceItems k cs gs bs x (us ++ vs) := by
  cases h with
  | none => exact hi
  | some h => exact .comma h hi

/-- There are no root alternatives after `...`. -/
theorem accChoice_after {k cs gs bs x us} (h : AccChoiceItems k cs gs bs x us) (hk : k = true) : x = true ∧ cs = [] := by
  match h with
  | .done => exact ⟨hk, rfl⟩
  | .comma _ h => exact accChoice_after h hk
  | .marker _ _ => cases hk
  | .root _ _ => cases hk
  | .bare _ _ => exact ⟨rfl, rfl⟩
  | .group _ _ => exact ⟨rfl, rfl⟩

/-- A closing bracket starts no elements. -/
theorem union_at_end {n : Nat} {z : Token} {ts : Tokens} (g : Genuine z) (hz : z.type = .roundEnd) :
    ∀ e, Compiler.unionLoop n [] (z :: ts) ≠ .err e := by
  have hb : z.isBuiltin = false := by
    cases h : z.isBuiltin with
    | false => rfl
    | true =>
      obtain ⟨w, -, hw⟩ := builtin_of g h
      have := hw.1
      rw [hz] at this; cases this
  have hty : ∀ n, parseType n (z :: ts) = .diverge ∨ parseType n (z :: ts) = .err .unexpectedToken := by
    intro n
    cases n with
    | zero => exact .inl (by rw [parseType])
    | succ n => exact .inr (by simp [parseType, Token.isTypeRef, Token.isClassRef, hb, Token.is, hz])
  have hre : ∀ n, parseElementsRest n (z :: ts) = .diverge ∨ parseElementsRest n (z :: ts) = .err .parse := by
    intro n
    cases n with
    | zero => exact .inl (by rw [parseElementsRest])
    | succ n =>
      rw [parseElementsRest]
      have h1 : parseRange (z :: ts) = .err .unexpectedToken := by
        simp [parseRange, parseEndPoint, parseValue, Token.isSimpleValue, Token.is, hz, Out.attempt, Out.bind, need,
          Token.isKeyword]
      have h2 : parseValue (z :: ts) = .err .unexpectedToken := by
        simp [parseValue, Token.isSimpleValue, Token.is, hz]
      simp only [h1, h2, Out.attempt, Out.bind, expect, Token.is, hz]
      rcases hty n with h | h <;> simp [h]
  have hel : ∀ n, parseElements n (z :: ts) = .diverge ∨ parseElements n (z :: ts) = .err .parse := by
    intro n
    cases n with
    | zero => exact .inl (by rw [parseElements])
    | succ n =>
      rw [parseElements]
      have h : (z.isKeyword "SIZE" || z.isKeyword "FROM") = false := by simp [Token.isKeyword, Token.is, hz]
      simp only [h]
      exact hre n
  have hin : ∀ n, Compiler.interLoop n [] false (z :: ts) = .diverge ∨
      Compiler.interLoop n [] false (z :: ts) = .ok ([], z :: ts) := by
    intro n
    cases n with
    | zero => exact .inl (by rw [Compiler.interLoop])
    | succ n =>
      rw [Compiler.interLoop]
      rcases hel n with h | h <;>
        simp [h, Out.attempt, Out.bind, skip, Token.isIntersection, Token.isKeyword, Token.is, hz]
  intro e
  cases n with
  | zero => simp [Compiler.unionLoop]
  | succ n =>
    rw [Compiler.unionLoop]
    rcases hin n with h | h <;>
      simp [h, Out.bind, skip, Token.isUnion, Token.isKeyword, Token.is, hz]

set_option maxHeartbeats 4000000 in
theorem AccAt.succ {n : Nat} (a : AccAt n) : AccAt (n + 1) where
  type := by
    intro ts ty rest h g
    cases ts with
    | nil => rw [parseType] at h; cases h
    | cons t ts =>
      rw [parseType] at h
      split at h
      · rename_i ht
        replace h := bind_ok h; obtain ⟨⟨k, r⟩, h1, h⟩ := h
        obtain ⟨us, rfl, hk⟩ := a.kind _ _ _ _ h1 g ht
        replace h := bind_ok h; obtain ⟨⟨cs, r⟩, h2, h⟩ := h
        obtain ⟨vs, rfl, hc⟩ := a.constraints _ _ _ h2 g.tail.right
        cases h
        exact ⟨t, us ++ vs, by simp, .mk hk hc, ht⟩
      · cases h
  kind := by
    intro t ts k rest h g ht
    have simple : (∃ us, ts = us ++ rest ∧ AccSimple k (t :: us)) → ∃ us, ts = us ++ rest ∧ AccKind k (t :: us) :=
      fun ⟨us, e, h⟩ => ⟨us, e, .simple h⟩
    have word : ∀ w ∈ typeWords, t.text = w.toList → Word w t := fun w hw e => ⟨g.head.word w hw e, e⟩
    rw [parseKind] at h
    split at h
    · exact simple (parseBitString_ok h)
    split at h
    · obtain ⟨rfl, u, rfl⟩ := twoWords_ok h
      exact simple ⟨[u], rfl, .octetString (word _ (by simp [typeWords]) ‹_›)⟩
    split at h
    · obtain ⟨rfl, u, rfl⟩ := twoWords_ok h
      exact simple ⟨[u], rfl, .characterString (word _ (by simp [typeWords]) ‹_›)⟩
    split at h
    · exact simple (parseEnumerated_ok h)
    split at h
    · exact simple (parseInteger_ok h)
    split at h
    · exact simple (parseObjectIdentifier_ok h)
    split at h
    · cases h
      exact simple ⟨[], rfl, .boolean (word _ (by simp [typeWords]) ‹_›)⟩
    split at h
    · cases h
      exact simple ⟨[], rfl, .null (word _ (by simp [typeWords]) ‹_›)⟩
    split at h
    · rename_i hs
      cases h
      simp only [isStringType, List.any_eq_true, beq_iff_eq] at hs
      obtain ⟨w, hw, e⟩ := hs
      refine simple ⟨[], rfl, ?_⟩
      rw [e]
      refine .string hw (word w ?_ e)
      simp only [List.mem_cons, List.not_mem_nil, or_false] at hw
      rcases hw with rfl | rfl | rfl | rfl <;> simp [typeWords]
    rename_i hs
    split at h
    · exact a.choice _ _ _ _ h g
    split at h
    · exact a.seqOrSeqOf _ _ _ _ h g
    · refine simple (parseReference_ok g ?_ h)
      simp only [Bool.or_eq_true] at ht
      rcases ht with (ht | ht) | ht
      · exact .inl ht
      · obtain ⟨w, hw, e⟩ := builtin_of g.head ht
        refine .inr ?_
        have e' := e.2
        simp only [typeWords, List.mem_cons, List.not_mem_nil, or_false] at hw
        simp only [isStringType, List.any_cons, List.any_nil, Bool.or_false, Bool.or_eq_true, beq_iff_eq, not_or] at hs
        rcases hw with rfl | rfl | rfl | rfl | rfl | rfl | rfl | rfl | rfl | rfl | rfl | rfl | rfl | rfl | rfl <;>
          first
            | exact e
            | exact absurd e' ‹_›
            | exact absurd e' hs.1
            | exact absurd e' hs.2.1
            | exact absurd e' hs.2.2.1
            | exact absurd e' hs.2.2.2
      · simp only [Token.isClassRef, Bool.and_eq_true] at ht
        exact .inl ht.1
  constraints := by
    intro ts cs rest h g
    rw [parseConstraints] at h
    replace h := attempt_ok h; rcases h with ⟨⟨c, r⟩, h1, h⟩ | ⟨-, h⟩
    · obtain ⟨us, rfl, hc⟩ := a.constraint _ _ _ h1 g
      replace h := bind_ok h; obtain ⟨⟨cs', r⟩, h2, h⟩ := h
      obtain ⟨vs, rfl, hcs⟩ := a.constraints _ _ _ h2 g.right
      cases h
      exact ⟨us ++ vs, by simp, .cons hc hcs⟩
    · cases h
      exact ⟨[], rfl, .nil⟩
  constraint := by
    intro ts c rest h g
    rw [parseConstraint] at h
    replace h := attempt_ok h; rcases h with ⟨⟨c, r⟩, h1, h⟩ | ⟨-, h⟩
    · obtain ⟨us, rfl, hc⟩ := a.elementSet _ _ _ h1 g
      cases h
      exact ⟨us, rfl, .subtype hc⟩
    · replace h := attempt_ok h; rcases h with ⟨⟨c, r⟩, h1, h⟩ | ⟨-, h⟩
      · cases h
        exact parseTable_ok g h1
      · replace h := attempt_ok h; rcases h with ⟨⟨c, r⟩, h1, h⟩ | ⟨-, h⟩
        · cases h
          exact parseContents_ok g h1
        · cases h
  elementSet := by
    intro ts e rest h g
    rw [parseElementSet] at h
    replace h := bind_ok h; obtain ⟨⟨b, r⟩, h1, h⟩ := h
    obtain ⟨rfl, hb⟩ := need_ok h1
    have hb := is_iff.mp hb
    replace h := bind_ok h; obtain ⟨⟨root, r⟩, h2, h⟩ := h
    obtain ⟨us, new, rfl, e', hu⟩ := a.unionLoop _ _ _ _ h2 g.tail
    rw [List.nil_append] at e'
    subst e'
    split at h
    · cases h
    · rename_i hne0
      have hne : root ≠ [] := by simpa using hne0
      clear hne0
      replace h := bind_ok h; obtain ⟨⟨c, r⟩, h3, h⟩ := h
      rcases skip_ok h3 with ⟨rfl, c, rfl, hc⟩ | ⟨rfl, rfl, -⟩
      · simp only [if_true] at h
        have hc := is_iff.mp hc
        replace h := bind_ok h; obtain ⟨⟨x, r⟩, h4, h⟩ := h
        obtain ⟨rfl, hx⟩ := need_ok h4
        have hx := is_iff.mp hx
        replace h := bind_ok h; obtain ⟨⟨d, r⟩, h5, h⟩ := h
        obtain ⟨ds, rfl, hd⟩ := perhaps_of h5
        have g5 := g.tail.right.tail.tail.right
        replace h := attempt_ok h; rcases h with ⟨⟨ws, r⟩, h6, h⟩ | ⟨⟨err, h6⟩, h⟩
        · obtain ⟨ss, new', rfl, e', hw⟩ := a.unionLoop _ _ _ _ h6 g5
          rw [List.nil_append] at e'
          subst e'
          replace h := bind_ok h; obtain ⟨⟨z, r⟩, h7, h⟩ := h
          obtain ⟨rfl, hz⟩ := need_ok h7
          cases h
          exact ⟨_, by simp, .extensible hb hu hne hc hx hd hw (is_iff.mp hz)⟩
        · replace h := bind_ok h; obtain ⟨⟨z, r⟩, h7, h⟩ := h
          obtain ⟨rfl, hz⟩ := need_ok h7
          exact (union_at_end g5.head (is_iff.mp hz) _ h6).elim
      · replace h := bind_ok h; obtain ⟨⟨z, r⟩, h7, h⟩ := h
        obtain ⟨rfl, hz⟩ := need_ok h7
        cases h
        exact ⟨_, by simp, .closed hb hu hne (is_iff.mp hz)⟩
  unionLoop := by
    intro sets ts r rest h g
    rw [Compiler.unionLoop] at h
    replace h := bind_ok h; obtain ⟨⟨is, r1⟩, h1, h⟩ := h
    obtain ⟨us, new, rfl, e, hi⟩ := a.interLoop _ _ _ _ _ h1 g
    rw [List.nil_append] at e
    subst e
    replace h := bind_ok h; obtain ⟨⟨u, r2⟩, h2, h⟩ := h
    have hi : AccInter is us ∨ (is = [] ∧ us = []) := by
      rcases hi with hi | ⟨-, hi⟩
      · exact .inl (.plain hi)
      · exact hi
    rcases skip_ok h2 with ⟨rfl, u, rfl, hu⟩ | ⟨rfl, rfl, -⟩
    · simp only [if_true] at h
      obtain ⟨vs, new, rfl, rfl, hn⟩ := a.unionLoop _ _ _ _ h g.right.tail
      have hu := union_of hu
      rcases hi with hi | ⟨rfl, rfl⟩
      · have : is.isEmpty = false := by simpa using accInter_ne hi
        exact ⟨us ++ u :: vs, is :: new, by simp, by simp [this], .more hi hu hn⟩
      · exact ⟨u :: vs, new, by simp, by simp, .sign hu hn⟩
    · cases h
      rcases hi with hi | ⟨rfl, rfl⟩
      · have : is.isEmpty = false := by simpa using accInter_ne hi
        exact ⟨us, [is], rfl, by simp [this], .one hi⟩
      · exact ⟨[], [], rfl, by simp, .nil⟩
  interLoop := by
    intro es b ts r rest h g
    rw [Compiler.interLoop] at h
    replace h := attempt_ok h; rcases h with ⟨⟨e, r1⟩, h1, h⟩ | ⟨-, h⟩
    · obtain ⟨us, rfl, he⟩ := a.elements _ _ _ h1 g
      replace h := bind_ok h; obtain ⟨⟨c, r2⟩, h2, h⟩ := h
      rcases skip_ok h2 with ⟨rfl, c, rfl, hc⟩ | ⟨rfl, rfl, -⟩
      · simp only [if_true] at h
        obtain ⟨vs, new, rfl, rfl, hn⟩ := a.interLoop _ _ _ _ _ h g.right.tail
        rcases hn with hn | ⟨h0, -⟩
        · exact ⟨us ++ c :: vs, e :: new, by simp, by simp, .inl (.more he (inter_of hc) hn)⟩
        · cases h0
      · cases h
        exact ⟨us, [e], rfl, rfl, .inl (.one he)⟩
    · cases b with
      | true => cases h
      | false =>
        simp only [Bool.false_eq_true, if_false] at h
        replace h := bind_ok h; obtain ⟨⟨c, r2⟩, h2, h⟩ := h
        rcases skip_ok h2 with ⟨rfl, c, rfl, hc⟩ | ⟨rfl, rfl, -⟩
        · simp only [if_true] at h
          obtain ⟨vs, new, rfl, rfl, hn⟩ := a.interLoop _ _ _ _ _ h g.tail
          rcases hn with hn | ⟨h0, -⟩
          · exact ⟨c :: vs, new, rfl, rfl, .inr ⟨rfl, .inl (.led (inter_of hc) hn)⟩⟩
          · cases h0
        · cases h
          exact ⟨[], [], rfl, by simp, .inr ⟨rfl, .inr ⟨rfl, rfl⟩⟩⟩
  elements := by
    intro ts e rest h g
    cases ts with
    | nil => rw [parseElements] at h; cases h
    | cons t ts =>
      rw [parseElements] at h
      split at h
      · rename_i ht
        replace h := bind_ok h; obtain ⟨b, h1, h⟩ := h
        cases b with
        | true =>
          simp only [if_true] at h
          replace h := bind_ok h; obtain ⟨⟨s, r⟩, h2, h⟩ := h
          obtain ⟨us, rfl, hs⟩ := a.elementSet _ _ _ h2 g.tail
          cases h
          refine ⟨t :: us, rfl, ?_⟩
          split
          · exact .size (word_of ‹_›) hs
          · simp only [Bool.or_eq_true] at ht
            rcases ht with ht | ht
            · exact absurd ht ‹_›
            · exact .alphabet (word_of ht) hs
        | false =>
          obtain ⟨u, us, rfl, hu⟩ := expect_ok h1
          simp only [Bool.false_eq_true, if_false] at h
          obtain ⟨vs, e', hp⟩ := a.elementsRest _ _ _ h g.tail
          refine ⟨t :: vs, by rw [e']; rfl, .ignored ?_ ?_ hp⟩
          · simp only [Bool.or_eq_true] at ht
            exact ht.imp word_of word_of
          · cases vs with
            | nil => simp
            | cons v vs =>
              cases e'
              intro t' ht'
              cases ht'
              intro h0
              rw [is_iff.mpr h0] at hu
              cases hu
      · obtain ⟨vs, e', hp⟩ := a.elementsRest _ _ _ h g
        exact ⟨vs, e', .part hp⟩
  elementsRest := by
    intro ts e rest h g
    rw [parseElementsRest] at h
    replace h := attempt_ok h; rcases h with ⟨⟨e, r1⟩, h1, h⟩ | ⟨-, h⟩
    · cases h
      exact parseRange_ok h1
    · replace h := bind_ok h; obtain ⟨b, h1, h⟩ := h
      cases b with
      | true =>
        simp only [if_true] at h
        replace h := bind_ok h; obtain ⟨⟨s, r⟩, h2, h⟩ := h
        obtain ⟨us, rfl, hs⟩ := a.elementSet _ _ _ h2 g
        cases h
        exact ⟨us, rfl, .set hs⟩
      | false =>
        simp only [Bool.false_eq_true, if_false] at h
        replace h := attempt_ok h; rcases h with ⟨⟨v, r1⟩, h2, h⟩ | ⟨⟨err, h2⟩, h⟩
        · cases h
          obtain ⟨t, us, rfl, -, hv⟩ := parseValue_ok h2
          refine ⟨t :: us, rfl, .single (hv ?_)⟩
          intro h0
          rw [expect, is_iff.mpr h0] at h1
          cases h1
        · replace h := attempt_ok h; rcases h with ⟨⟨v, r1⟩, h3, h⟩ | ⟨-, h⟩
          · cases h
            obtain ⟨t, us, rfl, hty, ht⟩ := a.type _ _ _ h3 g
            refine ⟨t :: us, rfl, .contained hty ?_⟩
            simp only [Bool.or_eq_true] at ht
            have hnot : t.type ≠ .identifier := by
              intro h0
              rw [parseValue] at h2
              simp [Token.isSimpleValue, Token.is, h0] at h2
            rcases ht with (ht | ht) | ht
            · simp only [Token.isTypeRef, Bool.and_eq_true, is_iff] at ht
              exact (hnot ht.1).elim
            · obtain ⟨w, -, hw⟩ := builtin_of g.head ht
              exact hw.1
            · simp only [Token.isClassRef, Token.isTypeRef, Bool.and_eq_true, is_iff] at ht
              exact (hnot ht.1.1).elim
          · cases h
  seqOrSeqOf := by
    intro t ts k rest h g
    rw [parseSeqOrSeqOf] at h
    replace h := bind_ok h; obtain ⟨⟨t', r⟩, h1, h⟩ := h
    obtain ⟨e, ht⟩ := need_ok h1
    cases e
    have ht := word_of ht
    replace h := bind_ok h; obtain ⟨b, h2, h⟩ := h
    cases b with
    | true =>
      simp only [if_true] at h
      replace h := bind_ok h; obtain ⟨⟨b, r⟩, h3, h⟩ := h
      obtain ⟨rfl, hb⟩ := need_ok h3
      obtain ⟨us, e, cs, gs, j, rfl, he, rfl, hi⟩ := a.seqLoop _ _ _ _ _ _ h g.tail.tail
      exact ⟨b :: (us ++ [e]), by simp, .sequence ht (is_iff.mp hb) hi he⟩
    | false => exact a.seqOf _ _ _ _ h ht g.tail
  seqLoop := by
    intro root adds m ts k rest h g
    rw [Compiler.seqLoop] at h
    have key : ∀ (c : Option SeqComponent) (r us : Tokens), ts = us ++ r →
        ((c = none ∧ us = []) ∨ ∃ x, c = some x ∧ AccSeqComp x us) →
        ((expect (Token.is .additionGroupsBegin) r).bind fun b =>
          if b then
            if m = 1 then (parseSeqGroup n r).bind fun g => Compiler.seqAfter n (root ++ c.toList) (adds ++ [g.1]) m g.2
            else .err .parse
          else Compiler.seqAfter n (root ++ c.toList) adds m r) = .ok (k, rest) →
        ∃ us e cs gs j, ts = us ++ e :: rest ∧ e.type = .curlyEnd ∧ k = .sequence (root ++ cs) (adds ++ gs) (0 < j) ∧
          AccSeqItems m cs gs j us := by
      clear h
      intro c r us ets hc h
      subst ets
      replace h := bind_ok h; obtain ⟨b, h2, h⟩ := h
      have fin : ∀ {vs e cs gs j}, r = vs ++ e :: rest → e.type = TokenType.curlyEnd →
          k = .sequence (root ++ c.toList ++ cs) (adds ++ gs) (0 < j) → AccSeqItems m cs gs j vs →
          ∃ us' e cs gs j, us ++ r = us' ++ e :: rest ∧ e.type = .curlyEnd ∧
            k = .sequence (root ++ cs) (adds ++ gs) (0 < j) ∧ AccSeqItems m cs gs j us' := by
        intro vs e cs gs j e1 he ek hi
        subst e1
        rcases hc with ⟨rfl, rfl⟩ | ⟨x, rfl, hx⟩
        · exact ⟨vs, e, cs, gs, j, rfl, he, by simpa using ek, hi⟩
        · exact ⟨us ++ vs, e, x :: cs, gs, j, by simp, he, by simpa using ek, .component hx hi⟩
      cases b with
      | true =>
        simp only [if_true] at h
        split at h
        · rename_i hm
          replace h := bind_ok h; obtain ⟨⟨gr, r'⟩, h3, h⟩ := h
          obtain ⟨ws, rfl, hg⟩ := a.seqGroup _ _ _ h3 g.right
          obtain ⟨vs, e, cs, gs, j, rfl, he, ek, hi⟩ := a.seqAfter _ _ _ _ _ _ h g.right.right
          subst hm
          exact fin (vs := ws ++ vs) (gs := gr :: gs) (by simp) he (by simpa using ek) (.group hg hi)
        · cases h
      | false =>
        simp only [Bool.false_eq_true, if_false] at h
        obtain ⟨vs, e, cs, gs, j, e1, he, ek, hi⟩ := a.seqAfter _ _ _ _ _ _ h g.right
        exact fin e1 he ek hi
    replace h := attempt_ok h; rcases h with ⟨⟨c, r⟩, h1, h⟩ | ⟨-, h⟩
    · rcases a.seqComponent _ _ _ h1 g with ⟨rfl, rfl⟩ | ⟨x, us, rfl, rfl, hx⟩
      · exact key none r [] rfl (.inl ⟨rfl, rfl⟩) h
      · exact key (some x) r us rfl (.inr ⟨x, rfl, hx⟩) h
    · exact key none ts [] rfl (.inl ⟨rfl, rfl⟩) h
  seqAfter := by
    intro root adds m ts k rest h g
    rw [Compiler.seqAfter] at h
    replace h := bind_ok h; obtain ⟨⟨c, r⟩, h1, h⟩ := h
    obtain ⟨us, rfl, hc⟩ := perhaps_of h1
    replace h := bind_ok h; obtain ⟨⟨x, r2⟩, h2, h⟩ := h
    replace h := bind_ok h; obtain ⟨⟨z, r3⟩, h3, h⟩ := h
    have hm : ∃ ws, r = ws ++ r2 ∧ ∀ {cs gs j vs}, AccSeqItems (m + x.toNat) cs gs j vs →
        AccSeqItems m cs gs j (us ++ (ws ++ vs)) := by
      rcases parseMarker_ok h2 with ⟨rfl, y, ds, rfl, hy, hd⟩ | ⟨rfl, rfl⟩
      · exact ⟨y :: ds, rfl, fun hi => AccSeqItems.perhaps hc (.marker hy (AccSeqItems.perhaps hd hi))⟩
      · exact ⟨[], rfl, fun hi => AccSeqItems.perhaps hc hi⟩
    obtain ⟨ws, rfl, hm⟩ := hm
    rcases skip_ok h3 with ⟨rfl, e, rfl, he⟩ | ⟨rfl, rfl, -⟩
    · cases h
      exact ⟨us ++ (ws ++ []), e, [], [], m + x.toNat, by simp, is_iff.mp he, by simp, hm .done⟩
    · simp only [Bool.false_eq_true, if_false] at h
      obtain ⟨vs, e, cs, gs, j, rfl, he, rfl, hi⟩ := a.seqLoop _ _ _ _ _ _ h g.right.right
      exact ⟨us ++ (ws ++ vs), e, cs, gs, j, by simp, he, rfl, hm hi⟩
  seqOf := by
    intro t ts k rest h ht g
    rw [parseSeqOf] at h
    replace h := attempt_ok h; rcases h with ⟨⟨c, r⟩, h1, h⟩ | ⟨-, h⟩
    · obtain ⟨us, rfl, hc⟩ := a.constraint _ _ _ h1 g
      replace h := bind_ok h; obtain ⟨⟨o, r⟩, h2, h⟩ := h
      obtain ⟨e, ho⟩ := need_ok h2
      simp only [Option.map_some, Option.getD_some] at e
      subst e
      replace h := bind_ok h; obtain ⟨⟨ty, r'⟩, h3, h⟩ := h
      cases h
      obtain ⟨v, vs, rfl, hty, -⟩ := a.type _ _ _ h3 g.right.tail
      exact ⟨us ++ o :: v :: vs, by simp, .sizedSequenceOf ht hc (word_of ho) hty⟩
    · replace h := bind_ok h; obtain ⟨⟨o, r⟩, h2, h⟩ := h
      obtain ⟨e, ho⟩ := need_ok h2
      simp only [Option.map_none, Option.getD_none] at e
      subst e
      replace h := bind_ok h; obtain ⟨⟨ty, r'⟩, h3, h⟩ := h
      cases h
      obtain ⟨v, vs, rfl, hty, -⟩ := a.type _ _ _ h3 g.tail
      exact ⟨o :: v :: vs, by simp, .sequenceOf ht (word_of ho) hty⟩
  seqComponent := by
    intro ts c rest h g
    rw [parseSeqComponent] at h
    replace h := attempt_ok h; rcases h with ⟨⟨c, r⟩, h1, h⟩ | ⟨-, h⟩
    · obtain ⟨_, x, i, ty, vs, rfl, rfl, rfl, hi, hty⟩ := a.component _ _ _ h1 g
      replace h := bind_ok h; obtain ⟨⟨⟨o, d⟩, r'⟩, h2, h⟩ := h
      cases h
      obtain ⟨ws, rfl, hc⟩ := parsePresence_ok hi hty h2
      exact .inr ⟨_, i :: (vs ++ ws), rfl, by simp, hc⟩
    · cases h
      exact .inl ⟨rfl, rfl⟩
  seqGroup := by
    intro ts gr rest h g
    rw [parseSeqGroup] at h
    replace h := bind_ok h; obtain ⟨⟨b, r⟩, h1, h⟩ := h
    obtain ⟨rfl, hb⟩ := need_ok h1
    replace h := bind_ok h; obtain ⟨⟨v, r⟩, h2, h⟩ := h
    obtain ⟨us, rfl, hv⟩ := parseSeqVersion_ok h2
    replace h := bind_ok h; obtain ⟨⟨cs, r⟩, h3, h⟩ := h
    obtain ⟨vs, new, rfl, e, hc⟩ := a.seqGroupLoop _ _ _ _ h3 g.tail.right
    rw [List.nil_append] at e
    subst e
    split at h
    · cases h
    · rename_i hne
      replace h := bind_ok h; obtain ⟨⟨z, r⟩, h4, h⟩ := h
      obtain ⟨rfl, hz⟩ := need_ok h4
      cases h
      exact ⟨b :: (us ++ (vs ++ [z])), by simp, .mk (is_iff.mp hb) hv hc (by simpa using hne) (is_iff.mp hz)⟩
  seqGroupLoop := by
    intro cs ts r rest h g
    rw [Compiler.seqGroupLoop] at h
    replace h := bind_ok h; obtain ⟨⟨c, r1⟩, h1, h⟩ := h
    rcases a.seqComponent _ _ _ h1 g with ⟨rfl, rfl⟩ | ⟨x, us, rfl, rfl, hx⟩
    · cases h
      exact ⟨[], [], rfl, by simp, .nil⟩
    · simp only at h
      replace h := bind_ok h; obtain ⟨⟨d, r2⟩, h2, h⟩ := h
      obtain ⟨ms, rfl, hm⟩ := perhaps_of h2
      obtain ⟨vs, new, rfl, rfl, hn⟩ := a.seqGroupLoop _ _ _ _ h g.right.right
      exact ⟨us ++ (ms ++ vs), x :: new, by simp, by simp, .cons hx hm hn⟩
  component := by
    intro ts c rest h g
    rw [parseComponent] at h
    replace h := bind_ok h; obtain ⟨⟨i, r⟩, h1, h⟩ := h
    obtain ⟨rfl, hi⟩ := need_ok h1
    replace h := bind_ok h; obtain ⟨⟨ty, r⟩, h2, h⟩ := h
    cases h
    obtain ⟨v, vs, rfl, hty, -⟩ := a.type _ _ _ h2 g.tail
    exact ⟨i :: v :: vs, i.text, i, ty, v :: vs, rfl, rfl, rfl, lower_of hi, hty⟩
  choice := by
    intro t ts k rest h g
    rw [parseChoice] at h
    replace h := bind_ok h; obtain ⟨⟨t', r⟩, h1, h⟩ := h
    obtain ⟨e, ht⟩ := need_ok h1
    cases e
    replace h := bind_ok h; obtain ⟨⟨b, r⟩, h3, h⟩ := h
    obtain ⟨rfl, hb⟩ := need_ok h3
    obtain ⟨us, e, cs, gs, bs, x, rfl, he, rfl, hi⟩ := a.choiceLoop [] [] [] false _ _ _ h g.tail.tail
    exact ⟨b :: (us ++ [e]), by simp, .choice (word_of ht) (is_iff.mp hb) hi he⟩
  choiceLoop := by
    intro root groups bare m ts k rest h g
    rw [Compiler.choiceLoop] at h
    have key : ∀ (c : Option Component) (r us : Tokens), ts = us ++ r →
        ((c = none ∧ us = []) ∨ ∃ x, c = some x ∧ AccComp x us) →
        ((expect (Token.is .additionGroupsBegin) r).bind fun b =>
          if b then
            if m.toNat = 1 then
              (parseChoiceGroup n r).bind fun g =>
                Compiler.choiceAfter n (if 0 < m.toNat then root else root ++ c.toList) (groups ++ [g.1])
                  (if 0 < m.toNat then bare ++ c.toList else bare) m.toNat g.2
            else .err .parse
          else Compiler.choiceAfter n (if 0 < m.toNat then root else root ++ c.toList) groups
            (if 0 < m.toNat then bare ++ c.toList else bare) m.toNat r) = .ok (k, rest) →
        ∃ us e cs gs bs x, ts = us ++ e :: rest ∧ e.type = .curlyEnd ∧
          k = .choice (root ++ cs) (additionsOf x (groups ++ gs) (bare ++ bs)) ∧ AccChoiceItems m cs gs bs x us := by
      clear h
      intro c r us ets hc h
      subst ets
      replace h := bind_ok h; obtain ⟨b, h2, h⟩ := h
      have fin : ∀ {vs e cs gs bs x}, r = vs ++ e :: rest → e.type = TokenType.curlyEnd →
          k = .choice ((if 0 < m.toNat then root else root ++ c.toList) ++ cs)
            (additionsOf x (groups ++ gs) ((if 0 < m.toNat then bare ++ c.toList else bare) ++ bs)) →
          AccChoiceItems m cs gs bs x vs →
          ∃ us' e cs gs bs x, us ++ r = us' ++ e :: rest ∧ e.type = .curlyEnd ∧
            k = .choice (root ++ cs) (additionsOf x (groups ++ gs) (bare ++ bs)) ∧ AccChoiceItems m cs gs bs x us' := by
        intro vs e cs gs bs x e1 he ek hi
        subst e1
        rcases hc with ⟨rfl, rfl⟩ | ⟨y, rfl, hy⟩
        · exact ⟨vs, e, cs, gs, bs, x, rfl, he, by simpa using ek, hi⟩
        · cases m with
          | false => exact ⟨us ++ vs, e, y :: cs, gs, bs, x, by simp, he, by simpa using ek, .root hy hi⟩
          | true =>
            obtain ⟨rfl, rfl⟩ := accChoice_after hi rfl
            exact ⟨us ++ vs, e, [], gs, y :: bs, true, by simp, he, by simpa using ek, .bare hy hi⟩
      cases b with
      | true =>
        simp only [if_true] at h
        split at h
        · rename_i hm
          replace h := bind_ok h; obtain ⟨⟨gr, r'⟩, h3, h⟩ := h
          obtain ⟨ws, rfl, hg⟩ := a.choiceGroup _ _ _ h3 g.right
          obtain ⟨vs, e, cs, gs, bs, x, rfl, he, ek, hi⟩ := a.choiceAfter _ _ _ _ _ _ _ h g.right.right
          cases m with
          | false => cases hm
          | true =>
            obtain ⟨rfl, rfl⟩ := accChoice_after hi rfl
            exact fin (vs := ws ++ vs) (cs := []) (gs := gr :: gs) (by simp) he (by simpa using ek) (.group hg hi)
        · cases h
      | false =>
        simp only [Bool.false_eq_true, if_false] at h
        obtain ⟨vs, e, cs, gs, bs, x, e1, he, ek, hi⟩ := a.choiceAfter _ _ _ _ _ _ _ h g.right
        exact fin e1 he ek hi
    replace h := attempt_ok h; rcases h with ⟨⟨c, r⟩, h1, h⟩ | ⟨-, h⟩
    · obtain ⟨_, x, i, ty, vs, rfl, rfl, rfl, hi, hty⟩ := a.component _ _ _ h1 g
      exact key (some (.mk x ty)) r (i :: vs) rfl (.inr ⟨_, rfl, .mk hi hty⟩) h
    · exact key none ts [] rfl (.inl ⟨rfl, rfl⟩) h
  choiceAfter := by
    intro root groups bare m ts k rest h g
    rw [Compiler.choiceAfter] at h
    replace h := bind_ok h; obtain ⟨⟨c, r⟩, h1, h⟩ := h
    obtain ⟨us, rfl, hc⟩ := perhaps_of h1
    replace h := bind_ok h; obtain ⟨b, h2, h⟩ := h
    obtain ⟨y, ys, rfl, hy⟩ := expect_ok h2
    split at h
    · cases h
    · rename_i hb
      replace h := bind_ok h; obtain ⟨⟨x, r2⟩, h3, h⟩ := h
      replace h := bind_ok h; obtain ⟨⟨z, r3⟩, h4, h⟩ := h
      have hm : ∃ (m' : Bool) (ws : Tokens), y :: ys = ws ++ r2 ∧ m.toNat + x.toNat = m'.toNat ∧
          ∀ {cs gs bs x vs}, AccChoiceItems m' cs gs bs x vs → AccChoiceItems m cs gs bs x (us ++ (ws ++ vs)) := by
        rcases parseMarker_ok h3 with ⟨rfl, y', ds, e, hy', hd⟩ | ⟨rfl, rfl⟩
        · cases e
          have hb' : b = true := by rw [← hy]; exact is_iff.mpr hy'
          cases m with
          | true => simp [hb'] at hb
          | false =>
            refine ⟨true, y :: ds, rfl, rfl, ?_⟩
            intro cs gs bs x vs hi
            obtain ⟨rfl, rfl⟩ := accChoice_after hi rfl
            exact AccChoiceItems.perhaps hc (.marker hy' (AccChoiceItems.perhaps hd hi))
        · exact ⟨m, [], rfl, by simp, fun hi => AccChoiceItems.perhaps hc hi⟩
      obtain ⟨m', ws, e', em, hm⟩ := hm
      rw [em] at h
      rw [e']
      rw [e'] at g
      clear e'
      rcases skip_ok h4 with ⟨rfl, e, rfl, he⟩ | ⟨rfl, rfl, -⟩
      · cases h
        refine ⟨us ++ (ws ++ []), e, [], [], [], m', by simp, is_iff.mp he, ?_, hm .done⟩
        cases m' <;> simp [choiceAdditions, additionsOf]
        cases bare <;> simp
      · simp only [Bool.false_eq_true, if_false] at h
        obtain ⟨vs, e, cs, gs, bs, x, rfl, he, rfl, hi⟩ := a.choiceLoop _ _ _ _ _ _ _ h g.right.right
        exact ⟨us ++ (ws ++ vs), e, cs, gs, bs, x, by simp, he, rfl, hm hi⟩
  choiceGroup := by
    intro ts gr rest h g
    rw [parseChoiceGroup] at h
    replace h := bind_ok h; obtain ⟨⟨b, r⟩, h1, h⟩ := h
    obtain ⟨rfl, hb⟩ := need_ok h1
    replace h := bind_ok h; obtain ⟨⟨v, r⟩, h2, h⟩ := h
    obtain ⟨us, rfl, hv⟩ := parseChoiceVersion_ok h2
    replace h := bind_ok h; obtain ⟨⟨cs, r⟩, h3, h⟩ := h
    obtain ⟨vs, z, new, rfl, hz, e, hc⟩ := a.choiceGroupLoop _ _ _ _ h3 g.tail.right
    rw [List.nil_append] at e
    subst e
    split at h
    · cases h
    · rename_i hne
      cases h
      exact ⟨b :: (us ++ (vs ++ [z])), by simp, .mk (is_iff.mp hb) hv hc (by simpa using hne) hz⟩
  choiceGroupLoop := by
    intro cs ts r rest h g
    rw [Compiler.choiceGroupLoop] at h
    have key : ∀ (c : Option Component) (r1 us : Tokens), ts = us ++ r1 →
        ((c = none ∧ us = []) ∨ ∃ x, c = some x ∧ AccComp x us) →
        ((skip (Token.is .comma) r1).bind fun d =>
          (skip (Token.is .additionGroupsEnd) d.2).bind fun z =>
            if z.1 then .ok (cs ++ c.toList, z.2) else Compiler.choiceGroupLoop n (cs ++ c.toList) z.2) = .ok (r, rest) →
        ∃ us e new, ts = us ++ e :: rest ∧ e.type = .additionGroupsEnd ∧ r = cs ++ new ∧ AccComps new us := by
      clear h
      intro c r1 us ets hc h
      subst ets
      replace h := bind_ok h; obtain ⟨⟨d, r2⟩, h1, h⟩ := h
      obtain ⟨ms, rfl, hm⟩ := perhaps_of h1
      have hc' : ∀ {new vs}, AccComps new vs → AccComps (c.toList ++ new) (us ++ (ms ++ vs)) := by
        intro new vs hv
        have hv : AccComps new (ms ++ vs) := by
          cases hm with
          | none => exact hv
          | some h => exact .comma h hv
        rcases hc with ⟨rfl, rfl⟩ | ⟨x, rfl, hx⟩
        · exact hv
        · exact .cons hx hv
      replace h := bind_ok h; obtain ⟨⟨z, r3⟩, h2, h⟩ := h
      rcases skip_ok h2 with ⟨rfl, e, rfl, he⟩ | ⟨rfl, rfl, -⟩
      · cases h
        exact ⟨us ++ (ms ++ []), e, c.toList ++ [], by simp, is_iff.mp he, by simp, hc' .nil⟩
      · simp only [Bool.false_eq_true, if_false] at h
        obtain ⟨vs, e, new, rfl, he, rfl, hn⟩ := a.choiceGroupLoop _ _ _ _ h g.right.right
        exact ⟨us ++ (ms ++ vs), e, c.toList ++ new, by simp, he, by simp, hc' hn⟩
    replace h := attempt_ok h; rcases h with ⟨⟨c, r1⟩, h1, h⟩ | ⟨-, h⟩
    · obtain ⟨_, x, i, ty, vs, rfl, rfl, rfl, hi, hty⟩ := a.component _ _ _ h1 g
      exact key (some (.mk x ty)) r1 (i :: vs) rfl (.inr ⟨_, rfl, .mk hi hty⟩) h
    · exact key none ts [] rfl (.inl ⟨rfl, rfl⟩) h

theorem accAt (n : Nat) : AccAt n := by
  induction n with
  | zero => exact .zero
  | succ n ih => exact ih.succ

end Hampi.Compiler.Acc
