import Verif.Compiler.Main
/-!
# The parser does not look at the positions of tokens
-/
namespace Hampi.Compiler

/-- Forgetting the positions of the tokens in a result. -/
class Unplace (α : Type) where
  un : α → α

instance (priority := low) {α : Type} : Unplace α := ⟨id⟩
instance : Unplace Token := ⟨Token.unplaced⟩
instance : Unplace (List Token) := ⟨List.map Token.unplaced⟩
instance {α β : Type} [Unplace α] [Unplace β] : Unplace (α × β) := ⟨fun x => (Unplace.un x.1, Unplace.un x.2)⟩
instance {α : Type} [Unplace α] : Unplace (Option (α × List Token)) := ⟨Option.map Unplace.un⟩

/-- `b` is what becomes of `a` without positions. -/
def Par {α : Type} [Unplace α] : Out Err α → Out Err α → Prop
  | .ok x, b => b = .ok (Unplace.un x)
  | .err e, b => b = .err e
  | .panic, b => b = .panic
  | .diverge, b => b = .diverge

namespace Par
variable {α β : Type} [Unplace α] [Unplace β]

theorem ok {x y : α} (h : y = Unplace.un x) : Par (.ok x : Out Err α) (.ok y) := by rw [h]; rfl
theorem err (e : Err) : Par (.err e : Out Err α) (.err e) := rfl
theorem panic : Par (.panic : Out Err α) .panic := rfl
theorem diverge : Par (.diverge : Out Err α) .diverge := rfl

theorem bind {a b : Out Err α} {f g : α → Out Err β} (h : Par a b) (hf : ∀ x, Par (f x) (g (Unplace.un x))) :
    Par (a.bind f) (b.bind g) := by
  cases a <;> cases h
  · exact hf _
  · rfl
  · rfl
  · rfl

theorem attempt {a b : Out Err (α × List Token)} (h : Par a b) : Par a.attempt b.attempt := by
  cases a <;> cases h <;> rfl

theorem ite {c c' : Prop} [Decidable c] [Decidable c'] {a a' b b' : Out Err α} (hc : c' = c) (h : Par a a')
    (h' : Par b b') : Par (if c then a else b) (if c' then a' else b') := by
  subst hc
  by_cases hc : c'
  · rw [if_pos hc, if_pos hc]; exact h
  · rw [if_neg hc, if_neg hc]; exact h'

end Par

/-- A test of a token that does not look at its position. -/
def BlindTo (p : Token → Bool) : Prop := ∀ t, p t.unplaced = p t

theorem expect_par {p : Token → Bool} (hp : BlindTo p) (ts : List Token) :
    Par (expect p ts) (expect p (ts.map Token.unplaced)) := by
  cases ts with
  | nil => rfl
  | cons t ts => simp only [expect, List.map_cons, hp t]; rfl

theorem skip_par {p : Token → Bool} (hp : BlindTo p) (ts : List Token) :
    Par (skip p ts) (skip p (ts.map Token.unplaced)) := by
  cases ts with
  | nil => rfl
  | cons t ts =>
    simp only [skip, List.map_cons, hp t]
    split <;> rfl

theorem need_par {p : Token → Bool} (hp : BlindTo p) (ts : List Token) :
    Par (need p ts) (need p (ts.map Token.unplaced)) := by
  cases ts with
  | nil => rfl
  | cons t ts =>
    simp only [need, List.map_cons, hp t]
    split <;> rfl

theorem expectAll_par {ps : List (Token → Bool)} (hp : ∀ p ∈ ps, BlindTo p) (ts : List Token) :
    Par (expectAll ps ts) (expectAll ps (ts.map Token.unplaced)) := by
  have : ∀ ps : List (Token → Bool), (∀ p ∈ ps, BlindTo p) → ∀ ts : List Token,
      ((ps.zip (ts.map Token.unplaced)).all fun x => x.1 x.2) = (ps.zip ts).all fun x => x.1 x.2 := by
    intro ps hp ts
    induction ps generalizing ts with
    | nil => rfl
    | cons p ps ih =>
      cases ts with
      | nil => rfl
      | cons t ts =>
        simp only [List.map_cons, List.zip_cons_cons, List.all_cons, hp p (.head _) t,
          ih (fun q hq => hp q (.tail _ hq))]
  simp only [expectAll, List.length_map, this ps hp ts]
  split <;> rfl

theorem texts_unplaced (ts : List Token) : (ts.map Token.unplaced).map Token.text = ts.map Token.text := by
  rw [List.map_map]; rfl

theorem concatTexts_unplaced (ts : List Token) (j : Text) : concatTexts (ts.map Token.unplaced) j = concatTexts ts j := by
  rw [concatTexts, texts_unplaced, concatTexts]

theorem closingToken_par {b e : Token → Bool} (hb : BlindTo b) (he : BlindTo e) (level : Int) (t : Token)
    (ts : List Token) :
    Par (closingToken b e level t ts) (closingToken b e level t.unplaced (ts.map Token.unplaced)) := by
  induction ts generalizing level t with
  | nil => rfl
  | cons u us ih =>
    rw [List.map_cons, closingToken, closingToken, hb t, he u]
    refine .ite rfl (.ite rfl rfl ?_) ?_
    · exact .bind (ih _ _) fun x => rfl
    · exact .bind (ih _ _) fun x => rfl

theorem parseSetIsh_par (ts : List Token) : Par (parseSetIsh ts) (parseSetIsh (ts.map Token.unplaced)) := by
  cases ts with
  | nil => rfl
  | cons t ts =>
    rw [List.map_cons, parseSetIsh, parseSetIsh]
    refine .ite rfl ?_ (.ite rfl ?_ rfl)
    · refine .bind (closingToken_par (fun _ => rfl) (fun _ => rfl) _ _ _) fun x => .ok ?_
      exact Prod.ext (concatTexts_unplaced _ _) rfl
    · refine .bind (closingToken_par (fun _ => rfl) (fun _ => rfl) _ _ _) fun x => .ok ?_
      exact Prod.ext (concatTexts_unplaced _ _) rfl

theorem parseValue_par (ts : List Token) : Par (parseValue ts) (parseValue (ts.map Token.unplaced)) := by
  cases ts with
  | nil => rfl
  | cons t ts => exact .ite rfl rfl (.ite rfl (parseSetIsh_par (t :: ts)) rfl)

theorem parseInBrackets_par (ts : List Token) :
    Par (parseInBrackets ts) (parseInBrackets (ts.map Token.unplaced)) := by
  cases ts with
  | nil => rfl
  | cons t ts =>
    exact .ite rfl (.bind (need_par (fun _ => rfl) ts) fun _ => rfl)
      (.ite rfl (.bind (need_par (fun _ => rfl) ts) fun _ => rfl) rfl)

theorem parseNamedMaybeValue_par (ts : List Token) :
    Par (parseNamedMaybeValue ts) (parseNamedMaybeValue (ts.map Token.unplaced)) := by
  rw [parseNamedMaybeValue, parseNamedMaybeValue]
  refine .bind (need_par (fun _ => rfl) _) fun ⟨i, r⟩ => ?_
  cases r with
  | nil => rfl
  | cons b r => exact .ite rfl (.bind (parseInBrackets_par r) fun _ => rfl) rfl

theorem namedValuesLoop_par (n : Nat) : ∀ vs ts, Par (namedValuesLoop n vs ts)
    (namedValuesLoop n vs (ts.map Token.unplaced)) := by
  induction n with
  | zero => exact fun _ _ => rfl
  | succ n ih =>
    intro vs ts
    rw [namedValuesLoop, namedValuesLoop]
    refine .bind (parseNamedMaybeValue_par ts) fun ⟨⟨i, v⟩, r⟩ => ?_
    cases v with
    | none => rfl
    | some v =>
      cases r with
      | nil => rfl
      | cons t us => exact .ite rfl (ih _ us) (.ite rfl rfl rfl)

theorem parseNamedValues_par (n : Nat) (ts : List Token) :
    Par (parseNamedValues n ts) (parseNamedValues n (ts.map Token.unplaced)) :=
  .bind (need_par (fun _ => rfl) _) fun x => namedValuesLoop_par n _ x.2

theorem parseMaybeNamedValues_par (n : Nat) (ts : List Token) :
    Par (parseMaybeNamedValues n ts) (parseMaybeNamedValues n (ts.map Token.unplaced)) := by
  cases ts with
  | nil => rfl
  | cons t ts => exact .ite rfl (.bind (parseNamedValues_par n (t :: ts)) fun _ => rfl) rfl

theorem parseInteger_par (n : Nat) (ts : List Token) :
    Par (parseInteger n ts) (parseInteger n (ts.map Token.unplaced)) :=
  .bind (need_par (fun _ => rfl) _) fun x => .bind (parseMaybeNamedValues_par n x.2) fun _ => rfl

theorem parseBitString_par (n : Nat) (ts : List Token) :
    Par (parseBitString n ts) (parseBitString n (ts.map Token.unplaced)) := by
  refine .bind (expectAll_par (by simp [BlindTo]; exact ⟨fun _ => rfl, fun _ => rfl⟩) _) fun x => .ite rfl ?_ rfl
  rw [← List.map_drop]
  exact .bind (parseMaybeNamedValues_par n _) fun _ => rfl

theorem enumValuesLoop_par (n : Nat) : ∀ vs ts, Par (enumValuesLoop n vs ts)
    (enumValuesLoop n vs (ts.map Token.unplaced)) := by
  induction n with
  | zero => exact fun _ _ => rfl
  | succ n ih =>
    intro vs ts
    rw [enumValuesLoop, enumValuesLoop]
    exact .bind (parseNamedMaybeValue_par ts) fun x => .bind (skip_par (fun _ => rfl) x.2) fun c =>
      .bind (expect_par (fun _ => rfl) c.2) fun stop => .ite rfl rfl (ih _ c.2)

theorem parseEnumerated_par (n : Nat) (ts : List Token) :
    Par (parseEnumerated n ts) (parseEnumerated n (ts.map Token.unplaced)) := by
  refine .bind (need_par (fun _ => rfl) _) fun a => .bind (need_par (fun _ => rfl) a.2) fun b =>
    .bind (enumValuesLoop_par n _ b.2) fun root => .bind (skip_par (fun _ => rfl) root.2) fun m =>
      .bind (skip_par (fun _ => rfl) m.2) fun c => .bind (.attempt (enumValuesLoop_par n _ c.2)) fun ext => ?_
  cases ext with
  | none => exact .bind (need_par (fun _ => rfl) c.2) fun _ => rfl
  | some ext => exact .bind (need_par (fun _ => rfl) ext.2) fun _ => rfl

theorem parseSetParam_par (ts : List Token) : Par (parseSetParam ts) (parseSetParam (ts.map Token.unplaced)) :=
  .bind (skip_par (fun _ => rfl) _) fun a => .ite rfl
    (.bind (need_par (fun _ => rfl) a.2) fun p => .bind (need_par (fun _ => rfl) p.2) fun _ => rfl) rfl

theorem parseSingleParam_par (ts : List Token) :
    Par (parseSingleParam ts) (parseSingleParam (ts.map Token.unplaced)) := by
  cases ts with
  | nil => rfl
  | cons t ts => exact .ite rfl rfl rfl

theorem actualParamsLoop_par (n : Nat) : ∀ ps ts, Par (actualParamsLoop n ps ts)
    (actualParamsLoop n ps (ts.map Token.unplaced)) := by
  induction n with
  | zero => exact fun _ _ => rfl
  | succ n ih =>
    intro vs ts
    rw [actualParamsLoop, actualParamsLoop]
    exact .bind (parseSetParam_par ts) fun a => .bind (parseSingleParam_par a.2) fun b =>
      .bind (skip_par (fun _ => rfl) b.2) fun c => .bind (skip_par (fun _ => rfl) c.2) fun z =>
        .ite rfl rfl (ih _ z.2)

theorem parseActualParams_par (n : Nat) (ts : List Token) :
    Par (parseActualParams n ts) (parseActualParams n (ts.map Token.unplaced)) :=
  .bind (need_par (fun _ => rfl) _) fun x => actualParamsLoop_par n _ x.2

theorem parseMaybeParams_par (n : Nat) (name : Text) (ts : List Token) :
    Par (parseMaybeParams n name ts) (parseMaybeParams n name (ts.map Token.unplaced)) := by
  cases ts with
  | nil => rfl
  | cons t ts => exact .ite rfl (.bind (parseActualParams_par n (t :: ts)) fun x => .ite rfl rfl rfl) rfl

theorem parseReference_par (n : Nat) (t : Token) (ts : List Token) :
    Par (parseReference n t ts) (parseReference n t.unplaced (ts.map Token.unplaced)) := by
  rcases ts with _ | ⟨d, _ | ⟨u, ts⟩⟩
  · exact parseMaybeParams_par n _ []
  · exact parseMaybeParams_par n _ [d]
  · simp only [parseReference, parseClassField, parseReferenceName, List.map_cons]
    have h1 : (t.unplaced.isClassRef && d.unplaced.is .dot && (u.unplaced.isTypeField || u.unplaced.isValueField)) =
      (t.isClassRef && d.is .dot && (u.isTypeField || u.isValueField)) := rfl
    have h2 : (t.unplaced.isTypeRef && d.unplaced.is .dot && u.unplaced.isTypeRef) =
      (t.isTypeRef && d.is .dot && u.isTypeRef) := rfl
    rw [h1, h2]
    by_cases h : (t.isClassRef && d.is .dot && (u.isTypeField || u.isValueField)) = true
    · rw [if_pos h, if_pos h]; rfl
    · rw [if_neg h, if_neg h]
      by_cases h' : (t.isTypeRef && d.is .dot && u.isTypeRef) = true
      · simp only [h', if_true]
        exact parseMaybeParams_par n _ ts
      · simp only [h']
        exact parseMaybeParams_par n _ (d :: u :: ts)

theorem nth_unplaced (ts : List Token) (k : Nat) :
    (((ts.map Token.unplaced).drop k).head?.map Token.text).getD [] = ((ts.drop k).head?.map Token.text).getD [] := by
  rw [← List.map_drop, List.head?_map, Option.map_map]
  rfl

theorem parseTable_par (ts : List Token) : Par (parseTable ts) (parseTable (ts.map Token.unplaced)) := by
  refine .bind (need_par (fun _ => rfl) _) fun a => .bind (expectAll_par (by
    simp only [List.mem_cons, forall_eq_or_imp, List.not_mem_nil, false_implies, implies_true, and_true]
    exact ⟨fun _ => rfl, fun _ => rfl, fun _ => rfl⟩) a.2) fun b => .ite rfl ?_ rfl
  have h := expectAll_par (ps := [Token.is .curlyBegin, Token.is .atComponentIdList, Token.is .curlyEnd]) (by
    simp only [List.mem_cons, forall_eq_or_imp, List.not_mem_nil, false_implies, implies_true, and_true]
    exact ⟨fun _ => rfl, fun _ => rfl, fun _ => rfl⟩) (a.2.drop 3)
  simp only [Unplace.un, nth_unplaced]
  rw [← List.map_drop (i := 3)]
  cases he : expectAll [Token.is .curlyBegin, Token.is .atComponentIdList, Token.is .curlyEnd] (a.2.drop 3) with
  | ok x =>
    rw [he] at h
    rw [h]
    cases x with
    | true =>
      simp only [Unplace.un, id, nth_unplaced]
      rw [← List.map_drop]
      exact .bind (need_par (fun _ => rfl) _) fun _ => rfl
    | false => exact .bind (need_par (fun _ => rfl) _) fun _ => rfl
  | err e => rw [he] at h; rw [h]; exact .bind (need_par (fun _ => rfl) _) fun _ => rfl
  | panic => rw [he] at h; rw [h]; exact .bind (need_par (fun _ => rfl) _) fun _ => rfl
  | diverge => rw [he] at h; rw [h]; exact .bind (need_par (fun _ => rfl) _) fun _ => rfl

theorem parseContents_par (ts : List Token) : Par (parseContents ts) (parseContents (ts.map Token.unplaced)) :=
  .bind (need_par (fun _ => rfl) _) fun a => .bind (need_par (fun _ => rfl) a.2) fun b =>
    .bind (need_par (fun _ => rfl) b.2) fun c => .bind (need_par (fun _ => rfl) c.2) fun _ => rfl

theorem parseEndPoint_par (ts : List Token) : Par (parseEndPoint ts) (parseEndPoint (ts.map Token.unplaced)) := by
  refine .bind (.attempt (parseValue_par ts)) fun x => ?_
  cases x with
  | none => exact .bind (need_par (fun _ => rfl) ts) fun _ => rfl
  | some x => rfl

theorem parseLowerMark_par (ts : List Token) : Par (parseLowerMark ts) (parseLowerMark (ts.map Token.unplaced)) := by
  cases ts with
  | nil => rfl
  | cons t ts =>
    refine .ite rfl ?_ (.ite rfl rfl rfl)
    cases ts <;> rfl

theorem parseRange_par (ts : List Token) : Par (parseRange ts) (parseRange (ts.map Token.unplaced)) :=
  .bind (parseEndPoint_par ts) fun lo => .bind (parseLowerMark_par lo.2) fun m =>
    .bind (skip_par (fun _ => rfl) m.2) fun u => .bind (parseEndPoint_par u.2) fun _ => rfl

theorem twoWords_par (k : Kind) (ts : List Token) : Par (twoWords k ts) (twoWords k (ts.map Token.unplaced)) := by
  cases ts <;> rfl

theorem parseObjectIdentifier_par (ts : List Token) :
    Par (parseObjectIdentifier ts) (parseObjectIdentifier (ts.map Token.unplaced)) := by
  refine .bind (expectAll_par (by simp [BlindTo]; exact ⟨fun _ => rfl, fun _ => rfl⟩) _) fun x => .ite rfl ?_ rfl
  rw [← List.map_drop]
  rfl

theorem parseSeqVersion_par (ts : List Token) : Par (parseSeqVersion ts) (parseSeqVersion (ts.map Token.unplaced)) := by
  cases ts with
  | nil => rfl
  | cons t ts => exact .ite rfl (.bind (need_par (fun _ => rfl) ts) fun _ => rfl) rfl

theorem parseChoiceVersion_par (ts : List Token) :
    Par (parseChoiceVersion ts) (parseChoiceVersion (ts.map Token.unplaced)) := by
  cases ts with
  | nil => rfl
  | cons t ts => exact .ite rfl (.bind (need_par (fun _ => rfl) ts) fun _ => rfl) rfl

theorem parseMarker_par (ts : List Token) : Par (parseMarker ts) (parseMarker (ts.map Token.unplaced)) :=
  .bind (skip_par (fun _ => rfl) ts) fun m => .ite rfl (.bind (skip_par (fun _ => rfl) m.2) fun _ => rfl) rfl

theorem parsePresence_par (ts : List Token) : Par (parsePresence ts) (parsePresence (ts.map Token.unplaced)) :=
  .bind (skip_par (fun _ => rfl) ts) fun o => .bind (skip_par (fun _ => rfl) o.2) fun d =>
    .ite rfl (.bind (parseValue_par d.2) fun _ => .ite rfl rfl rfl) rfl

/-- The functions of the mutual recursion do not look at positions. -/
structure ParAt (n : Nat) : Prop where
  type : ∀ ts, Par (parseType n ts) (parseType n (ts.map Token.unplaced))
  kind : ∀ t ts, Par (parseKind n t ts) (parseKind n t.unplaced (ts.map Token.unplaced))
  constraints : ∀ ts, Par (parseConstraints n ts) (parseConstraints n (ts.map Token.unplaced))
  constraint : ∀ ts, Par (parseConstraint n ts) (parseConstraint n (ts.map Token.unplaced))
  elementSet : ∀ ts, Par (parseElementSet n ts) (parseElementSet n (ts.map Token.unplaced))
  union : ∀ s ts, Par (unionLoop n s ts) (unionLoop n s (ts.map Token.unplaced))
  inter : ∀ es b ts, Par (interLoop n es b ts) (interLoop n es b (ts.map Token.unplaced))
  elements : ∀ ts, Par (parseElements n ts) (parseElements n (ts.map Token.unplaced))
  elementsRest : ∀ ts, Par (parseElementsRest n ts) (parseElementsRest n (ts.map Token.unplaced))
  seqOrSeqOf : ∀ ts, Par (parseSeqOrSeqOf n ts) (parseSeqOrSeqOf n (ts.map Token.unplaced))
  seqLoop : ∀ r a m ts, Par (seqLoop n r a m ts) (seqLoop n r a m (ts.map Token.unplaced))
  seqAfter : ∀ r a m ts, Par (seqAfter n r a m ts) (seqAfter n r a m (ts.map Token.unplaced))
  seqOf : ∀ ts, Par (parseSeqOf n ts) (parseSeqOf n (ts.map Token.unplaced))
  seqComponent : ∀ ts, Par (parseSeqComponent n ts) (parseSeqComponent n (ts.map Token.unplaced))
  seqGroup : ∀ ts, Par (parseSeqGroup n ts) (parseSeqGroup n (ts.map Token.unplaced))
  seqGroupLoop : ∀ cs ts, Par (seqGroupLoop n cs ts) (seqGroupLoop n cs (ts.map Token.unplaced))
  component : ∀ ts, Par (parseComponent n ts) (parseComponent n (ts.map Token.unplaced))
  choice : ∀ ts, Par (parseChoice n ts) (parseChoice n (ts.map Token.unplaced))
  choiceLoop : ∀ r g b m ts, Par (choiceLoop n r g b m ts) (choiceLoop n r g b m (ts.map Token.unplaced))
  choiceAfter : ∀ r g b m ts, Par (choiceAfter n r g b m ts) (choiceAfter n r g b m (ts.map Token.unplaced))
  choiceGroup : ∀ ts, Par (parseChoiceGroup n ts) (parseChoiceGroup n (ts.map Token.unplaced))
  choiceGroupLoop : ∀ cs ts, Par (choiceGroupLoop n cs ts) (choiceGroupLoop n cs (ts.map Token.unplaced))

theorem ParAt.zero : ParAt 0 := by
  constructor <;> intros <;> simp only [parseType, parseKind, parseConstraints,
    parseConstraint, parseElementSet, unionLoop, interLoop, parseElements, parseElementsRest,
    parseSeqOrSeqOf, Hampi.Compiler.seqLoop, Hampi.Compiler.seqAfter, parseSeqOf, parseSeqComponent,
    parseSeqGroup, Hampi.Compiler.seqGroupLoop, parseComponent, parseChoice,
    Hampi.Compiler.choiceLoop, Hampi.Compiler.choiceAfter, parseChoiceGroup,
    Hampi.Compiler.choiceGroupLoop] <;> rfl

theorem ParAt.succ {n : Nat} (h : ParAt n) : ParAt (n + 1) where
  type ts := by
    cases ts with
    | nil => rw [List.map_nil, parseType]; rfl
    | cons t ts =>
      rw [List.map_cons, parseType, parseType]
      exact .ite rfl (.bind (h.kind t ts) fun k => .bind (h.constraints k.2) fun _ => rfl) rfl
  kind t ts := by
    rw [parseKind, parseKind]
    exact .ite rfl (parseBitString_par n (t :: ts)) (.ite rfl (twoWords_par _ ts) (.ite rfl (twoWords_par _ ts)
      (.ite rfl (parseEnumerated_par n (t :: ts)) (.ite rfl (parseInteger_par n (t :: ts))
        (.ite rfl (parseObjectIdentifier_par (t :: ts)) (.ite rfl rfl (.ite rfl rfl (.ite rfl rfl
          (.ite rfl (h.choice (t :: ts)) (.ite rfl (h.seqOrSeqOf (t :: ts)) (parseReference_par n t ts)))))))))))
  constraints ts := by
    rw [parseConstraints, parseConstraints]
    refine .bind (.attempt (h.constraint ts)) fun x => ?_
    cases x with
    | none => rfl
    | some x => exact .bind (h.constraints x.2) fun _ => rfl
  constraint ts := by
    rw [parseConstraint, parseConstraint]
    refine .bind (.attempt (h.elementSet ts)) fun x => ?_
    cases x with
    | some x => rfl
    | none =>
      refine .bind (.attempt (parseTable_par ts)) fun x => ?_
      cases x with
      | some x => rfl
      | none =>
        refine .bind (.attempt (parseContents_par ts)) fun x => ?_
        cases x <;> rfl
  elementSet ts := by
    rw [parseElementSet, parseElementSet]
    refine .bind (need_par (fun _ => rfl) ts) fun a => .bind (h.union _ a.2) fun root => .ite rfl rfl
      (.bind (skip_par (fun _ => rfl) root.2) fun c => .ite rfl ?_
        (.bind (need_par (fun _ => rfl) c.2) fun _ => rfl))
    refine .bind (need_par (fun _ => rfl) c.2) fun e => .bind (skip_par (fun _ => rfl) e.2) fun d =>
      .bind (.attempt (h.union _ d.2)) fun x => ?_
    cases x with
    | none => exact .bind (need_par (fun _ => rfl) d.2) fun _ => rfl
    | some x => exact .bind (need_par (fun _ => rfl) x.2) fun _ => rfl
  union s ts := by
    rw [unionLoop, unionLoop]
    exact .bind (h.inter _ _ ts) fun i => .bind (skip_par (fun _ => rfl) i.2) fun u =>
      .ite rfl (h.union _ u.2) rfl
  inter es b ts := by
    rw [interLoop, interLoop]
    refine .bind (.attempt (h.elements ts)) fun x => ?_
    cases x with
    | some x => exact .bind (skip_par (fun _ => rfl) x.2) fun c => .ite rfl (h.inter _ _ c.2) rfl
    | none =>
      exact .ite rfl rfl (.bind (skip_par (fun _ => rfl) ts) fun c => .ite rfl (h.inter _ _ c.2) rfl)
  elements ts := by
    cases ts with
    | nil => rw [List.map_nil, parseElements]; rfl
    | cons t ts =>
      rw [List.map_cons, parseElements, parseElements]
      exact .ite rfl (.bind (expect_par (fun _ => rfl) ts) fun b =>
        .ite rfl (.bind (h.elementSet ts) fun e => rfl) (h.elementsRest ts)) (h.elementsRest (t :: ts))
  elementsRest ts := by
    rw [parseElementsRest, parseElementsRest]
    refine .bind (.attempt (parseRange_par ts)) fun x => ?_
    cases x with
    | some x => rfl
    | none =>
      refine .bind (expect_par (fun _ => rfl) ts) fun b => .ite rfl (.bind (h.elementSet ts) fun e => rfl) ?_
      refine .bind (.attempt (parseValue_par ts)) fun x => ?_
      cases x with
      | some x => rfl
      | none =>
        refine .bind (.attempt (h.type ts)) fun x => ?_
        cases x <;> rfl
  seqOrSeqOf ts := by
    rw [parseSeqOrSeqOf, parseSeqOrSeqOf]
    exact .bind (need_par (fun _ => rfl) ts) fun a => .bind (expect_par (fun _ => rfl) a.2) fun b =>
      .ite rfl (.bind (need_par (fun _ => rfl) a.2) fun c => h.seqLoop _ _ _ c.2) (h.seqOf a.2)
  seqLoop r a m ts := by
    rw [Hampi.Compiler.seqLoop, Hampi.Compiler.seqLoop]
    refine .bind (.attempt (h.seqComponent ts)) fun x => ?_
    cases x with
    | none =>
      exact .bind (expect_par (fun _ => rfl) ts) fun b => .ite rfl
        (.ite rfl (.bind (h.seqGroup ts) fun g => h.seqAfter _ _ _ g.2) rfl) (h.seqAfter _ _ _ ts)
    | some c =>
      exact .bind (expect_par (fun _ => rfl) c.2) fun b => .ite rfl
        (.ite rfl (.bind (h.seqGroup c.2) fun g => h.seqAfter _ _ _ g.2) rfl) (h.seqAfter _ _ _ c.2)
  seqAfter r a m ts := by
    rw [Hampi.Compiler.seqAfter, Hampi.Compiler.seqAfter]
    exact .bind (skip_par (fun _ => rfl) ts) fun c => .bind (parseMarker_par c.2) fun m =>
      .bind (skip_par (fun _ => rfl) m.2) fun z => .ite rfl rfl (h.seqLoop _ _ _ z.2)
  seqOf ts := by
    rw [parseSeqOf, parseSeqOf]
    refine .bind (.attempt (h.constraint ts)) fun x => ?_
    cases x with
    | none => exact .bind (need_par (fun _ => rfl) ts) fun o => .bind (h.type o.2) fun _ => rfl
    | some x => exact .bind (need_par (fun _ => rfl) x.2) fun o => .bind (h.type o.2) fun _ => rfl
  seqComponent ts := by
    rw [parseSeqComponent, parseSeqComponent]
    refine .bind (.attempt (h.component ts)) fun x => ?_
    cases x with
    | none => rfl
    | some x =>
      obtain ⟨⟨id, ty⟩, r⟩ := x
      exact .bind (parsePresence_par r) fun _ => rfl
  seqGroup ts := by
    rw [parseSeqGroup, parseSeqGroup]
    exact .bind (need_par (fun _ => rfl) ts) fun a => .bind (parseSeqVersion_par a.2) fun v =>
      .bind (h.seqGroupLoop _ v.2) fun cs => .ite rfl rfl (.bind (need_par (fun _ => rfl) cs.2) fun _ => rfl)
  seqGroupLoop cs ts := by
    rw [Hampi.Compiler.seqGroupLoop, Hampi.Compiler.seqGroupLoop]
    refine .bind (h.seqComponent ts) fun ⟨c, r⟩ => ?_
    cases c with
    | none => rfl
    | some c => exact .bind (skip_par (fun _ => rfl) r) fun d => h.seqGroupLoop _ d.2
  component ts := by
    rw [parseComponent, parseComponent]
    exact .bind (need_par (fun _ => rfl) ts) fun i => .bind (h.type i.2) fun _ => rfl
  choice ts := by
    rw [parseChoice, parseChoice]
    exact .bind (need_par (fun _ => rfl) ts) fun a => .bind (need_par (fun _ => rfl) a.2) fun b =>
      h.choiceLoop _ _ _ _ b.2
  choiceLoop r g b m ts := by
    rw [Hampi.Compiler.choiceLoop, Hampi.Compiler.choiceLoop]
    refine .bind (.attempt (h.component ts)) fun x => ?_
    cases x with
    | none =>
      exact .bind (expect_par (fun _ => rfl) ts) fun b => .ite rfl
        (.ite rfl (.bind (h.choiceGroup ts) fun g => h.choiceAfter _ _ _ _ g.2) rfl) (h.choiceAfter _ _ _ _ ts)
    | some c =>
      exact .bind (expect_par (fun _ => rfl) c.2) fun b => .ite rfl
        (.ite rfl (.bind (h.choiceGroup c.2) fun g => h.choiceAfter _ _ _ _ g.2) rfl) (h.choiceAfter _ _ _ _ c.2)
  choiceAfter r g b m ts := by
    rw [Hampi.Compiler.choiceAfter, Hampi.Compiler.choiceAfter]
    exact .bind (skip_par (fun _ => rfl) ts) fun c => .bind (expect_par (fun _ => rfl) c.2) fun e => .ite rfl rfl
      (.bind (parseMarker_par c.2) fun m => .bind (skip_par (fun _ => rfl) m.2) fun z =>
        .ite rfl rfl (h.choiceLoop _ _ _ _ z.2))
  choiceGroup ts := by
    rw [parseChoiceGroup, parseChoiceGroup]
    exact .bind (need_par (fun _ => rfl) ts) fun a => .bind (parseChoiceVersion_par a.2) fun v =>
      .bind (h.choiceGroupLoop _ v.2) fun cs => .ite rfl rfl rfl
  choiceGroupLoop cs ts := by
    rw [Hampi.Compiler.choiceGroupLoop, Hampi.Compiler.choiceGroupLoop]
    refine .bind (.attempt (h.component ts)) fun x => ?_
    cases x with
    | none =>
      exact .bind (skip_par (fun _ => rfl) ts) fun d => .bind (skip_par (fun _ => rfl) d.2) fun z =>
        .ite rfl rfl (h.choiceGroupLoop _ z.2)
    | some c =>
      exact .bind (skip_par (fun _ => rfl) c.2) fun d => .bind (skip_par (fun _ => rfl) d.2) fun z =>
        .ite rfl rfl (h.choiceGroupLoop _ z.2)

theorem parAt (n : Nat) : ParAt n := by
  induction n with
  | zero => exact .zero
  | succ n ih => exact ih.succ

/-! ## Definitions -/

theorem parseFieldEnd_par {α : Type} {p : Parser α} (hp : ∀ ts, Par (p ts) (p (ts.map Token.unplaced)))
    (ts : List Token) : Par (parseFieldEnd p ts) (parseFieldEnd p (ts.map Token.unplaced)) := by
  cases ts with
  | nil => rfl
  | cons t ts => exact .ite rfl rfl (.ite rfl (.bind (hp ts) fun _ => rfl) rfl)

theorem parseUnique_unplaced (ts : List Token) :
    parseUnique (ts.map Token.unplaced) = ((parseUnique ts).1, (parseUnique ts).2.map Token.unplaced) := by
  cases ts with
  | nil => rfl
  | cons t ts =>
    show (if t.isKeyword "UNIQUE" then _ else _) = _
    rw [parseUnique]
    split <;> rfl

theorem parseValueFieldSpec_par (n : Nat) (ts : List Token) :
    Par (parseValueFieldSpec n ts) (parseValueFieldSpec n (ts.map Token.unplaced)) := by
  refine .bind (need_par (fun _ => rfl) ts) fun i => .bind ((parAt n).type i.2) fun ty => ?_
  simp only [Unplace.un, parseUnique_unplaced]
  exact .bind (parseFieldEnd_par parseValue_par _) fun e => .ite rfl rfl rfl

theorem parseTypeFieldSpec_par (n : Nat) (ts : List Token) :
    Par (parseTypeFieldSpec n ts) (parseTypeFieldSpec n (ts.map Token.unplaced)) :=
  .bind (need_par (fun _ => rfl) ts) fun i => .bind (parseFieldEnd_par (parAt n).type i.2) fun _ => rfl

theorem parseFieldSpec_par (n : Nat) (ts : List Token) :
    Par (parseFieldSpec n ts) (parseFieldSpec n (ts.map Token.unplaced)) := by
  cases ts with
  | nil => rfl
  | cons t ts =>
    exact .ite rfl (parseValueFieldSpec_par n (t :: ts)) (.ite rfl (parseTypeFieldSpec_par n (t :: ts)) rfl)

theorem classLoop_par (n : Nat) : ∀ fs ts, Par (classLoop n fs ts) (classLoop n fs (ts.map Token.unplaced)) := by
  induction n with
  | zero => exact fun _ _ => rfl
  | succ n ih =>
    intro fs ts
    rw [classLoop, classLoop]
    refine .bind (parseFieldSpec_par n ts) fun ⟨f, r⟩ => ?_
    cases r with
    | nil => rfl
    | cons t us => exact .ite rfl (ih _ us) (.ite rfl rfl rfl)

theorem closeGroup_par (b : Bool) (ts : List Token) :
    Par (closeGroup b ts) (closeGroup b (ts.map Token.unplaced)) :=
  .bind (skip_par (fun _ => rfl) ts) fun _ => .ite rfl (.ite rfl rfl rfl) rfl

theorem withSyntaxLoop_par (n : Nat) : ∀ b fs ts, Par (withSyntaxLoop n b fs ts)
    (withSyntaxLoop n b fs (ts.map Token.unplaced)) := by
  induction n with
  | zero => exact fun _ _ _ => rfl
  | succ n ih =>
    intro b fs ts
    rw [withSyntaxLoop, withSyntaxLoop]
    refine .bind (skip_par (fun _ => rfl) ts) fun g => ?_
    have h1 : (g.2.map Token.unplaced).takeWhile (fun t => !t.is .andIdentifier) =
        (g.2.takeWhile fun t => !t.is .andIdentifier).map Token.unplaced := List.takeWhile_map ..
    have h2 : (g.2.map Token.unplaced).dropWhile (fun t => !t.is .andIdentifier) =
        (g.2.dropWhile fun t => !t.is .andIdentifier).map Token.unplaced := List.dropWhile_map ..
    simp only [Unplace.un, h1, h2, id, List.any_map, concatTexts_unplaced]
    refine .ite rfl rfl (.bind (need_par (fun _ => rfl) _) fun f => ?_)
    show Par (match get fs f.1.text with | none => _ | some spec => _)
      (match get fs f.1.text with | none => _ | some spec => _)
    cases get fs f.1.text with
    | none => rfl
    | some spec =>
      refine .bind (?_ : Par _ _) fun spec' => .bind (skip_par (fun _ => rfl) f.2) fun c =>
        .bind (closeGroup_par _ c.2) fun e => .bind (skip_par (fun _ => rfl) e.2) fun z =>
          .ite rfl (.ite rfl rfl rfl) (ih _ _ z.2)
      cases spec.withWords (b || g.1) (concatTexts (g.2.takeWhile fun t => !t.is .andIdentifier) [' ']) <;> rfl

theorem parseWithSyntax_par (n : Nat) (fs : List (Text × ClassField)) (ts : List Token) :
    Par (parseWithSyntax n fs ts) (parseWithSyntax n fs (ts.map Token.unplaced)) := by
  refine .bind (expectAll_par (by simp [BlindTo]; exact ⟨fun _ => rfl, fun _ => rfl⟩) _) fun x => .ite rfl ?_ rfl
  rw [← List.map_drop]
  exact .bind (need_par (fun _ => rfl) _) fun r => withSyntaxLoop_par n _ _ r.2

theorem parseClass_par (n : Nat) (ts : List Token) :
    Par (parseClass n ts) (parseClass n (ts.map Token.unplaced)) :=
  .bind (need_par (fun _ => rfl) ts) fun a => .bind (need_par (fun _ => rfl) a.2) fun b =>
    .bind (classLoop_par n _ b.2) fun f => parseWithSyntax_par n f.1 f.2

theorem parseSetElement_par (ts : List Token) :
    Par (parseSetElement ts) (parseSetElement (ts.map Token.unplaced)) := by
  refine .bind (.attempt (parseSetIsh_par ts)) fun x => ?_
  cases x with
  | some x => rfl
  | none =>
    cases ts with
    | nil => rfl
    | cons t us => exact .ite rfl rfl (.ite rfl rfl rfl)

theorem objectSetLoop_par (n : Nat) : ∀ r a m ts, Par (objectSetLoop n r a m ts)
    (objectSetLoop n r a m (ts.map Token.unplaced)) := by
  induction n with
  | zero => exact fun _ _ _ _ => rfl
  | succ n ih =>
    intro r a m ts
    rw [objectSetLoop, objectSetLoop]
    exact .bind (expect_par (fun _ => rfl) ts) fun e => .ite rfl rfl (.bind (parseMarker_par ts) fun m =>
      .bind (parseSetElement_par m.2) fun x => .bind (skip_par (fun _ => rfl) x.2) fun c =>
        .bind (skip_par (fun _ => rfl) c.2) fun u => .bind (skip_par (fun _ => rfl) u.2) fun z =>
          .ite rfl rfl (ih _ _ _ z.2))

theorem parseObjectSet_par (n : Nat) (ts : List Token) :
    Par (parseObjectSet n ts) (parseObjectSet n (ts.map Token.unplaced)) :=
  .bind (need_par (fun _ => rfl) ts) fun r => objectSetLoop_par n _ _ _ r.2

theorem parseBareParam_par (ts : List Token) : Par (parseBareParam ts) (parseBareParam (ts.map Token.unplaced)) := by
  cases ts with
  | nil => rfl
  | cons t ts => exact .ite rfl rfl rfl

theorem parseParam_par (ts : List Token) : Par (parseParam ts) (parseParam (ts.map Token.unplaced)) := by
  refine .bind (expectAll_par (by
    simp only [List.mem_cons, forall_eq_or_imp, List.not_mem_nil, false_implies, implies_true, and_true]
    exact ⟨fun _ => rfl, fun _ => rfl, fun _ => rfl⟩) _) fun x => .ite rfl (.ok ?_) (parseBareParam_par ts)
  rw [nth_unplaced, ← List.map_drop]
  rfl

theorem paramsLoop_par (n : Nat) : ∀ ns ts, Par (paramsLoop n ns ts) (paramsLoop n ns (ts.map Token.unplaced)) := by
  induction n with
  | zero => exact fun _ _ => rfl
  | succ n ih =>
    intro ns ts
    rw [paramsLoop, paramsLoop]
    exact .bind (parseParam_par ts) fun p => .bind (skip_par (fun _ => rfl) p.2) fun c =>
      .bind (skip_par (fun _ => rfl) c.2) fun z => .ite rfl rfl (ih _ z.2)

theorem parseParams_par (n : Nat) (ts : List Token) :
    Par (parseParams n ts) (parseParams n (ts.map Token.unplaced)) :=
  .bind (need_par (fun _ => rfl) ts) fun r => paramsLoop_par n _ r.2

theorem parseObjectAssignment_par (ts : List Token) :
    Par (parseObjectAssignment ts) (parseObjectAssignment (ts.map Token.unplaced)) := by
  refine .bind (expectAll_par (by simp [BlindTo]; exact ⟨fun _ => rfl, fun _ => rfl⟩) _) fun x => .ite rfl ?_ rfl
  have h0 := nth_unplaced ts 0
  simp only [List.drop_zero] at h0
  simp only [h0, nth_unplaced]
  rw [← List.map_drop]
  exact .bind (need_par (fun _ => rfl) _) fun a => .bind (parseSetIsh_par a.2) fun _ => rfl

theorem parseValueAssignment_par (n : Nat) (ts : List Token) :
    Par (parseValueAssignment n ts) (parseValueAssignment n (ts.map Token.unplaced)) :=
  .bind (need_par (fun _ => rfl) ts) fun i => .bind ((parAt n).type i.2) fun ty =>
    .bind (need_par (fun _ => rfl) ty.2) fun a => .bind (parseValue_par a.2) fun _ => rfl

theorem parseValueish_par (n : Nat) (ts : List Token) :
    Par (parseValueish n ts) (parseValueish n (ts.map Token.unplaced)) := by
  refine .bind (.attempt (parseObjectAssignment_par ts)) fun x => ?_
  cases x with
  | some x => rfl
  | none =>
    refine .bind (.attempt (parseValueAssignment_par n ts)) fun x => ?_
    cases x <;> rfl

theorem kept_tokens (a r : List Token) :
    (((a.map Token.unplaced).take ((a.map Token.unplaced).length - (r.map Token.unplaced).length)).map
      Token.unplaced) = (a.take (a.length - r.length)).map Token.unplaced := by
  rw [List.length_map, List.length_map, ← List.map_take, List.map_map]
  rfl

theorem parseTypeAssignment_par (n : Nat) (ts : List Token) :
    Par (parseTypeAssignment n ts) (parseTypeAssignment n (ts.map Token.unplaced)) := by
  refine .bind (need_par (fun _ => rfl) ts) fun i => .bind (.attempt (parseParams_par n i.2)) fun x => ?_
  cases x with
  | none =>
    exact .bind (need_par (fun _ => rfl) i.2) fun a => .bind ((parAt n).type a.2) fun _ => rfl
  | some p =>
    refine .bind (need_par (fun _ => rfl) p.2) fun a => .bind ((parAt n).type a.2) fun ty => .ok ?_
    simp only [Unplace.un, id, Option.map_some, kept_tokens]
    rfl

theorem parseClassAssignment_par (n : Nat) (ts : List Token) :
    Par (parseClassAssignment n ts) (parseClassAssignment n (ts.map Token.unplaced)) :=
  .bind (need_par (fun _ => rfl) ts) fun i => .bind (need_par (fun _ => rfl) i.2) fun a =>
    .bind (parseClass_par n a.2) fun _ => rfl

theorem parseObjectSetAssignment_par (n : Nat) (ts : List Token) :
    Par (parseObjectSetAssignment n ts) (parseObjectSetAssignment n (ts.map Token.unplaced)) :=
  .bind (need_par (fun _ => rfl) ts) fun i => .bind (need_par (fun _ => rfl) i.2) fun c =>
    .bind (need_par (fun _ => rfl) c.2) fun a => .bind (parseObjectSet_par n a.2) fun _ => rfl

theorem parseTypeish_par (n : Nat) (ts : List Token) :
    Par (parseTypeish n ts) (parseTypeish n (ts.map Token.unplaced)) := by
  refine .bind (.attempt (parseTypeAssignment_par n ts)) fun x => ?_
  cases x with
  | some x => rfl
  | none =>
    refine .bind (.attempt (parseClassAssignment_par n ts)) fun x => ?_
    cases x with
    | some x => rfl
    | none =>
      refine .bind (.attempt (parseObjectSetAssignment_par n ts)) fun x => ?_
      cases x <;> rfl

theorem parseDefinition_par (n : Nat) (ts : List Token) :
    Par (parseDefinition n ts) (parseDefinition n (ts.map Token.unplaced)) := by
  cases ts with
  | nil => rfl
  | cons t ts => exact .ite rfl (parseValueish_par n (t :: ts)) (.ite rfl (parseTypeish_par n (t :: ts)) rfl)

/-! ## Modules -/

theorem wellKnown_par (t : Text) : Par (wellKnown t) (wellKnown t) := by
  cases wellKnown t <;> rfl

theorem oidNumber_par (t : Token) : Par (oidNumber t) (oidNumber t.unplaced) := by
  show Par (oidNumber t) (oidNumber t)
  cases oidNumber t <;> rfl

theorem parseNamedOid_par (t : Token) (ts : List Token) :
    Par (parseNamedOid t ts) (parseNamedOid t.unplaced (ts.map Token.unplaced)) := by
  refine .ite rfl ?_ rfl
  rcases ts with _ | ⟨a, _ | ⟨b, _ | ⟨c, us⟩⟩⟩
  · exact .bind (wellKnown_par _) fun _ => rfl
  · exact .bind (wellKnown_par _) fun _ => rfl
  · exact .bind (wellKnown_par _) fun _ => rfl
  · exact .ite rfl (.bind (oidNumber_par b) fun _ => rfl) (.bind (wellKnown_par _) fun _ => rfl)

theorem parseOidComponent_par (ts : List Token) :
    Par (parseOidComponent ts) (parseOidComponent (ts.map Token.unplaced)) := by
  cases ts with
  | nil => rfl
  | cons t ts =>
    exact .ite rfl (parseNamedOid_par t ts) (.ite rfl (.bind (oidNumber_par t) fun _ => rfl) rfl)

theorem oidLoop_par (n : Nat) : ∀ cs ts, Par (oidLoop n cs ts) (oidLoop n cs (ts.map Token.unplaced)) := by
  induction n with
  | zero => exact fun _ _ => rfl
  | succ n ih =>
    intro cs ts
    rw [oidLoop, oidLoop]
    exact .bind (skip_par (fun _ => rfl) ts) fun z => .ite rfl rfl
      (.bind (parseOidComponent_par ts) fun c => ih _ c.2)

theorem parseMaybeOid_par (n : Nat) (ts : List Token) :
    Par (parseMaybeOid n ts) (parseMaybeOid n (ts.map Token.unplaced)) := by
  cases ts with
  | nil => rfl
  | cons t ts => exact .ite rfl (.bind (oidLoop_par n _ ts) fun _ => rfl) rfl

theorem parseModuleName_par (n : Nat) (ts : List Token) :
    Par (parseModuleName n ts) (parseModuleName n (ts.map Token.unplaced)) := by
  cases ts with
  | nil => rfl
  | cons t ts => exact .ite rfl (.bind (parseMaybeOid_par n ts) fun _ => rfl) rfl

theorem parseTags_par (ts : List Token) : Par (parseTags ts) (parseTags (ts.map Token.unplaced)) :=
  .bind (skip_par (fun _ => rfl) ts) fun a => .ite rfl (.bind (need_par (fun _ => rfl) a.2) fun _ => rfl) rfl

theorem importNames_par (n : Nat) : ∀ ns ts, Par (importNames n ns ts) (importNames n ns (ts.map Token.unplaced)) := by
  induction n with
  | zero => exact fun _ _ => rfl
  | succ n ih =>
    intro ns ts
    cases ts with
    | nil => rfl
    | cons t ts =>
      exact .ite rfl rfl (.bind (skip_par (fun _ => rfl) ts) fun c => ih _ c.2)

theorem importsLoop_par (n : Nat) : ∀ is ts, Par (importsLoop n is ts) (importsLoop n is (ts.map Token.unplaced)) := by
  induction n with
  | zero => exact fun _ _ => rfl
  | succ n ih =>
    intro is ts
    rw [importsLoop, importsLoop]
    refine .bind (importNames_par n _ ts) fun d => .bind (parseModuleName_par n d.2) fun m =>
      .bind (?_ : Par (addImports m.1.1 is d.1) (addImports m.1.1 is d.1)) fun is' =>
        .bind (skip_par (fun _ => rfl) m.2) fun z => .ite rfl rfl (ih _ z.2)
    cases addImports m.1.1 is d.1 <;> rfl

theorem parseImports_par (n : Nat) (ts : List Token) :
    Par (parseImports n ts) (parseImports n (ts.map Token.unplaced)) :=
  .bind (skip_par (fun _ => rfl) ts) fun a => .ite rfl (importsLoop_par n _ a.2) rfl

theorem definitionsLoop_par (n : Nat) : ∀ ds ts, Par (definitionsLoop n ds ts)
    (definitionsLoop n ds (ts.map Token.unplaced)) := by
  induction n with
  | zero => exact fun _ _ => rfl
  | succ n ih =>
    intro ds ts
    rw [definitionsLoop, definitionsLoop]
    exact .bind (skip_par (fun _ => rfl) ts) fun z => .ite rfl rfl
      (.bind (parseDefinition_par n ts) fun d => ih _ d.2)

theorem parseModule_par (n : Nat) (ts : List Token) :
    Par (parseModule n ts) (parseModule n (ts.map Token.unplaced)) :=
  .bind (parseModuleName_par n ts) fun name => .bind (need_par (fun _ => rfl) name.2) fun d =>
    .bind (parseTags_par d.2) fun t => .bind (need_par (fun _ => rfl) t.2) fun a =>
      .bind (need_par (fun _ => rfl) a.2) fun b => .bind (parseImports_par n b.2) fun i =>
        .bind (definitionsLoop_par n _ i.2) fun _ => rfl

theorem modulesLoop_unplaced (n : Nat) : ∀ ms ts, modulesLoop n ms (ts.map Token.unplaced) = modulesLoop n ms ts := by
  induction n with
  | zero => exact fun _ _ => rfl
  | succ n ih =>
    intro ms ts
    rw [modulesLoop, modulesLoop]
    have h := parseModule_par n ts
    cases hm : parseModule n ts with
    | ok m =>
      rw [hm] at h
      rw [h]
      show (if (m.2.map Token.unplaced).isEmpty then _ else modulesLoop n _ (m.2.map Token.unplaced)) =
        if m.2.isEmpty then _ else _
      rw [ih, List.isEmpty_map]
      rfl
    | err e => rw [hm] at h; rw [h]
    | panic => rw [hm] at h; rw [h]
    | diverge => rw [hm] at h; rw [h]

theorem filter_unplaced (ts : List Token) :
    (ts.map Token.unplaced).filter (fun t => !t.is .comment) = (ts.filter fun t => !t.is .comment).map Token.unplaced :=
  List.filter_map ..

/-- The parser makes the same of tokens of the same types and texts. -/
theorem parse_same (n : Nat) {ts ts' : List Token}
    (h : (ts.filter fun t => !t.is .comment).map (fun t => (t.type, t.text)) =
      (ts'.filter fun t => !t.is .comment).map fun t => (t.type, t.text)) : parse n ts = parse n ts' := by
  have key : ∀ {l l' : List Token}, l.map (fun t => (t.type, t.text)) = l'.map (fun t => (t.type, t.text)) →
      l.map Token.unplaced = l'.map Token.unplaced := by
    intro l l' h
    have : ∀ l : List Token, l.map Token.unplaced =
        (l.map fun t => (t.type, t.text)).map fun x => (⟨x.1, ⟨0, 0⟩, ⟨0, 0⟩, x.2⟩ : Token) := by
      intro l
      rw [List.map_map]
      rfl
    rw [this, this, h]
  rw [parse, parse, ← modulesLoop_unplaced, key h, modulesLoop_unplaced]

end Hampi.Compiler
