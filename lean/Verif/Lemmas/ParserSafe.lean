import Verif.Lemmas.ParserMono
/-!
# What is left after a parser function is the end of its tokens; when it panics
-/
namespace Hampi.Compiler

/-- The last token is one after which the code looks further without checking. -/
def EndsBadly (ts : List Token) : Prop :=
  ∃ t, ts.getLast? = some t ∧
    (t.text = "OCTET".toList ∨ t.text = "CHARACTER".toList ∨ t.type = .lessThan)

theorem EndsBadly.of_suffix {r ts : List Token} (h : r <:+ ts) (hb : EndsBadly r) : EndsBadly ts := by
  obtain ⟨t, ht, hx⟩ := hb
  refine ⟨t, ?_, hx⟩
  obtain ⟨p, rfl⟩ := h
  rw [List.getLast?_append, ht]; rfl

/-- What is left is the end of `ts`, and a panic only happens when `ts` ends badly. -/
def Safe {α : Type} (ts : List Token) (o : Out Err (α × List Token)) : Prop :=
  (∀ a r, o = .ok (a, r) → r <:+ ts) ∧ (o = .panic → EndsBadly ts)

/-- The same for results without tokens. -/
def Calm {α : Type} (ts : List Token) (o : Out Err α) : Prop := o = .panic → EndsBadly ts

namespace Safe
variable {α β : Type} {ts r : List Token}

theorem err (e : Err) : Safe (α := α) ts (.err e) :=
  ⟨nofun, nofun⟩

theorem div : Safe (α := α) ts .diverge := ⟨nofun, nofun⟩

theorem ok (x : α × List Token) (h : x.2 <:+ ts) : Safe ts (.ok x) :=
  ⟨fun _ _ e => (by cases e; exact h), fun e => by cases e⟩

theorem weaken {o : Out Err (α × List Token)} (h : Safe r o) (hs : r <:+ ts) : Safe ts o :=
  ⟨fun a r' e => (h.1 a r' e).trans hs, fun e => (h.2 e).of_suffix hs⟩

theorem bind {m : Out Err (α × List Token)} {f : α × List Token → Out Err (β × List Token)}
    (hm : Safe ts m) (hf : ∀ x : α × List Token, x.2 <:+ ts → Safe ts (f x)) : Safe ts (m.bind f) := by
  cases m with
  | ok x => exact hf x (hm.1 x.1 x.2 rfl)
  | err e => exact err e
  | panic => exact ⟨nofun, fun _ => hm.2 rfl⟩
  | diverge => exact div

theorem attempt {m : Out Err (α × List Token)} {f : Option (α × List Token) → Out Err (β × List Token)}
    (hm : Safe ts m) (hf : ∀ x : Option (α × List Token), (∀ y, x = some y → y.2 <:+ ts) → Safe ts (f x)) :
    Safe ts (m.attempt.bind f) := by
  cases m with
  | ok x => exact hf (some x) (fun y e => by cases e; exact hm.1 x.1 x.2 rfl)
  | err e => exact hf none (fun y e => by cases e)
  | panic => exact ⟨nofun, fun _ => hm.2 rfl⟩
  | diverge => exact div

theorem calm {m : Out Err α} {f : α → Out Err (β × List Token)}
    (hm : Calm ts m) (hf : ∀ x, Safe ts (f x)) : Safe ts (m.bind f) := by
  cases m with
  | ok x => exact hf x
  | err e => exact err e
  | panic => exact ⟨nofun, fun _ => hm rfl⟩
  | diverge => exact div

theorem ite {c : Prop} [Decidable c] {a b : Out Err (α × List Token)} (h : c → Safe ts a)
    (h' : ¬ c → Safe ts b) : Safe ts (if c then a else b) := by
  by_cases hc : c
  · rw [if_pos hc]; exact h hc
  · rw [if_neg hc]; exact h' hc

end Safe

theorem expect_calm (p : Token → Bool) (ts r : List Token) : Calm ts (expect p r) := by
  cases r <;> exact fun h => by cases h

theorem expectAll_calm (ps : List (Token → Bool)) (ts r : List Token) : Calm ts (expectAll ps r) := by
  unfold expectAll
  intro h
  split at h <;> cases h

theorem skip_safe (p : Token → Bool) (r : List Token) : Safe r (skip p r) := by
  cases r with
  | nil => exact .err _
  | cons t us =>
    unfold skip
    exact .ite (fun _ => .ok _ (List.suffix_cons t us)) (fun _ => .ok _ (List.suffix_refl _))

theorem need_safe (p : Token → Bool) (r : List Token) : Safe r (need p r) := by
  cases r with
  | nil => exact .err _
  | cons t us =>
    unfold need
    exact .ite (fun _ => .ok _ (List.suffix_cons t us)) (fun _ => .err _)

theorem closingToken_safe (b e : Token → Bool) (l : Int) (t : Token) (us : List Token) :
    Safe us (closingToken b e l t us) := by
  induction us generalizing l t with
  | nil => exact .err _
  | cons u us ih =>
    unfold closingToken
    refine .ite (fun _ => .ite (fun _ => .ok _ (List.suffix_cons _ _)) (fun _ => ?_)) (fun _ => ?_)
    · exact .bind ((ih _ u).weaken (List.suffix_cons _ _)) fun x hx => .ok _ hx
    · exact .bind ((ih _ u).weaken (List.suffix_cons _ _)) fun x hx => .ok _ hx

theorem parseSetIsh_safe (ts : List Token) : Safe ts (parseSetIsh ts) := by
  cases ts with
  | nil => exact .err _
  | cons t us =>
    unfold parseSetIsh
    refine .ite (fun _ => ?_) (fun _ => .ite (fun _ => ?_) (fun _ => .err _))
    · exact .bind ((closingToken_safe _ _ _ _ _).weaken (List.suffix_cons _ _)) fun x hx => .ok _ hx
    · exact .bind ((closingToken_safe _ _ _ _ _).weaken (List.suffix_cons _ _)) fun x hx => .ok _ hx

theorem parseValue_safe (ts : List Token) : Safe ts (parseValue ts) := by
  cases ts with
  | nil => exact .err _
  | cons t us =>
    unfold parseValue
    exact .ite (fun _ => .ok _ (List.suffix_cons _ _))
      (fun _ => .ite (fun _ => parseSetIsh_safe _) (fun _ => .err _))

theorem parseInBrackets_safe (ts : List Token) : Safe ts (parseInBrackets ts) := by
  cases ts with
  | nil => exact .err _
  | cons t us =>
    unfold parseInBrackets
    refine .ite (fun _ => ?_) (fun _ => .ite (fun _ => ?_) (fun _ => .err _))
    · exact .bind ((need_safe _ _).weaken (List.suffix_cons _ _)) fun x hx => .ok _ hx
    · exact .bind ((need_safe _ _).weaken (List.suffix_cons _ _)) fun x hx => .ok _ hx

theorem parseNamedMaybeValue_safe (ts : List Token) : Safe ts (parseNamedMaybeValue ts) := by
  unfold parseNamedMaybeValue
  refine .bind (need_safe _ _) fun i hi => ?_
  split
  · exact .ok _ (List.nil_suffix)
  · rename_i b r h
    rw [h] at hi
    refine .ite (fun _ => ?_) (fun _ => .ok _ hi)
    exact .bind ((parseInBrackets_safe _).weaken ((List.suffix_cons _ _).trans hi)) fun x hx => .ok _ hx

theorem namedValuesLoop_safe (n : Nat) : ∀ vs ts, Safe ts (namedValuesLoop n vs ts) := by
  induction n with
  | zero => exact fun _ _ => .div
  | succ n ih =>
    intro vs ts
    rw [namedValuesLoop]
    refine .bind (parseNamedMaybeValue_safe _) fun x hx => ?_
    split
    · exact .err _
    · split
      · exact .err _
      · rename_i h
        rw [h] at hx
        have hy := (List.suffix_cons _ _).trans hx
        exact .ite (fun _ => (ih _ _).weaken hy)
          (fun _ => .ite (fun _ => .ok _ hy) (fun _ => .err _))

theorem parseMaybeNamedValues_safe (n : Nat) (ts : List Token) : Safe ts (parseMaybeNamedValues n ts) := by
  cases ts with
  | nil => exact .ok _ (List.suffix_refl _)
  | cons t us =>
    unfold parseMaybeNamedValues parseNamedValues
    refine .ite (fun _ => ?_) (fun _ => .ok _ (List.suffix_refl _))
    refine .bind (.bind (need_safe _ _) fun x hx => (namedValuesLoop_safe _ _ _).weaken hx) fun x hx => .ok _ hx

theorem parseInteger_safe (n : Nat) (ts : List Token) : Safe ts (parseInteger n ts) := by
  unfold parseInteger
  exact .bind (need_safe _ _) fun x hx =>
    .bind ((parseMaybeNamedValues_safe _ _).weaken hx) fun y hy => .ok _ hy

theorem parseBitString_safe (n : Nat) (ts : List Token) : Safe ts (parseBitString n ts) := by
  unfold parseBitString
  exact .calm (expectAll_calm _ _ _) fun b => .ite (fun _ =>
    .bind ((parseMaybeNamedValues_safe _ _).weaken (List.drop_suffix _ _)) fun y hy => .ok _ hy)
    (fun _ => .err _)

theorem enumValuesLoop_safe (n : Nat) : ∀ vs ts, Safe ts (enumValuesLoop n vs ts) := by
  induction n with
  | zero => exact fun _ _ => .div
  | succ n ih =>
    intro vs ts
    rw [enumValuesLoop]
    refine .bind (parseNamedMaybeValue_safe _) fun x hx => ?_
    refine .bind ((skip_safe _ _).weaken hx) fun y hy => ?_
    refine .calm (expect_calm _ _ _) fun b => ?_
    exact .ite (fun _ => .ok _ hy) (fun _ => (ih _ _).weaken hy)

theorem parseEnumerated_safe (n : Nat) (ts : List Token) : Safe ts (parseEnumerated n ts) := by
  unfold parseEnumerated
  refine .bind (need_safe _ _) fun a ha => ?_
  refine .bind ((need_safe _ _).weaken ha) fun b hb => ?_
  refine .bind ((enumValuesLoop_safe _ _ _).weaken hb) fun root hr => ?_
  refine .bind ((skip_safe _ _).weaken hr) fun m hm => ?_
  refine .bind ((skip_safe _ _).weaken hm) fun c hc => ?_
  refine .attempt ((enumValuesLoop_safe _ _ _).weaken hc) fun ext he => ?_
  have h : (ext.getD ([], c.2)).2 <:+ ts := by
    cases ext with
    | none => exact hc
    | some y => exact he y rfl
  exact .bind ((need_safe _ _).weaken h) fun z hz => .ok _ hz

theorem parseSetParam_safe (ts : List Token) : Safe ts (parseSetParam ts) := by
  unfold parseSetParam
  refine .bind (skip_safe _ _) fun a ha => .ite (fun _ => ?_) (fun _ => .ok _ ha)
  refine .bind ((need_safe _ _).weaken ha) fun p hp => ?_
  exact .bind ((need_safe _ _).weaken hp) fun z hz => .ok _ hz

theorem parseSingleParam_safe (ts : List Token) : Safe ts (parseSingleParam ts) := by
  cases ts with
  | nil => exact .err _
  | cons t us =>
    unfold parseSingleParam
    exact .ite (fun _ => .ok _ (List.suffix_cons _ _)) (fun _ => .ok _ (List.suffix_refl _))

theorem actualParamsLoop_safe (n : Nat) : ∀ ps ts, Safe ts (actualParamsLoop n ps ts) := by
  induction n with
  | zero => exact fun _ _ => .div
  | succ n ih =>
    intro ps ts
    rw [actualParamsLoop]
    refine .bind (parseSetParam_safe _) fun a ha => ?_
    refine .bind ((parseSingleParam_safe _).weaken ha) fun b hb => ?_
    refine .bind ((skip_safe _ _).weaken hb) fun c hc => ?_
    refine .bind ((skip_safe _ _).weaken hc) fun z hz => ?_
    exact .ite (fun _ => .ok _ hz) (fun _ => (ih _ _).weaken hz)

theorem parseReference_safe (n : Nat) (t : Token) (ts : List Token) : Safe ts (parseReference n t ts) := by
  unfold parseReference
  split
  · rename_i r h
    refine .ok _ ?_
    unfold parseClassField at h
    split at h
    · split at h
      · cases h; exact (List.suffix_cons _ _).trans (List.suffix_cons _ _)
      · cases h
    · cases h
  · have h : (parseReferenceName t ts).2 <:+ ts := by
      unfold parseReferenceName
      split
      · split
        · exact (List.suffix_cons _ _).trans (List.suffix_cons _ _)
        · exact List.suffix_refl _
      · exact List.suffix_refl _
    dsimp only
    refine Safe.weaken ?_ h
    generalize (parseReferenceName t ts).2 = r
    cases r with
    | nil => exact .ok _ (List.suffix_refl _)
    | cons u us =>
      unfold parseMaybeParams parseActualParams
      refine .ite (fun _ => ?_) (fun _ => .ok _ (List.suffix_refl _))
      refine .bind (.bind (need_safe _ _) fun x hx => (actualParamsLoop_safe _ _ _).weaken hx) fun x hx => ?_
      exact .ite (fun _ => .ok _ hx) (fun _ => .ok _ hx)

theorem parseTable_safe (ts : List Token) : Safe ts (parseTable ts) := by
  unfold parseTable
  refine .bind (need_safe _ _) fun a ha => .calm (expectAll_calm _ _ _) fun b => .ite (fun _ => ?_) (fun _ => .err _)
  have h3 : a.2.drop 3 <:+ ts := (List.drop_suffix _ _).trans ha
  dsimp only
  split
  · exact .bind ((need_safe _ _).weaken ((List.drop_suffix _ _).trans h3)) fun z hz => .ok _ hz
  · exact .bind ((need_safe _ _).weaken h3) fun z hz => .ok _ hz

theorem parseContents_safe (ts : List Token) : Safe ts (parseContents ts) := by
  unfold parseContents
  refine .bind (need_safe _ _) fun a ha => ?_
  refine .bind ((need_safe _ _).weaken ha) fun b hb => ?_
  refine .bind ((need_safe _ _).weaken hb) fun c hc => ?_
  exact .bind ((need_safe _ _).weaken hc) fun z hz => .ok _ hz

theorem parseEndPoint_safe (ts : List Token) : Safe ts (parseEndPoint ts) := by
  unfold parseEndPoint
  refine .attempt (parseValue_safe _) fun x hx => ?_
  split
  · exact .ok _ (hx _ rfl)
  · exact .bind (need_safe _ _) fun y hy => .ok _ hy

theorem parseLowerMark_safe (ts : List Token) : Safe ts (parseLowerMark ts) := by
  cases ts with
  | nil => exact .err _
  | cons t us =>
    unfold parseLowerMark
    refine .ite (fun h => ?_) (fun _ => .ite (fun _ => .ok _ (List.suffix_cons _ _)) (fun _ => .err _))
    cases us with
    | nil =>
      refine ⟨nofun, fun _ => ⟨t, rfl, .inr (.inr ?_)⟩⟩
      exact eq_of_beq h
    | cons v vs => exact .ok _ ((List.suffix_cons _ _).trans (List.suffix_cons _ _))

theorem parseRange_safe (ts : List Token) : Safe ts (parseRange ts) := by
  unfold parseRange
  refine .bind (parseEndPoint_safe _) fun lo hlo => ?_
  refine .bind ((parseLowerMark_safe _).weaken hlo) fun m hm => ?_
  refine .bind ((skip_safe _ _).weaken hm) fun u hu => ?_
  exact .bind ((parseEndPoint_safe _).weaken hu) fun hi hhi => .ok _ hhi

theorem twoWords_safe (k : Kind) (t : Token) (ts : List Token)
    (h : t.text = "OCTET".toList ∨ t.text = "CHARACTER".toList) : Safe (t :: ts) (twoWords k ts) := by
  cases ts with
  | nil =>
    refine ⟨nofun, fun _ => ⟨t, rfl, ?_⟩⟩
    rcases h with h | h
    · exact .inl h
    · exact .inr (.inl h)
  | cons v vs => exact .ok _ ((List.suffix_cons _ _).trans (List.suffix_cons _ _))

theorem parseObjectIdentifier_safe (ts : List Token) : Safe ts (parseObjectIdentifier ts) := by
  unfold parseObjectIdentifier
  exact .calm (expectAll_calm _ _ _) fun b =>
    .ite (fun _ => .ok _ (List.drop_suffix _ _)) (fun _ => .err _)

theorem parseSeqVersion_safe (ts : List Token) : Safe ts (parseSeqVersion ts) := by
  cases ts with
  | nil => exact .ok _ (List.suffix_refl _)
  | cons t us =>
    unfold parseSeqVersion
    exact .ite (fun _ => .bind ((need_safe _ _).weaken (List.suffix_cons _ _)) fun x hx => .ok _ hx)
      (fun _ => .ok _ (List.suffix_refl _))

theorem parseChoiceVersion_safe (ts : List Token) : Safe ts (parseChoiceVersion ts) := by
  cases ts with
  | nil => exact .err _
  | cons t us =>
    unfold parseChoiceVersion
    exact .ite (fun _ => .bind ((need_safe _ _).weaken (List.suffix_cons _ _)) fun x hx => .ok _ hx)
      (fun _ => .ok _ (List.suffix_refl _))

theorem parseMarker_safe (ts : List Token) : Safe ts (parseMarker ts) := by
  unfold parseMarker
  refine .bind (skip_safe _ _) fun m hm => .ite (fun _ => ?_) (fun _ => .ok _ hm)
  exact .bind ((skip_safe _ _).weaken hm) fun c hc => .ok _ hc

theorem parsePresence_safe (ts : List Token) : Safe ts (parsePresence ts) := by
  unfold parsePresence
  refine .bind (skip_safe _ _) fun o ho => ?_
  refine .bind ((skip_safe _ _).weaken ho) fun d hd => .ite (fun _ => ?_) (fun _ => .ok _ hd)
  exact .bind ((parseValue_safe _).weaken hd) fun v hv => .ite (fun _ => .err _) (fun _ => .ok _ hv)

/-- The functions of the mutual recursion. -/
structure SafeAt (n : Nat) : Prop where
  type : ∀ ts, Safe ts (parseType n ts)
  kind : ∀ t ts, Safe (t :: ts) (parseKind n t ts)
  constraints : ∀ ts, Safe ts (parseConstraints n ts)
  constraint : ∀ ts, Safe ts (parseConstraint n ts)
  elementSet : ∀ ts, Safe ts (parseElementSet n ts)
  union : ∀ s ts, Safe ts (unionLoop n s ts)
  inter : ∀ es b ts, Safe ts (interLoop n es b ts)
  elements : ∀ ts, Safe ts (parseElements n ts)
  elementsRest : ∀ ts, Safe ts (parseElementsRest n ts)
  seqOrSeqOf : ∀ ts, Safe ts (parseSeqOrSeqOf n ts)
  seqLoop : ∀ r a m ts, Safe ts (seqLoop n r a m ts)
  seqAfter : ∀ r a m ts, Safe ts (seqAfter n r a m ts)
  seqOf : ∀ ts, Safe ts (parseSeqOf n ts)
  seqComponent : ∀ ts, Safe ts (parseSeqComponent n ts)
  seqGroup : ∀ ts, Safe ts (parseSeqGroup n ts)
  seqGroupLoop : ∀ cs ts, Safe ts (seqGroupLoop n cs ts)
  component : ∀ ts, Safe ts (parseComponent n ts)
  choice : ∀ ts, Safe ts (parseChoice n ts)
  choiceLoop : ∀ r g b m ts, Safe ts (choiceLoop n r g b m ts)
  choiceAfter : ∀ r g b m ts, Safe ts (choiceAfter n r g b m ts)
  choiceGroup : ∀ ts, Safe ts (parseChoiceGroup n ts)
  choiceGroupLoop : ∀ cs ts, Safe ts (choiceGroupLoop n cs ts)

theorem SafeAt.zero : SafeAt 0 := by
  constructor <;> intros <;> simp only [parseType, parseKind, parseConstraints,
    parseConstraint, parseElementSet, unionLoop, interLoop, parseElements, parseElementsRest,
    parseSeqOrSeqOf, Hampi.Compiler.seqLoop, Hampi.Compiler.seqAfter, parseSeqOf, parseSeqComponent,
    parseSeqGroup, Hampi.Compiler.seqGroupLoop, parseComponent, parseChoice,
    Hampi.Compiler.choiceLoop, Hampi.Compiler.choiceAfter, parseChoiceGroup,
    Hampi.Compiler.choiceGroupLoop] <;> exact .div

/-- What is left after an attempt. -/
theorem rest_suffix {α : Type} {x : Option (α × List Token)} {ts : List Token}
    (h : ∀ y, x = some y → y.2 <:+ ts) : (x.map (·.2)).getD ts <:+ ts := by
  cases x with
  | none => exact List.suffix_refl _
  | some y => exact h y rfl

theorem SafeAt.succ {n : Nat} (h : SafeAt n) : SafeAt (n + 1) where
  type ts := by
    cases ts with
    | nil => rw [parseType]; exact .err _
    | cons t ts =>
      rw [parseType]
      exact .ite (fun _ => .bind (h.kind _ _) fun k hk =>
        .bind ((h.constraints _).weaken hk) fun c hc => .ok _ hc) (fun _ => .err _)
  kind t ts := by
    have hs := List.suffix_cons t ts
    rw [parseKind]
    refine .ite (fun _ => parseBitString_safe _ _) fun _ => .ite (fun e => twoWords_safe _ _ _ (.inl e)) fun _ =>
      .ite (fun e => twoWords_safe _ _ _ (.inr e)) fun _ => .ite (fun _ => parseEnumerated_safe _ _) fun _ =>
      .ite (fun _ => parseInteger_safe _ _) fun _ => .ite (fun _ => parseObjectIdentifier_safe _) fun _ =>
      .ite (fun _ => .ok _ hs) fun _ => .ite (fun _ => .ok _ hs) fun _ => .ite (fun _ => .ok _ hs) fun _ =>
      .ite (fun _ => h.choice _) fun _ => .ite (fun _ => h.seqOrSeqOf _) fun _ =>
      (parseReference_safe _ _ _).weaken hs
  constraints ts := by
    rw [parseConstraints]
    refine .attempt (h.constraint _) fun x hx => ?_
    split
    · exact .bind ((h.constraints _).weaken (hx _ rfl)) fun c hc => .ok _ hc
    · exact .ok _ (List.suffix_refl _)
  constraint ts := by
    rw [parseConstraint]
    refine .attempt (h.elementSet _) fun x hx => ?_
    split
    · exact .ok _ (hx _ rfl)
    · refine .attempt (parseTable_safe _) fun y hy => ?_
      split
      · exact .ok _ (hy _ rfl)
      · refine .attempt (parseContents_safe _) fun z hz => ?_
        split
        · exact .ok _ (hz _ rfl)
        · exact .err _
  elementSet ts := by
    rw [parseElementSet]
    refine .bind (need_safe _ _) fun a ha => .bind ((h.union _ _).weaken ha) fun root hr =>
      .ite (fun _ => .err _) fun _ => .bind ((skip_safe _ _).weaken hr) fun c hc => .ite (fun _ => ?_) fun _ =>
      .bind ((need_safe _ _).weaken hc) fun z hz => .ok _ hz
    refine .bind ((need_safe _ _).weaken hc) fun e he => .bind ((skip_safe _ _).weaken he) fun d hd =>
      .attempt ((h.union _ _).weaken hd) fun x hx => ?_
    split
    · exact .bind ((need_safe _ _).weaken (hx _ rfl)) fun z hz => .ok _ hz
    · exact .bind ((need_safe _ _).weaken hd) fun z hz => .ok _ hz
  union s ts := by
    rw [unionLoop]
    exact .bind (h.inter _ _ _) fun i hi => .bind ((skip_safe _ _).weaken hi) fun u hu =>
      .ite (fun _ => (h.union _ _).weaken hu) fun _ => .ok _ hu
  inter es b ts := by
    rw [interLoop]
    refine .attempt (h.elements _) fun x hx => ?_
    split
    · exact .bind ((skip_safe _ _).weaken (hx _ rfl)) fun c hc =>
        .ite (fun _ => (h.inter _ _ _).weaken hc) fun _ => .ok _ hc
    · exact .ite (fun _ => .err _) fun _ => .bind (skip_safe _ _) fun c hc =>
        .ite (fun _ => (h.inter _ _ _).weaken hc) fun _ => .ok _ hc
  elements ts := by
    cases ts with
    | nil => rw [parseElements]; exact .err _
    | cons t ts =>
      have hs := List.suffix_cons t ts
      rw [parseElements]
      refine .ite (fun _ => .calm (expect_calm _ _ _) fun b => .ite (fun _ => ?_) fun _ =>
        (h.elementsRest _).weaken hs) fun _ => h.elementsRest _
      exact .bind ((h.elementSet _).weaken hs) fun e he => .ok _ he
  elementsRest ts := by
    rw [parseElementsRest]
    refine .attempt (parseRange_safe _) fun x hx => ?_
    split
    · exact .ok _ (hx _ rfl)
    · refine .calm (expect_calm _ _ _) fun b => .ite (fun _ =>
        .bind (h.elementSet _) fun e he => .ok _ he) fun _ => .attempt (parseValue_safe _) fun y hy => ?_
      split
      · exact .ok _ (hy _ rfl)
      · refine .attempt (h.type _) fun z hz => ?_
        split
        · exact .ok _ (hz _ rfl)
        · exact .err _
  seqOrSeqOf ts := by
    rw [parseSeqOrSeqOf]
    exact .bind (need_safe _ _) fun a ha => .calm (expect_calm _ _ _) fun b =>
      .ite (fun _ => .bind ((need_safe _ _).weaken ha) fun c hc => (h.seqLoop _ _ _ _).weaken hc) fun _ =>
        (h.seqOf _).weaken ha
  seqLoop r a m ts := by
    rw [Hampi.Compiler.seqLoop]
    refine .attempt (h.seqComponent _) fun x hx => ?_
    have hc : (x.getD (none, ts)).2 <:+ ts := by
      cases x with
      | none => exact List.suffix_refl _
      | some y => exact hx y rfl
    exact .calm (expect_calm _ _ _) fun b => .ite (fun _ => .ite (fun _ =>
      .bind ((h.seqGroup _).weaken hc) fun g hg => (h.seqAfter _ _ _ _).weaken hg) fun _ => .err _) fun _ =>
      (h.seqAfter _ _ _ _).weaken hc
  seqAfter r a m ts := by
    rw [Hampi.Compiler.seqAfter]
    exact .bind (skip_safe _ _) fun c hc => .bind ((parseMarker_safe _).weaken hc) fun m hm =>
      .bind ((skip_safe _ _).weaken hm) fun z hz => .ite (fun _ => .ok _ hz) fun _ =>
        (h.seqLoop _ _ _ _).weaken hz
  seqOf ts := by
    rw [parseSeqOf]
    exact .attempt (h.constraint _) fun x hx => .bind ((need_safe _ _).weaken (rest_suffix hx)) fun o ho =>
      .bind ((h.type _).weaken ho) fun ty hty => .ok _ hty
  seqComponent ts := by
    rw [parseSeqComponent]
    refine .attempt (h.component _) fun x hx => ?_
    split
    · refine .bind ((parsePresence_safe _).weaken (hx _ rfl)) fun p hp => ?_
      split
      exact .ok _ hp
    · exact .ok _ (List.suffix_refl _)
  seqGroup ts := by
    rw [parseSeqGroup]
    exact .bind (need_safe _ _) fun a ha => .bind ((parseSeqVersion_safe _).weaken ha) fun v hv =>
      .bind ((h.seqGroupLoop _ _).weaken hv) fun cs hcs => .ite (fun _ => .err _) fun _ =>
      .bind ((need_safe _ _).weaken hcs) fun z hz => .ok _ hz
  seqGroupLoop cs ts := by
    rw [Hampi.Compiler.seqGroupLoop]
    refine .bind (h.seqComponent _) fun c hc => ?_
    split
    · exact .ok _ (List.suffix_refl _)
    · exact .bind ((skip_safe _ _).weaken hc) fun d hd => (h.seqGroupLoop _ _).weaken hd
  component ts := by
    rw [parseComponent]
    exact .bind (need_safe _ _) fun i hi => .bind ((h.type _).weaken hi) fun ty hty => .ok _ hty
  choice ts := by
    rw [parseChoice]
    exact .bind (need_safe _ _) fun a ha => .bind ((need_safe _ _).weaken ha) fun b hb =>
      (h.choiceLoop _ _ _ _ _).weaken hb
  choiceLoop r g b m ts := by
    rw [Hampi.Compiler.choiceLoop]
    refine .attempt (h.component _) fun x hx => ?_
    have hc := rest_suffix hx
    exact .calm (expect_calm _ _ _) fun b => .ite (fun _ => .ite (fun _ =>
      .bind ((h.choiceGroup _).weaken hc) fun g hg => (h.choiceAfter _ _ _ _ _).weaken hg) fun _ => .err _) fun _ =>
      (h.choiceAfter _ _ _ _ _).weaken hc
  choiceAfter r g b m ts := by
    rw [Hampi.Compiler.choiceAfter]
    exact .bind (skip_safe _ _) fun c hc => .calm (expect_calm _ _ _) fun e => .ite (fun _ => .err _) fun _ =>
      .bind ((parseMarker_safe _).weaken hc) fun m hm =>
      .bind ((skip_safe _ _).weaken hm) fun z hz => .ite (fun _ => .ok _ hz) fun _ =>
        (h.choiceLoop _ _ _ _ _).weaken hz
  choiceGroup ts := by
    rw [parseChoiceGroup]
    exact .bind (need_safe _ _) fun a ha => .bind ((parseChoiceVersion_safe _).weaken ha) fun v hv =>
      .bind ((h.choiceGroupLoop _ _).weaken hv) fun cs hcs => .ite (fun _ => .err _) fun _ => .ok _ hcs
  choiceGroupLoop cs ts := by
    rw [Hampi.Compiler.choiceGroupLoop]
    exact .attempt (h.component _) fun x hx => .bind ((skip_safe _ _).weaken (rest_suffix hx)) fun d hd =>
      .bind ((skip_safe _ _).weaken hd) fun z hz => .ite (fun _ => .ok _ hz) fun _ =>
        (h.choiceGroupLoop _ _).weaken hz

theorem safeAt (n : Nat) : SafeAt n := by
  induction n with
  | zero => exact .zero
  | succ n ih => exact ih.succ

end Hampi.Compiler
