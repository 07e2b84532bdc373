import Verif.Lemmas.ParserSafe
/-!
# The functions for definitions and modules: more steps, what is left, when they panic
-/
namespace Hampi.Compiler

open Out (Le)

/-! ## More steps change no result -/

theorem parseFieldEnd_mono {α : Type} {p q : Parser α} (h : ∀ ts, Le (p ts) (q ts)) (ts : List Token) :
    Le (parseFieldEnd p ts) (parseFieldEnd q ts) := by
  cases ts with
  | nil => exact .refl _
  | cons t ts =>
    unfold parseFieldEnd
    mono
    apply h

theorem parseFieldSpec_mono (n : Nat) (ts : List Token) :
    Le (parseFieldSpec n ts) (parseFieldSpec (n + 1) ts) := by
  cases ts with
  | nil => exact .refl _
  | cons t ts =>
    unfold parseFieldSpec parseValueFieldSpec parseTypeFieldSpec
    mono
    · exact (monoAt n).type _
    · exact parseFieldEnd_mono (monoAt n).type _

theorem classLoop_mono (n : Nat) : ∀ fs ts, Le (classLoop n fs ts) (classLoop (n + 1) fs ts) := by
  induction n with
  | zero => exact fun _ _ => .bot _
  | succ n ih =>
    intro fs ts
    rw [classLoop, classLoop]
    mono
    · exact parseFieldSpec_mono n ts
    · apply ih

theorem withSyntaxLoop_mono (n : Nat) :
    ∀ b fs ts, Le (withSyntaxLoop n b fs ts) (withSyntaxLoop (n + 1) b fs ts) := by
  induction n with
  | zero => exact fun _ _ _ => .bot _
  | succ n ih =>
    intro b fs ts
    rw [withSyntaxLoop, withSyntaxLoop]
    mono <;> apply ih

theorem parseClass_mono (n : Nat) (ts : List Token) : Le (parseClass n ts) (parseClass (n + 1) ts) := by
  unfold parseClass parseWithSyntax
  mono
  · apply classLoop_mono
  · apply withSyntaxLoop_mono

theorem objectSetLoop_mono (n : Nat) :
    ∀ r a m ts, Le (objectSetLoop n r a m ts) (objectSetLoop (n + 1) r a m ts) := by
  induction n with
  | zero => exact fun _ _ _ _ => .bot _
  | succ n ih =>
    intro r a m ts
    rw [objectSetLoop, objectSetLoop]
    mono <;> apply ih

theorem paramsLoop_mono (n : Nat) : ∀ ns ts, Le (paramsLoop n ns ts) (paramsLoop (n + 1) ns ts) := by
  induction n with
  | zero => exact fun _ _ => .bot _
  | succ n ih =>
    intro ns ts
    rw [paramsLoop, paramsLoop]
    mono
    apply ih

theorem parseTypeAssignment_mono (n : Nat) (ts : List Token) :
    Le (parseTypeAssignment n ts) (parseTypeAssignment (n + 1) ts) := by
  unfold parseTypeAssignment parseParams
  mono
  · apply paramsLoop_mono
  · exact (monoAt n).type _

theorem parseDefinition_mono (n : Nat) (ts : List Token) :
    Le (parseDefinition n ts) (parseDefinition (n + 1) ts) := by
  cases ts with
  | nil => exact .refl _
  | cons t ts =>
    unfold parseDefinition parseValueish parseTypeish parseValueAssignment parseClassAssignment
      parseObjectSetAssignment parseObjectSet
    mono
    · exact (monoAt n).type _
    · apply parseTypeAssignment_mono
    · apply parseClass_mono
    · apply objectSetLoop_mono

theorem oidLoop_mono (n : Nat) : ∀ cs ts, Le (oidLoop n cs ts) (oidLoop (n + 1) cs ts) := by
  induction n with
  | zero => exact fun _ _ => .bot _
  | succ n ih =>
    intro cs ts
    rw [oidLoop, oidLoop]
    mono
    apply ih

theorem parseModuleName_mono (n : Nat) (ts : List Token) :
    Le (parseModuleName n ts) (parseModuleName (n + 1) ts) := by
  cases ts with
  | nil => exact .refl _
  | cons t ts =>
    unfold parseModuleName
    cases ts with
    | nil => exact .refl _
    | cons u us =>
      unfold parseMaybeOid
      mono
      apply oidLoop_mono

theorem importNames_mono (n : Nat) : ∀ ns ts, Le (importNames n ns ts) (importNames (n + 1) ns ts) := by
  induction n with
  | zero => exact fun _ _ => .bot _
  | succ n ih =>
    intro ns ts
    cases ts with
    | nil => exact .refl _
    | cons t ts =>
      rw [importNames, importNames]
      refine .ite (.refl _) (.bind (.refl _) fun c => ih _ _)

theorem importsLoop_mono (n : Nat) : ∀ is ts, Le (importsLoop n is ts) (importsLoop (n + 1) is ts) := by
  induction n with
  | zero => exact fun _ _ => .bot _
  | succ n ih =>
    intro is ts
    rw [importsLoop, importsLoop]
    mono
    · apply importNames_mono
    · apply parseModuleName_mono
    · apply ih

theorem definitionsLoop_mono (n : Nat) :
    ∀ ds ts, Le (definitionsLoop n ds ts) (definitionsLoop (n + 1) ds ts) := by
  induction n with
  | zero => exact fun _ _ => .bot _
  | succ n ih =>
    intro ds ts
    rw [definitionsLoop, definitionsLoop]
    mono
    · apply parseDefinition_mono
    · apply ih

theorem parseModule_mono (n : Nat) (ts : List Token) : Le (parseModule n ts) (parseModule (n + 1) ts) := by
  unfold parseModule parseImports
  mono
  · apply parseModuleName_mono
  · apply importsLoop_mono
  · apply definitionsLoop_mono

theorem modulesLoop_mono (n : Nat) : ∀ ms ts, Le (modulesLoop n ms ts) (modulesLoop (n + 1) ms ts) := by
  induction n with
  | zero => exact fun _ _ => .bot _
  | succ n ih =>
    intro ms ts
    rw [modulesLoop, modulesLoop]
    mono
    · apply parseModule_mono
    · apply ih

theorem parse_mono (n : Nat) (ts : List Token) : Le (parse n ts) (parse (n + 1) ts) :=
  modulesLoop_mono n _ _

/-! ## What is left and when they panic -/

theorem parseFieldEnd_safe {α : Type} {p : Parser α} (h : ∀ ts, Safe ts (p ts)) (ts : List Token) :
    Safe ts (parseFieldEnd p ts) := by
  cases ts with
  | nil => exact .err _
  | cons t ts =>
    have hs := List.suffix_cons t ts
    unfold parseFieldEnd
    exact .ite (fun _ => .ok _ hs) fun _ => .ite (fun _ => .bind ((h _).weaken hs) fun r hr => .ok _ hr)
      fun _ => .ok _ (List.suffix_refl _)

theorem parseUnique_suffix (ts : List Token) : (parseUnique ts).2 <:+ ts := by
  cases ts with
  | nil => exact List.suffix_refl _
  | cons t ts =>
    rw [parseUnique]
    split
    · exact List.suffix_cons _ _
    · exact List.suffix_refl _

theorem parseFieldSpec_safe (n : Nat) (ts : List Token) : Safe ts (parseFieldSpec n ts) := by
  cases ts with
  | nil => exact .err _
  | cons t ts =>
    unfold parseFieldSpec parseValueFieldSpec parseTypeFieldSpec
    refine .ite (fun _ => ?_) fun _ => .ite (fun _ => ?_) fun _ => .err _
    · refine .bind (need_safe _ _) fun i hi => .bind (((safeAt n).type _).weaken hi) fun ty hty => ?_
      refine .bind ((parseFieldEnd_safe parseValue_safe _).weaken ((parseUnique_suffix _).trans hty)) fun e he => ?_
      exact .ite (fun _ => .err _) fun _ => .ok _ he
    · exact .bind (need_safe _ _) fun i hi =>
        .bind ((parseFieldEnd_safe (safeAt n).type _).weaken hi) fun e he => .ok _ he

theorem classLoop_safe (n : Nat) : ∀ fs ts, Safe ts (classLoop n fs ts) := by
  induction n with
  | zero => exact fun _ _ => .div
  | succ n ih =>
    intro fs ts
    rw [classLoop]
    refine .bind (parseFieldSpec_safe _ _) fun f hf => ?_
    split
    · exact .err _
    · rename_i h
      rw [h] at hf
      have hy := (List.suffix_cons _ _).trans hf
      exact .ite (fun _ => (ih _ _).weaken hy) fun _ => .ite (fun _ => .ok _ hy) fun _ => .err _

theorem withWords_calm (b : Bool) (w : Text) (f : ClassField) (ts : List Token) : Calm ts (f.withWords b w) := by
  intro h
  cases f <;> · simp only [ClassField.withWords] at h; split at h <;> cases h

theorem closeGroup_safe (b : Bool) (ts : List Token) : Safe ts (closeGroup b ts) := by
  unfold closeGroup
  exact .bind (skip_safe _ _) fun e he =>
    .ite (fun _ => .ite (fun _ => .ok _ he) fun _ => .err _) fun _ => .ok _ he

theorem withSyntaxLoop_safe (n : Nat) : ∀ b fs ts, Safe ts (withSyntaxLoop n b fs ts) := by
  induction n with
  | zero => exact fun _ _ _ => .div
  | succ n ih =>
    intro b fs ts
    rw [withSyntaxLoop]
    refine .bind (skip_safe _ _) fun g hg => .ite (fun _ => .err _) fun _ => ?_
    have hd : (g.2.dropWhile fun t => !t.is .andIdentifier) <:+ ts := (List.dropWhile_suffix _).trans hg
    refine .bind ((need_safe _ _).weaken hd) fun f hf => ?_
    split
    · exact .err _
    · refine .calm (withWords_calm _ _ _ _) fun s => .bind ((skip_safe _ _).weaken hf) fun c hc =>
        .bind ((closeGroup_safe _ _).weaken hc) fun e he => .bind ((skip_safe _ _).weaken he) fun z hz => ?_
      exact .ite (fun _ => .ite (fun _ => .err _) fun _ => .ok _ hz) fun _ => (ih _ _ _).weaken hz

theorem parseClass_safe (n : Nat) (ts : List Token) : Safe ts (parseClass n ts) := by
  unfold parseClass parseWithSyntax
  refine .bind (need_safe _ _) fun a ha => .bind ((need_safe _ _).weaken ha) fun b hb =>
    .bind ((classLoop_safe _ _ _).weaken hb) fun f hf => .calm (expectAll_calm _ _ _) fun c =>
    .ite (fun _ => ?_) fun _ => .ok _ hf
  exact .bind ((need_safe _ _).weaken ((List.drop_suffix _ _).trans hf)) fun r hr =>
    (withSyntaxLoop_safe _ _ _ _).weaken hr

theorem parseSetElement_safe (ts : List Token) : Safe ts (parseSetElement ts) := by
  unfold parseSetElement
  refine .attempt (parseSetIsh_safe _) fun x hx => ?_
  split
  · exact .ok _ (hx _ rfl)
  · cases ts with
    | nil => exact .err _
    | cons t ts =>
      have hs := List.suffix_cons t ts
      exact .ite (fun _ => .ok _ hs) fun _ => .ite (fun _ => .ok _ hs) fun _ => .ok _ (List.suffix_refl _)

theorem objectSetLoop_safe (n : Nat) : ∀ r a m ts, Safe ts (objectSetLoop n r a m ts) := by
  induction n with
  | zero => exact fun _ _ _ _ => .div
  | succ n ih =>
    intro r a m ts
    rw [objectSetLoop]
    exact .calm (expect_calm _ _ _) fun e => .ite (fun _ => .err _) fun _ =>
      .bind (parseMarker_safe _) fun m hm => .bind ((parseSetElement_safe _).weaken hm) fun x hx =>
      .bind ((skip_safe _ _).weaken hx) fun c hc => .bind ((skip_safe _ _).weaken hc) fun u hu =>
      .bind ((skip_safe _ _).weaken hu) fun z hz => .ite (fun _ => .ok _ hz) fun _ => (ih _ _ _ _).weaken hz

theorem parseParam_safe (ts : List Token) : Safe ts (parseParam ts) := by
  unfold parseParam
  refine .calm (expectAll_calm _ _ _) fun b => .ite (fun _ => .ok _ (List.drop_suffix _ _)) fun _ => ?_
  cases ts with
  | nil => exact .err _
  | cons t ts =>
    unfold parseBareParam
    exact .ite (fun _ => .ok _ (List.suffix_cons _ _)) fun _ => .err _

theorem paramsLoop_safe (n : Nat) : ∀ ns ts, Safe ts (paramsLoop n ns ts) := by
  induction n with
  | zero => exact fun _ _ => .div
  | succ n ih =>
    intro ns ts
    rw [paramsLoop]
    exact .bind (parseParam_safe _) fun p hp => .bind ((skip_safe _ _).weaken hp) fun c hc =>
      .bind ((skip_safe _ _).weaken hc) fun z hz => .ite (fun _ => .ok _ hz) fun _ => (ih _ _).weaken hz

theorem parseObjectAssignment_safe (ts : List Token) : Safe ts (parseObjectAssignment ts) := by
  unfold parseObjectAssignment
  refine .calm (expectAll_calm _ _ _) fun b => .ite (fun _ => ?_) fun _ => .err _
  exact .bind ((need_safe _ _).weaken (List.drop_suffix _ _)) fun a ha =>
    .bind ((parseSetIsh_safe _).weaken ha) fun v hv => .ok _ hv

theorem parseValueAssignment_safe (n : Nat) (ts : List Token) : Safe ts (parseValueAssignment n ts) := by
  unfold parseValueAssignment
  exact .bind (need_safe _ _) fun i hi => .bind (((safeAt n).type _).weaken hi) fun ty hty =>
    .bind ((need_safe _ _).weaken hty) fun a ha => .bind ((parseValue_safe _).weaken ha) fun v hv => .ok _ hv

theorem parseTypeAssignment_safe (n : Nat) (ts : List Token) : Safe ts (parseTypeAssignment n ts) := by
  unfold parseTypeAssignment parseParams
  refine .bind (need_safe _ _) fun i hi => ?_
  refine Safe.weaken ?_ hi
  refine .attempt (.bind (need_safe _ _) fun r hr => (paramsLoop_safe _ _ _).weaken hr) fun p hp =>
    .bind ((need_safe _ _).weaken (rest_suffix hp)) fun a ha => .bind (((safeAt n).type _).weaken ha) fun ty hty =>
    .ok _ hty

theorem parseClassAssignment_safe (n : Nat) (ts : List Token) : Safe ts (parseClassAssignment n ts) := by
  unfold parseClassAssignment
  exact .bind (need_safe _ _) fun i hi => .bind ((need_safe _ _).weaken hi) fun a ha =>
    .bind ((parseClass_safe _ _).weaken ha) fun c hc => .ok _ hc

theorem parseObjectSetAssignment_safe (n : Nat) (ts : List Token) : Safe ts (parseObjectSetAssignment n ts) := by
  unfold parseObjectSetAssignment parseObjectSet
  exact .bind (need_safe _ _) fun i hi => .bind ((need_safe _ _).weaken hi) fun c hc =>
    .bind ((need_safe _ _).weaken hc) fun a ha =>
    .bind ((.bind (need_safe _ _) fun r hr => (objectSetLoop_safe _ _ _ _ _).weaken hr : Safe _ _).weaken ha)
      fun s hs => .ok _ hs

theorem parseDefinition_safe (n : Nat) (ts : List Token) : Safe ts (parseDefinition n ts) := by
  cases ts with
  | nil => exact .err _
  | cons t ts =>
    unfold parseDefinition parseValueish parseTypeish
    refine .ite (fun _ => ?_) fun _ => .ite (fun _ => ?_) fun _ => .err _
    · refine .attempt (parseObjectAssignment_safe _) fun x hx => ?_
      split
      · exact .ok _ (hx _ rfl)
      · refine .attempt (parseValueAssignment_safe _ _) fun y hy => ?_
        split
        · exact .ok _ (hy _ rfl)
        · exact .err _
    · refine .attempt (parseTypeAssignment_safe _ _) fun x hx => ?_
      split
      · exact .ok _ (hx _ rfl)
      · refine .attempt (parseClassAssignment_safe _ _) fun y hy => ?_
        split
        · exact .ok _ (hy _ rfl)
        · refine .attempt (parseObjectSetAssignment_safe _ _) fun z hz => ?_
          split
          · exact .ok _ (hz _ rfl)
          · exact .err _

theorem wellKnown_calm (t : Text) (ts : List Token) : Calm ts (wellKnown t) := by
  intro h
  unfold wellKnown at h
  split at h <;> cases h

theorem oidNumber_calm (t : Token) (ts : List Token) : Calm ts (oidNumber t) := by
  intro h
  unfold oidNumber at h
  split at h <;> cases h

theorem parseOidComponent_safe (ts : List Token) : Safe ts (parseOidComponent ts) := by
  cases ts with
  | nil => exact .err _
  | cons t ts =>
    have hs := List.suffix_cons t ts
    unfold parseOidComponent
    refine .ite (fun _ => ?_) fun _ => .ite (fun _ => .calm (oidNumber_calm _ _) fun v => .ok _ hs) fun _ => .err _
    unfold parseNamedOid
    refine .ite (fun _ => ?_) fun _ => .err _
    split
    · refine .ite (fun _ => .calm (oidNumber_calm _ _) fun v => .ok _ ?_)
        fun _ => .calm (wellKnown_calm _ _) fun v => .ok _ hs
      exact (((List.suffix_cons _ _).trans (List.suffix_cons _ _)).trans (List.suffix_cons _ _)).trans hs
    · exact .calm (wellKnown_calm _ _) fun v => .ok _ hs

theorem oidLoop_safe (n : Nat) : ∀ cs ts, Safe ts (oidLoop n cs ts) := by
  induction n with
  | zero => exact fun _ _ => .div
  | succ n ih =>
    intro cs ts
    rw [oidLoop]
    exact .bind (skip_safe _ _) fun z hz => .ite (fun _ => .ok _ hz) fun _ =>
      .bind (parseOidComponent_safe _) fun c hc => (ih _ _).weaken hc

theorem parseModuleName_safe (n : Nat) (ts : List Token) : Safe ts (parseModuleName n ts) := by
  cases ts with
  | nil => exact .err _
  | cons t ts =>
    have hs := List.suffix_cons t ts
    unfold parseModuleName
    refine .ite (fun _ => ?_) fun _ => .err _
    cases ts with
    | nil => exact .ok _ hs
    | cons u us =>
      unfold parseMaybeOid
      refine .bind ((.ite (fun _ => ?_) fun _ => .ok _ (List.suffix_refl _) : Safe (u :: us) _).weaken hs)
        fun o ho => .ok _ ho
      exact .bind ((oidLoop_safe _ _ _).weaken (List.suffix_cons _ _)) fun r hr => .ok _ hr

theorem parseTags_safe (ts : List Token) : Safe ts (parseTags ts) := by
  unfold parseTags
  exact .bind (skip_safe _ _) fun a ha => .ite (fun _ =>
    .bind ((need_safe _ _).weaken ha) fun r hr => .ok _ hr) fun _ => .ok _ ha

theorem importNames_safe (n : Nat) : ∀ ns ts, Safe ts (importNames n ns ts) := by
  induction n with
  | zero => exact fun _ _ => .div
  | succ n ih =>
    intro ns ts
    cases ts with
    | nil => exact .err _
    | cons t ts =>
      have hs := List.suffix_cons t ts
      rw [importNames]
      exact .ite (fun _ => .ok _ hs) fun _ => .bind ((skip_safe _ _).weaken hs) fun c hc => (ih _ _).weaken hc

theorem addImports_calm (m : Text) (ts : List Token) : ∀ ns is, Calm ts (addImports m is ns) := by
  intro ns
  induction ns with
  | nil => exact fun _ h => by cases h
  | cons d ds ih =>
    intro is h
    rw [addImports] at h
    split at h
    · cases h
    · exact ih _ h

theorem importsLoop_safe (n : Nat) : ∀ is ts, Safe ts (importsLoop n is ts) := by
  induction n with
  | zero => exact fun _ _ => .div
  | succ n ih =>
    intro is ts
    rw [importsLoop]
    exact .bind (importNames_safe _ _ _) fun d hd => .bind ((parseModuleName_safe _ _).weaken hd) fun m hm =>
      .calm (addImports_calm _ _ _ _) fun is' => .bind ((skip_safe _ _).weaken hm) fun z hz =>
      .ite (fun _ => .ok _ hz) fun _ => (ih _ _).weaken hz

theorem definitionsLoop_safe (n : Nat) : ∀ ds ts, Safe ts (definitionsLoop n ds ts) := by
  induction n with
  | zero => exact fun _ _ => .div
  | succ n ih =>
    intro ds ts
    rw [definitionsLoop]
    exact .bind (skip_safe _ _) fun z hz => .ite (fun _ => .ok _ hz) fun _ =>
      .bind (parseDefinition_safe _ _) fun d hd => (ih _ _).weaken hd

theorem parseModule_safe (n : Nat) (ts : List Token) : Safe ts (parseModule n ts) := by
  unfold parseModule parseImports
  refine .bind (parseModuleName_safe _ _) fun name h1 => .bind ((need_safe _ _).weaken h1) fun d h2 =>
    .bind ((parseTags_safe _).weaken h2) fun t h3 => .bind ((need_safe _ _).weaken h3) fun a h4 =>
    .bind ((need_safe _ _).weaken h4) fun b h5 => .bind (Safe.weaken ?_ h5) fun i h6 =>
    .bind ((definitionsLoop_safe _ _ _).weaken h6) fun defs h7 => .ok _ h7
  exact .bind (skip_safe _ _) fun a ha => .ite (fun _ => (importsLoop_safe _ _ _).weaken ha) fun _ => .ok _ ha

theorem modulesLoop_calm (n : Nat) : ∀ ms ts, Calm ts (modulesLoop n ms ts) := by
  induction n with
  | zero => exact fun _ _ h => by cases h
  | succ n ih =>
    intro ms ts h
    rw [modulesLoop] at h
    have hm := parseModule_safe n ts
    revert h
    cases hp : parseModule n ts with
    | ok x =>
      intro h
      dsimp only [Out.bind] at h
      split at h
      · cases h
      · exact (ih _ _ h).of_suffix (hm.1 x.1 x.2 hp)
    | err e => exact nofun
    | panic => exact fun _ => hm.2 hp
    | diverge => exact nofun

end Hampi.Compiler
