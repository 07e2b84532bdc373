import Verif.Lemmas.Refine
import Verif.Props.Pipeline
import Verif.Compiler.Main
import Verif.Lemmas.ParserDefsMono
/-! # More nested calls do not change what the compiler does -/
namespace Hampi.Compiler
open Out (Le)

/-- The first has not ended, or both have ended alike, with results that are related. -/
inductive Follows {ε α β : Type} (P : α → β → Prop) : Out ε α → Out ε β → Prop
  | open (r' : Out ε β) : Follows P .diverge r'
  | ok {a : α} {b : β} (h : P a b) : Follows P (.ok a) (.ok b)
  | err (e : ε) : Follows P (.err e) (.err e)
  | panic : Follows P .panic .panic

namespace Follows
variable {ε α β γ δ : Type} {P : α → β → Prop} {Q : γ → δ → Prop}

theorem bind {a : Out ε α} {b : Out ε β} {f : α → Out ε γ} {g : β → Out ε δ} (h : Follows P a b)
    (hf : ∀ x y, P x y → Follows Q (f x) (g y)) : Follows Q (a.bind f) (b.bind g) := by
  cases h with
  | «open» => exact .open _
  | ok h => exact hf _ _ h
  | err e => exact .err e
  | panic => exact .panic

theorem of_le {a b : Out ε α} (h : Le a b) : Follows Eq a b := by
  rcases h with rfl | rfl
  · exact .open _
  · cases a with
    | ok x => exact .ok rfl
    | err e => exact .err e
    | panic => exact .panic
    | diverge => exact .open _

theorem le {a b : Out ε α} (h : Follows Eq a b) : Le a b := by
  cases h with
  | «open» => exact .bot _
  | ok h => exact .inr (by rw [h])
  | err e => exact .refl _
  | panic => exact .refl _

theorem mapOut {ε α β γ δ : Type} {P : α → β → Prop} {Q : γ → δ → Prop} {f : α → Out ε γ} {g : β → Out ε δ} {l : List α}
    {l' : List β} (h : All2 P l l') (hf : ∀ x y, P x y → Follows Q (f x) (g y)) :
    Follows (All2 Q) (mapOut f l) (Compiler.mapOut g l') := by
  induction h with
  | nil => exact .ok .nil
  | cons h _ ih => exact .bind (hf _ _ h) fun x y hxy => .bind ih fun xs ys hs => .ok (.cons hxy hs)

end Follows

theorem Le.trans {ε α : Type} {a b c : Out ε α} (h : Le a b) (h' : Le b c) : Le a c := by
  rcases h with rfl | rfl
  · exact .bot _
  · exact h'

/-- From steps to any number. -/
theorem le_of_steps {ε α : Type} {f : Nat → Out ε α} (h : ∀ n, Le (f n) (f (n + 1))) {n m : Nat} (hnm : n ≤ m) :
    Le (f n) (f m) := by
  induction hnm with
  | refl => exact .refl _
  | step _ ih => exact Le.trans ih (h _)

/-! ## One definition, with more nested calls -/

/-- One call of `resolveValue`, with `f` for the calls in it. -/
def valueStep (f : Text → RType → Out Err RValue) (R : Resolver) (v : Text) (ty : RType) : Out Err RValue :=
  match get R.resolved v with
  | some (.value _) => .ok (.reference v)
  | some _ => .err .resolve
  | none =>
    match ty with
    | .base (.integer ..) =>
        match parseI128 v with
        | some i => .ok (.integer i)
        | none => .panic
    | .base (.enumerated ..) => .ok (.enum 0)
    | .reference r =>
        match get R.resolved r with
        | some (.type t) => (f v t).bind fun x => .ok (.referencedType r x)
        | _ => .err .resolve
    | _ => .err .resolve

theorem resolveValue_step (n : Nat) (R : Resolver) (v : Text) (ty : RType) :
    resolveValue (n + 1) R v ty = valueStep (resolveValue n R) R v ty := rfl

theorem resolveValue_mono (R : Resolver) (n : Nat) : ∀ v ty, Le (resolveValue n R v ty) (resolveValue (n + 1) R v ty) := by
  induction n with
  | zero => exact fun _ _ => .bot _
  | succ n ih =>
    intro v ty
    rw [resolveValue_step, resolveValue_step]
    unfold valueStep
    cases get R.resolved v with
    | some d => cases d <;> exact .refl _
    | none =>
      cases ty with
      | reference r =>
        dsimp only
        cases get R.resolved r with
        | none => exact .refl _
        | some d =>
          cases d with
          | type t => exact .bind (ih v t) fun _ => .refl _
          | _ => exact .refl _
      | base b => cases b <;> exact .refl _
      | _ => exact .refl _

theorem resolveField_mono (R : Resolver) (n : Nat) (f : ObjectField) : Le (resolveField n R f) (resolveField (n + 1) R f) := by
  match f with
  | .type none => exact .refl _
  | .type (some ty) => exact .bind (resolveType_mono R n ty) fun _ => .refl _
  | .fixedTypeValue ty v =>
    refine .bind (resolveType_mono R n ty) fun t => .bind ?_ fun _ => .refl _
    cases v with
    | none => exact .refl _
    | some v => exact .bind (resolveValue_mono R n v t) fun _ => .refl _

theorem resolveObject_mono (R : Resolver) (n : Nat) (v : ObjectValue) : Le (resolveObject n R v) (resolveObject (n + 1) R v) := by
  cases v with
  | input s => exact .refl _
  | fields fs =>
    exact .bind (mapOut_mono (fun p => .bind (resolveField_mono R n p.2) fun _ => .refl _) fs) fun _ => .refl _

theorem addElements_mono (R : Resolver) (n : Nat) (u : Option Text) (es : List SetElement) :
    ∀ s, Le (addElements n R u s es) (addElements (n + 1) R u s es) := by
  induction es with
  | nil => exact fun _ => .refl _
  | cons e es ih =>
    refine fun s => .bind ?_ fun s' => ih s'
    cases e with
    | setRef r => exact .refl _
    | objectRef r => exact .refl _
    | object v => exact .bind (resolveObject_mono R n v) fun _ => .refl _

theorem resolveDefinition_mono (R : Resolver) (n : Nat) (a : Assignment) :
    Le (resolveDefinition n R a) (resolveDefinition (n + 1) R a) := by
  cases a with
  | value ty v => exact .bind (resolveType_mono R n ty) fun t => .bind (resolveValue_mono R n v t) fun _ => .refl _
  | type ty => exact .bind (resolveType_mono R n ty) fun _ => .refl _
  | objectSet cls root add =>
    refine .bind ?_ fun _ => .refl _
    unfold resolveObjectSet
    cases get R.classes cls with
    | none => exact .refl _
    | some fs => exact addElements_mono R n _ _ _
  | object cls v => exact .bind (resolveObject_mono R n v) fun _ => .refl _
  | «class» fs => exact .refl _

/-! ## Modules, with more nested calls here and for reading -/

section
variable {n m : Nat} (hnm : n ≤ m)
include hnm

theorem resolveOne_follows {defs defs' : List (Text × Definition)} (hd : All2 DefLe defs defs') {R R' : Resolver}
    (h : R.Le R') (k : Text) : Follows Resolver.Le (resolveOne n defs R k) (resolveOne m defs' R' k) := by
  unfold resolveOne
  rcases get_all2 (P := fun a b => DefLe ([], a) ([], b)) hd.swapKeys k with ⟨h1, h2⟩ | ⟨d, d', h1, h2, he⟩
  · rw [h1, h2]
    exact .ok h
  · rw [h1, h2]
    dsimp only
    have hk : d.kind = d'.kind := he.kind
    rcases he.params with ⟨h3, h4⟩ | ⟨e, e', h3, h4, he⟩
    · have h3 : d.params = none := h3
      have h4 : d'.params = none := h4
      rw [h3, h4, hk]
      dsimp only
      split
      · rename_i fs hfs
        exact .ok ⟨h.resolved, by rw [h.classes], h.params⟩
      · exact .bind (.of_le (Le.trans (le_of_steps (fun n => resolveDefinition_mono R n d'.kind) hnm)
          (resolveDefinition_le h m d'.kind))) fun x y hxy => .ok ⟨by simp only [h.resolved, hxy], h.classes, h.params⟩
    · have h3 : d.params = some e := h3
      have h4 : d'.params = some e' := h4
      rw [h3, h4]
      exact .ok ⟨h.resolved, h.classes, put_all2 h.params k he⟩

theorem resolveInOrder_follows {defs defs' : List (Text × Definition)} (hd : All2 DefLe defs defs')
    (order : List Text) {R R' : Resolver} (h : R.Le R') :
    Follows Resolver.Le (resolveInOrder n defs R order) (resolveInOrder m defs' R' order) := by
  induction order generalizing R R' with
  | nil => exact .ok h
  | cons k ks ih => exact .bind (resolveOne_follows hnm hd h k) fun _ _ h => ih h

omit hnm in
theorem readDefinition_follows {R R' : Resolver} (h : R.Le R') {M M' : Module} (hm : M.Le M') {d d' : Text × Definition}
    (hd : DefLe d d') : Follows DefLe (readDefinition R M d) (readDefinition R' M' d') := by
  unfold readDefinition
  rw [← h.classes, ← hd.kind]
  cases hk : d.2.kind with
  | object cls v =>
    cases v with
    | input s =>
      dsimp only
      cases hc : get R.classes cls with
      | none => exact .err _
      | some fs =>
        exact .bind (.of_le (hm.readObject s fs)) fun x y hxy => .ok ⟨hd.name, by rw [hxy], hd.params⟩
    | fields fs =>
      dsimp only
      split
      · exact .ok hd
      · exact .err _
  | objectSet cls root add =>
    dsimp only
    cases hc : get R.classes cls with
    | none => exact .err _
    | some fs =>
      exact .bind (.of_le (hm.readSet (root, add) fs)) fun x y hxy => .ok ⟨hd.name, by rw [hxy], hd.params⟩
  | type | value | «class» => exact .ok hd

/-- With more calls there is a result for each with fewer, and the other way round. -/
theorem resolvesModule_follows {R R' : Resolver} (h : R.Le R') {M M' : Module} (hm : M.Le M') :
    (∀ r, ResolvesModule n R M r → ∃ r', ResolvesModule m R' M' r' ∧ Follows Resolver.Le r r') ∧
    ∀ r', ResolvesModule m R' M' r' → ∃ r, ResolvesModule n R M r ∧ Follows Resolver.Le r r' := by
  have hc := addClasses_le h hm.definitions
  have hq := Follows.mapOut (f := readDefinition (addClasses R M.definitions) M)
    (g := readDefinition (addClasses R' M'.definitions) M') hm.definitions fun x y hxy => readDefinition_follows hc hm hxy
  unfold ResolvesModule
  generalize mapOut (readDefinition (addClasses R M.definitions) M) M.definitions = q at hq
  generalize hq' : mapOut (readDefinition (addClasses R' M'.definitions) M') M'.definitions = q' at hq
  cases hq with
  | @ok defs defs' hd =>
    dsimp only
    rw [← hm.imports, ← needsOf_le hd]
    refine ⟨?_, ?_⟩
    · rintro r ⟨order, ho, rfl⟩
      exact ⟨_, ⟨order, ho, rfl⟩, resolveInOrder_follows hnm hd order hc⟩
    · rintro r' ⟨order, ho, rfl⟩
      exact ⟨_, ⟨order, ho, rfl⟩, resolveInOrder_follows hnm hd order hc⟩
  | err e =>
    refine ⟨?_, ?_⟩
    · rintro r rfl; exact ⟨_, rfl, .err e⟩
    · rintro r rfl; exact ⟨_, rfl, .err e⟩
  | panic =>
    refine ⟨?_, ?_⟩
    · rintro r rfl; exact ⟨_, rfl, .panic⟩
    · rintro r rfl; exact ⟨_, rfl, .panic⟩
  | «open» =>
    refine ⟨?_, ?_⟩
    · rintro r rfl
      have : ∃ r', ResolvesModule m R' M' r' := by
        unfold ResolvesModule
        rw [hq']
        cases q' with
        | ok defs' =>
          obtain ⟨order, ho⟩ := PopsAll.exists (graphOf (needsOf M'.imports defs'))
          exact ⟨_, order, ho, rfl⟩
        | err e => exact ⟨_, rfl⟩
        | panic => exact ⟨_, rfl⟩
        | diverge => exact ⟨_, rfl⟩
      obtain ⟨r', hr'⟩ := this
      unfold ResolvesModule at hr'
      rw [hq'] at hr'
      exact ⟨r', hr', .open _⟩
    · intro r' _; exact ⟨_, rfl, .open _⟩

theorem resolvesOrder_follows {ms ms' : List Module} (hm : All2 Module.Le ms ms') (order : List Text)
    {R R' : Resolver} (h : R.Le R') :
    (∀ r, ResolvesOrder n ms order R r → ∃ r', ResolvesOrder m ms' order R' r' ∧ Follows Resolver.Le r r') ∧
    ∀ r', ResolvesOrder m ms' order R' r' → ∃ r, ResolvesOrder n ms order R r ∧ Follows Resolver.Le r r' := by
  induction order generalizing R R' with
  | nil =>
    refine ⟨?_, ?_⟩
    · rintro r rfl; exact ⟨_, rfl, .ok h⟩
    · rintro r rfl; exact ⟨_, rfl, .ok h⟩
  | cons k ks ih =>
    unfold ResolvesOrder
    rcases getModule_le hm k with ⟨h1, h2⟩ | ⟨M, M', h1, h2, hM⟩
    · rw [h1, h2]
      refine ⟨?_, ?_⟩
      · rintro r rfl; exact ⟨_, rfl, .panic⟩
      · rintro r rfl; exact ⟨_, rfl, .panic⟩
    · rw [h1, h2]
      obtain ⟨hf, hb⟩ := resolvesModule_follows hnm h hM
      refine ⟨?_, ?_⟩
      · rintro r ⟨r1, hr1, hr⟩
        obtain ⟨r1', h3, h4⟩ := hf r1 hr1
        cases h4 with
        | «open» =>
          cases hr
          have : ∃ r', match r1' with
              | .ok R1 => ResolvesOrder m ms' ks R1 r'
              | .err e => r' = .err e
              | .panic => r' = .panic
              | .diverge => r' = .diverge := by
            cases r1' with
            | ok R1 => exact Props.resolvesOrder_exists m ms' ks R1
            | err e => exact ⟨_, rfl⟩
            | panic => exact ⟨_, rfl⟩
            | diverge => exact ⟨_, rfl⟩
          obtain ⟨r', hr'⟩ := this
          exact ⟨r', ⟨r1', h3, hr'⟩, .open _⟩
        | ok hle =>
          obtain ⟨r', h5, h6⟩ := (ih hle).1 r hr
          exact ⟨r', ⟨_, h3, h5⟩, h6⟩
        | err e => cases hr; exact ⟨_, ⟨_, h3, rfl⟩, .err e⟩
        | panic => cases hr; exact ⟨_, ⟨_, h3, rfl⟩, .panic⟩
      · rintro r' ⟨r1', hr1, hr⟩
        obtain ⟨r1, h3, h4⟩ := hb r1' hr1
        cases h4 with
        | «open» => exact ⟨_, ⟨_, h3, rfl⟩, .open _⟩
        | ok hle =>
          obtain ⟨r, h5, h6⟩ := (ih hle).2 r' hr
          exact ⟨r, ⟨_, h3, h5⟩, h6⟩
        | err e => cases hr; exact ⟨_, ⟨_, h3, rfl⟩, .err e⟩
        | panic => cases hr; exact ⟨_, ⟨_, h3, rfl⟩, .panic⟩

theorem resolvesModules_follows {ms ms' : List Module} (hm : All2 Module.Le ms ms') {R R' : Resolver} (h : R.Le R') :
    (∀ r, ResolvesModules n R ms r → ∃ r', ResolvesModules m R' ms' r' ∧ Follows Resolver.Le r r') ∧
    ∀ r', ResolvesModules m R' ms' r' → ∃ r, ResolvesModules n R ms r ∧ Follows Resolver.Le r r' := by
  unfold ResolvesModules
  rw [importsFound_le hm, moduleNeeds_le hm]
  split
  · refine ⟨?_, ?_⟩
    · rintro r ⟨order, ho, hr⟩
      obtain ⟨r', h1, h2⟩ := (resolvesOrder_follows hnm hm order h).1 r hr
      exact ⟨r', ⟨order, ho, h1⟩, h2⟩
    · rintro r' ⟨order, ho, hr⟩
      obtain ⟨r, h1, h2⟩ := (resolvesOrder_follows hnm hm order h).2 r' hr
      exact ⟨r, ⟨order, ho, h1⟩, h2⟩
  · refine ⟨?_, ?_⟩
    · rintro r rfl; exact ⟨_, rfl, .err _⟩
    · rintro r rfl; exact ⟨_, rfl, .err _⟩

end

/-! ## The program -/

theorem addModules_le {u : Unicode} {n m : Nat} (hnm : n ≤ m) (pms : List ParsedModule) {ms ms' : List Module}
    (h : All2 Module.Le ms ms') : All2 Module.Le (addModules u n ms pms) (addModules u m ms' pms) := by
  unfold addModules
  generalize pms.reverse = l
  induction l generalizing ms ms' with
  | nil => exact h
  | cons p l ih =>
    rw [List.foldl_cons, List.foldl_cons]
    refine ih ?_
    refine .cons (toModule_le hnm u p) ?_
    show All2 Module.Le (ms.filter fun N => N.name != p.name) (ms'.filter fun N => N.name != p.name)
    induction h with
    | nil => exact .nil
    | @cons x y _ _ h _ ih =>
      rw [List.filter_cons, List.filter_cons, h.name]
      by_cases hk : (y.name != p.name) = true
      · rw [if_pos hk, if_pos hk]; exact .cons h ih
      · rw [if_neg hk, if_neg hk]; exact ih

theorem readArg_le {u : Unicode} {n m : Nat} (hnm : n ≤ m) (a : Arg) : Le (readArg u n a) (readArg u m a) := by
  cases a with
  | missing => exact .refl _
  | binary => exact .refl _
  | text cs =>
    refine .bind (.refl _) fun ts => ?_
    rcases le_of_steps (f := fun n => parse n ts) (fun n => parse_mono n ts) hnm with h | h
    · rw [h]; exact .bot _
    · rw [h]; exact .refl _

theorem readArgs_follows {u : Unicode} {n m : Nat} (hnm : n ≤ m) (args : List Arg) {ms ms' : List Module}
    (h : All2 Module.Le ms ms') : Follows (All2 Module.Le) (readArgs u n ms args) (readArgs u m ms' args) := by
  induction args generalizing ms ms' with
  | nil => exact .ok h
  | cons a as ih =>
    exact .bind (.of_le (readArg_le hnm a)) fun x y hxy => by subst hxy; exact ih (addModules_le hnm x h)

end Hampi.Compiler
