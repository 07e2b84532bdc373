import Verif.Lemmas.ParserReads
import Verif.Lemmas.ParserDefsMono
/-!
# The parser ends, except where a loop takes no token
-/
namespace Hampi.Compiler

/-- A position at which a loop of the parser turns for ever, without taking a token:
* in a SEQUENCE, no component can be read here and no `,`, `...`, `}` or `[[` is here;
* the same in a CHOICE;
* in a group of alternatives, no alternative can be read here and no `,` or `]]` is here;
* in a list of actual parameters, no parameter, `,` or `}` is here;
* in an object set, no element, `,`, `...`, `|` or `}` is here. -/
inductive SpinsAt : List Token → Prop
  | sequence {z us} : z.type ≠ .comma → z.type ≠ .extension → z.type ≠ .curlyEnd → z.type ≠ .additionGroupsBegin →
      (Ev fun n => (∃ e, parseSeqComponent n (z :: us) = .err e) ∨ parseSeqComponent n (z :: us) = .ok (none, z :: us)) →
      SpinsAt (z :: us)
  | choice {z us} : z.type ≠ .comma → z.type ≠ .extension → z.type ≠ .curlyEnd → z.type ≠ .additionGroupsBegin →
      (Ev fun n => ∃ e, parseComponent n (z :: us) = .err e) → SpinsAt (z :: us)
  | group {z us} : z.type ≠ .comma → z.type ≠ .additionGroupsEnd →
      (Ev fun n => ∃ e, parseComponent n (z :: us) = .err e) → SpinsAt (z :: us)
  | params {z us} : z.type ≠ .curlyBegin → z.type ≠ .numberInt → z.type ≠ .identifier → z.type ≠ .comma →
      z.type ≠ .curlyEnd → SpinsAt (z :: us)
  | objectSet {z us} : z.type ≠ .comma → z.type ≠ .extension → z.type ≠ .curlyEnd → z.isUnion = false →
      parseSetElement (z :: us) = .ok (none, z :: us) → SpinsAt (z :: us)

/-- Somewhere in these tokens the parser spins. -/
def Spins (ts : List Token) : Prop := ∃ s, s <:+ ts ∧ SpinsAt s

theorem Spins.of_suffix {s ts : List Token} (h : Spins s) (hs : s <:+ ts) : Spins ts :=
  let ⟨r, hr, h⟩ := h; ⟨r, hr.trans hs, h⟩

/-- From some depth on the result is the same, and at least `k` tokens are taken; or the parser spins
somewhere. -/
def Settles {α : Type} (k : Nat) (ts : List Token) (o : Nat → Out Err (α × List Token)) : Prop :=
  (∃ r, r ≠ .diverge ∧ (∀ a s, r = .ok (a, s) → s <:+ ts ∧ s.length + k ≤ ts.length) ∧ Ev fun n => o n = r) ∨ Spins ts

namespace Settles
variable {α β : Type} {j k : Nat} {ts s : List Token}

theorem err {o : Nat → Out Err (α × List Token)} (e : Err) (h : ∀ n, o n = .err e) : Settles k ts o :=
  .inl ⟨.err e, nofun, nofun, Ev.all h⟩

theorem error (e : Err) : Settles (α := α) k ts (fun _ => .err e) := err e fun _ => rfl

theorem panic : Settles (α := α) k ts (fun _ => .panic) := .inl ⟨.panic, nofun, nofun, Ev.all fun _ => rfl⟩

theorem ok (a : α) : Settles 0 ts (fun _ => .ok (a, ts)) :=
  .inl ⟨.ok (a, ts), nofun, fun _ _ h => (by cases h; exact ⟨List.suffix_refl _, Nat.le_refl _⟩), Ev.all fun _ => rfl⟩

theorem succ {o : Nat → Out Err (α × List Token)} (h : Settles k ts fun n => o (n + 1)) : Settles k ts o := by
  rcases h with ⟨r, h1, h2, h3⟩ | h
  · exact .inl ⟨r, h1, h2, Ev.step h3⟩
  · exact .inr h

theorem less {o : Nat → Out Err (α × List Token)} (h : Settles k ts o) (hj : j ≤ k) : Settles j ts o := by
  rcases h with ⟨r, h1, h2, h3⟩ | h
  · exact .inl ⟨r, h1, fun a s e => ⟨(h2 a s e).1, by have := (h2 a s e).2; omega⟩, h3⟩
  · exact .inr h

theorem bind {m : Nat → Out Err (α × List Token)} {f : Nat → α × List Token → Out Err (β × List Token)}
    (hm : Settles j ts m)
    (hf : ∀ a s, s <:+ ts → s.length + j ≤ ts.length → Settles (k - j) s fun n => f n (a, s)) :
    Settles k ts fun n => (m n).bind (f n) := by
  rcases hm with ⟨r, h1, h2, h3⟩ | h
  · cases r with
    | ok x =>
      obtain ⟨hs, hl⟩ := h2 x.1 x.2 rfl
      rcases hf x.1 x.2 hs hl with ⟨r', h1', h2', h3'⟩ | h
      · refine .inl ⟨r', h1', fun a s e => ⟨(h2' a s e).1.trans hs, ?_⟩, (h3.and h3').imp fun n hn => ?_⟩
        · have := (h2' a s e).2; omega
        · dsimp only at hn ⊢; rw [hn.1]; exact hn.2
      · exact .inr (h.of_suffix hs)
    | err e => exact .inl ⟨.err e, nofun, nofun, h3.imp fun n hn => by dsimp only at hn ⊢; rw [hn]; rfl⟩
    | panic => exact .inl ⟨.panic, nofun, nofun, h3.imp fun n hn => by dsimp only at hn ⊢; rw [hn]; rfl⟩
    | diverge => exact absurd rfl h1
  · exact .inr h

theorem attempt {m : Nat → Out Err (α × List Token)} {f : Nat → Option (α × List Token) → Out Err (β × List Token)}
    (hm : Settles j ts m)
    (hs : ∀ a s, s <:+ ts → s.length + j ≤ ts.length → Settles (k - j) s fun n => f n (some (a, s)))
    (hn : Settles k ts fun n => f n none) :
    Settles k ts fun n => (m n).attempt.bind (f n) := by
  rcases hm with ⟨r, h1, h2, h3⟩ | h
  · cases r with
    | ok x =>
      obtain ⟨hx, hl⟩ := h2 x.1 x.2 rfl
      rcases hs x.1 x.2 hx hl with ⟨r', h1', h2', h3'⟩ | h
      · refine .inl ⟨r', h1', fun a s e => ⟨(h2' a s e).1.trans hx, ?_⟩, (h3.and h3').imp fun n hn => ?_⟩
        · have := (h2' a s e).2; omega
        · dsimp only at hn ⊢; rw [hn.1]; exact hn.2
      · exact .inr (h.of_suffix hx)
    | err e =>
      rcases hn with ⟨r', h1', h2', h3'⟩ | h
      · exact .inl ⟨r', h1', h2', (h3.and h3').imp fun n hn => by
          dsimp only at hn ⊢; rw [hn.1]; exact hn.2⟩
      · exact .inr h
    | panic => exact .inl ⟨.panic, nofun, nofun, h3.imp fun n hn => by dsimp only at hn ⊢; rw [hn]; rfl⟩
    | diverge => exact absurd rfl h1
  · exact .inr h

theorem expect {p : Token → Bool} {f : Nat → Bool → Out Err (β × List Token)}
    (h : ∀ t us, ts = t :: us → Settles k ts fun n => f n (p t)) :
    Settles k ts fun n => (Hampi.Compiler.expect p ts).bind (f n) := by
  cases ts with
  | nil => exact error _
  | cons t us => exact h t us rfl

theorem cons {t : Token} {us : List Token} {o : Nat → Out Err (α × List Token)} (h : Settles (k - 1) us o) :
    Settles k (t :: us) o := by
  rcases h with ⟨r, h1, h2, h3⟩ | h
  · refine .inl ⟨r, h1, fun a s e => ⟨(h2 a s e).1.trans (List.suffix_cons _ _), ?_⟩, h3⟩
    have := (h2 a s e).2
    rw [List.length_cons]
    omega
  · exact .inr (h.of_suffix (List.suffix_cons _ _))

theorem skip {p : Token → Bool} {f : Nat → Bool × List Token → Out Err (β × List Token)}
    (h1 : ∀ t us, ts = t :: us → p t = true → Settles (k - 1) us fun n => f n (true, us))
    (h2 : ∀ t us, ts = t :: us → p t = false → Settles k ts fun n => f n (false, ts)) :
    Settles k ts fun n => (Hampi.Compiler.skip p ts).bind (f n) := by
  cases ts with
  | nil => exact error _
  | cons t us =>
    cases hp : p t with
    | true => simpa [Hampi.Compiler.skip, hp, Out.bind] using (h1 t us rfl hp).cons (t := t)
    | false => simpa [Hampi.Compiler.skip, hp, Out.bind] using h2 t us rfl hp

theorem need {p : Token → Bool} {f : Nat → Token × List Token → Out Err (β × List Token)}
    (h : ∀ t us, ts = t :: us → p t = true → Settles (k - 1) us fun n => f n (t, us)) :
    Settles k ts fun n => (Hampi.Compiler.need p ts).bind (f n) := by
  cases ts with
  | nil => exact error _
  | cons t us =>
    cases hp : p t with
    | true => simpa [Hampi.Compiler.need, hp, Out.bind] using (h t us rfl hp).cons (t := t)
    | false => simpa [Hampi.Compiler.need, hp, Out.bind] using error (α := β) (k := k) (ts := t :: us) .unexpectedToken

/-- A function that does not nest. -/
theorem const {o : Out Err (α × List Token)} (h1 : o ≠ .diverge)
    (h2 : ∀ a s, o = .ok (a, s) → s <:+ ts ∧ s.length + k ≤ ts.length) : Settles k ts fun _ => o :=
  .inl ⟨o, h1, h2, Ev.all fun _ => rfl⟩

theorem ite {c : Prop} [Decidable c] {a b : Nat → Out Err (α × List Token)} (h : c → Settles k ts a)
    (h' : ¬ c → Settles k ts b) : Settles k ts fun n => if c then a n else b n := by
  by_cases hc : c
  · simpa only [if_pos hc] using h hc
  · simpa only [if_neg hc] using h' hc

end Settles

/-! ## Values and base types -/

theorem closingToken_ends (b e : Token → Bool) (us : List Token) : ∀ l t, closingToken b e l t us ≠ .diverge ∧
    ∀ a s, closingToken b e l t us = .ok (a, s) → s <:+ us := by
  induction us with
  | nil => exact fun l t => ⟨nofun, nofun⟩
  | cons u us ih =>
    intro l t
    have key : ∀ l', (closingToken b e l' u us).bind (fun r => Out.ok (ε := Err) (t :: r.1, r.2)) ≠ .diverge ∧
        ∀ a s, (closingToken b e l' u us).bind (fun r => Out.ok (ε := Err) (t :: r.1, r.2)) = .ok (a, s) →
          s <:+ u :: us := by
      intro l'
      have hi := ih l' u
      cases hc : closingToken b e l' u us with
      | ok x =>
        exact ⟨nofun, fun a s h => by cases h; exact (hi.2 _ _ (by rw [hc])).trans (List.suffix_cons _ _)⟩
      | err => exact ⟨nofun, nofun⟩
      | panic => exact ⟨nofun, nofun⟩
      | diverge => exact absurd hc hi.1
    rw [closingToken]
    generalize (if b t = true then l + 1 else l) = l'
    by_cases h1 : e u = true
    · rw [if_pos h1]
      by_cases h2 : l' - 1 = 0
      · rw [if_pos h2]
        exact ⟨nofun, fun a s h => by cases h; exact List.suffix_cons _ _⟩
      · rw [if_neg h2]; exact key _
    · rw [if_neg h1]; exact key _

theorem parseSetIsh_settles (ts : List Token) : Settles 1 ts fun _ => parseSetIsh ts := by
  unfold parseSetIsh
  cases ts with
  | nil => exact .error _
  | cons t us =>
    have key : ∀ b e, Settles 1 (t :: us) fun _ => (closingToken b e 0 t us).bind fun r =>
        .ok (concatTexts r.1 [' '], r.2) := by
      intro b e
      refine .bind (m := fun _ => closingToken b e 0 t us) (j := 1) (.const (closingToken_ends b e us 0 t).1 fun a s h => ?_)
        fun _ _ _ _ => .ok _
      have := (closingToken_ends b e us 0 t).2 a s h
      exact ⟨this.trans (List.suffix_cons _ _), by have := this.length_le; simp; omega⟩
    exact .ite (fun _ => key _ _) fun _ => .ite (fun _ => key _ _) fun _ => .error _

theorem parseValue_settles (ts : List Token) : Settles 1 ts fun _ => parseValue ts := by
  unfold parseValue
  cases ts with
  | nil => exact .error _
  | cons t us =>
    dsimp only
    refine .ite (fun _ => .cons (.ok _)) fun _ => .ite (fun _ => parseSetIsh_settles _) fun _ => .error _

theorem parseInBrackets_settles (ts : List Token) : Settles 0 ts fun _ => parseInBrackets ts := by
  unfold parseInBrackets
  cases ts with
  | nil => exact .error _
  | cons t us =>
    refine .cons (.ite (fun _ => .need fun _ _ _ _ => .ok _) fun _ => .ite (fun _ => .need fun _ _ _ _ => .ok _)
      fun _ => .error _)

theorem parseNamedMaybeValue_settles (ts : List Token) : Settles 1 ts fun _ => parseNamedMaybeValue ts := by
  unfold parseNamedMaybeValue
  refine .need fun i us _ _ => ?_
  cases us with
  | nil => exact .ok _
  | cons b r => exact .ite (fun _ => .cons (.bind (parseInBrackets_settles r) fun _ _ _ _ => .ok _)) fun _ => .ok _

theorem namedValuesLoop_settles (l : Nat) : ∀ ts : List Token, ts.length ≤ l → ∀ vs,
    Settles 0 ts fun n => namedValuesLoop n vs ts := by
  induction l with
  | zero =>
    intro ts hl vs
    cases ts with
    | nil => exact .succ (.error _)
    | cons => simp at hl
  | succ l ih =>
    intro ts hl vs
    refine .succ ?_
    simp only [namedValuesLoop]
    refine .bind (parseNamedMaybeValue_settles ts) fun r s hs hsl => ?_
    obtain ⟨x, v⟩ := r
    cases v with
    | none => exact .error _
    | some v =>
      cases s with
      | nil => exact .error _
      | cons t us =>
        exact .cons (.ite (fun _ => ih us (by simp at hsl; omega) _) fun _ => .ite (fun _ => .ok _) fun _ => .error _)

theorem parseNamedValues_settles (ts : List Token) : Settles 1 ts fun n => parseNamedValues n ts := by
  unfold parseNamedValues
  exact .need fun _ us _ _ => namedValuesLoop_settles _ us (Nat.le_refl _) _

theorem parseMaybeNamedValues_settles (ts : List Token) : Settles 0 ts fun n => parseMaybeNamedValues n ts := by
  unfold parseMaybeNamedValues
  cases ts with
  | nil => exact .ok _
  | cons t us =>
    exact .ite (fun _ => .bind ((parseNamedValues_settles (t :: us)).less (Nat.zero_le _)) fun _ _ _ _ => .ok _)
      fun _ => .ok _

theorem parseInteger_settles (ts : List Token) : Settles 1 ts fun n => parseInteger n ts := by
  unfold parseInteger
  exact .need fun _ us _ _ => .bind (parseMaybeNamedValues_settles us) fun _ _ _ _ => .ok _

theorem expectAll_bind {α : Type} {k : Nat} {ts : List Token} {ps : List (Token → Bool)}
    {f : Nat → Bool → Out Err (α × List Token)}
    (h : ∀ b, ps.length ≤ ts.length → Settles k ts fun n => f n b) :
    Settles k ts fun n => (expectAll ps ts).bind (f n) := by
  unfold expectAll
  by_cases hl : ts.length < ps.length
  · simp only [if_pos hl]; exact .error _
  · simp only [if_neg hl]; exact h _ (by omega)

theorem Settles.drop {α : Type} {j k : Nat} {ts : List Token} {o : Nat → Out Err (α × List Token)}
    (hj : j ≤ ts.length) (h : Settles (k - j) (ts.drop j) o) : Settles k ts o := by
  rcases h with ⟨r, h1, h2, h3⟩ | h
  · refine .inl ⟨r, h1, fun a s e => ⟨(h2 a s e).1.trans (List.drop_suffix _ _), ?_⟩, h3⟩
    have := (h2 a s e).2
    rw [List.length_drop] at this
    omega
  · exact .inr (h.of_suffix (List.drop_suffix _ _))

theorem parseBitString_settles (ts : List Token) : Settles 1 ts fun n => parseBitString n ts := by
  unfold parseBitString
  refine expectAll_bind fun b hl => .ite (fun _ => ?_) fun _ => .error _
  exact .drop (j := 2) hl (.bind (parseMaybeNamedValues_settles _) fun _ _ _ _ => .ok _)

theorem enumValuesLoop_settles (l : Nat) : ∀ ts : List Token, ts.length ≤ l → ∀ vs,
    Settles 0 ts fun n => enumValuesLoop n vs ts := by
  induction l with
  | zero =>
    intro ts hl vs
    cases ts with
    | nil => exact .succ (.error _)
    | cons => simp at hl
  | succ l ih =>
    intro ts hl vs
    refine .succ ?_
    simp only [enumValuesLoop]
    refine .bind (parseNamedMaybeValue_settles ts) fun r s hs hsl => ?_
    refine .skip (fun t us hu _ => .expect fun _ _ _ => .ite (fun _ => .ok _) fun _ => ih us ?_ _)
      fun t us hu _ => .expect fun _ _ _ => .ite (fun _ => .ok _) fun _ => ih s ?_ _
    · rw [hu] at hsl; simp at hsl; omega
    · omega

theorem parseEnumerated_settles (ts : List Token) : Settles 1 ts fun n => parseEnumerated n ts := by
  unfold parseEnumerated
  have tail : ∀ (root : List EnumValue) (m : Bool) (us : List Token), Settles 0 us fun n =>
      (enumValuesLoop n [] us).attempt.bind fun ext =>
        (need (Token.is .curlyEnd) (ext.getD ([], us)).2).bind fun z =>
          .ok (Kind.enumerated root (if m then some (root.length + 1) else none) (ext.getD ([], us)).1, z.2) :=
    fun root m us => .attempt (j := 0) (enumValuesLoop_settles _ us (Nat.le_refl _) _)
      (fun a s _ _ => .need fun _ _ _ _ => .ok _) (.need fun _ _ _ _ => .ok _)
  refine .need fun _ us _ _ => .need fun _ us _ _ => .bind (enumValuesLoop_settles _ us (Nat.le_refl _) _)
    fun root s _ _ => ?_
  refine .skip (fun _ _ _ _ => .skip (fun _ _ _ _ => tail _ _ _) fun _ _ _ _ => tail _ _ _) fun _ _ _ _ =>
    .skip (fun _ _ _ _ => tail _ _ _) fun _ _ _ _ => tail _ _ _

/-! ## References -/

theorem actualParamsLoop_settles (l : Nat) : ∀ ts : List Token, ts.length ≤ l → ∀ ps,
    Settles 0 ts fun n => actualParamsLoop n ps ts := by
  induction l with
  | zero =>
    intro ts hl ps
    cases ts with
    | nil => exact .succ (.error _)
    | cons => simp at hl
  | succ l ih =>
    intro ts hl ps
    refine .succ ?_
    simp only [actualParamsLoop]
    have last : ∀ (s : List Token), s.length ≤ l → ∀ qs, Settles 0 s fun n =>
        (skip (Token.is .comma) s).bind fun c => (skip (Token.is .curlyEnd) c.2).bind fun z =>
          if z.1 then .ok (qs, z.2) else actualParamsLoop n qs z.2 := by
      intro s hs qs
      refine .skip (fun _ us hu _ => .skip (fun _ _ _ _ => .ite (fun _ => .ok _) fun h => absurd rfl h)
        fun _ _ _ _ => .ite (fun h => by cases h) fun _ => ih us ?_ _)
        fun _ us hu _ => .skip (fun _ _ _ _ => .ite (fun _ => .ok _) fun h => absurd rfl h)
        fun _ _ _ _ => .ite (fun h => by cases h) fun _ => ih s hs _
      rw [hu] at hs; simp at hs; omega
    cases ts with
    | nil => exact .error _
    | cons z us =>
      by_cases h1 : z.is .curlyBegin = true
      · refine .bind (m := fun _ => parseSetParam (z :: us)) (j := 1) ?_ fun a s _ hl' => ?_
        · unfold parseSetParam
          refine .skip (fun _ _ _ _ => .ite (fun _ => .need fun _ _ _ _ => .need fun _ _ _ _ => .ok _) (fun h => absurd rfl h))
            fun t _ h hf => ?_
          cases h; rw [h1] at hf; cases hf
        · refine .bind (m := fun _ => parseSingleParam s) (j := 0) ?_ fun b s' _ hl'' => ?_
          · cases s with
            | nil => exact .error _
            | cons => exact .ite (fun _ => .cons (.ok _)) fun _ => .ok _
          · exact last s' (by simp at hl hl'; omega) _
      · have e1 : parseSetParam (z :: us) = .ok ([], z :: us) := by
          simp [parseSetParam, skip, h1, Out.bind]
        simp only [e1, Out.bind]
        by_cases h2 : (z.is .numberInt || z.is .identifier) = true
        · simp only [parseSingleParam, if_pos h2]
          exact .cons (last us (by simp at hl; omega) _)
        · simp only [parseSingleParam, if_neg h2]
          refine .skip (fun _ s h _ => .skip (fun _ _ _ _ => .ite (fun _ => .ok _) fun h => absurd rfl h)
            fun _ _ _ _ => .ite (fun h => by cases h) fun _ => ih s ?_ _)
            fun t s h hc => .skip (fun _ _ _ _ => .ite (fun _ => .ok _) fun h => absurd rfl h)
            fun t' _ h' hz => .ite (fun h => by cases h) fun _ => .inr ⟨_, List.suffix_refl _, .params ?_ ?_ ?_ ?_ ?_⟩
          · cases h; simp at hl; omega
          all_goals
            cases h; cases h'
            simp [Token.is] at h1 h2 hc hz
            first | exact h1 | exact h2.1 | exact h2.2 | exact hc | exact hz

theorem parseActualParams_settles (ts : List Token) : Settles 1 ts fun n => parseActualParams n ts := by
  unfold parseActualParams
  exact .need fun _ us _ _ => actualParamsLoop_settles _ us (Nat.le_refl _) _

theorem parseMaybeParams_settles (m : Text) (ts : List Token) : Settles 0 ts fun n => parseMaybeParams n m ts := by
  unfold parseMaybeParams
  cases ts with
  | nil => exact .ok _
  | cons t us =>
    exact .ite (fun _ => .bind ((parseActualParams_settles (t :: us)).less (Nat.zero_le _)) fun _ _ _ _ =>
      .ite (fun _ => .ok _) fun _ => .ok _) fun _ => .ok _

theorem parseReference_settles (t : Token) (ts : List Token) : Settles 0 ts fun n => parseReference n t ts := by
  unfold parseReference
  have h1 : ∀ r, parseClassField t ts = some r → r.2 <:+ ts := by
    intro r h
    unfold parseClassField at h
    split at h
    · split at h
      · cases h
        exact (List.suffix_cons _ _).trans (List.suffix_cons _ _)
      · cases h
    · cases h
  have h2 : (parseReferenceName t ts).2 <:+ ts := by
    unfold parseReferenceName
    split
    · split
      · exact (List.suffix_cons _ _).trans (List.suffix_cons _ _)
      · exact List.suffix_refl _
    · exact List.suffix_refl _
  cases h : parseClassField t ts with
  | some r => exact .const nofun fun a s e => by cases e; exact ⟨h1 _ h, (h1 _ h).length_le⟩
  | none =>
    rcases parseMaybeParams_settles (parseReferenceName t ts).1 (parseReferenceName t ts).2 with ⟨r, a, b, c⟩ | hs
    · exact .inl ⟨r, a, fun x s e => ⟨(b x s e).1.trans h2, by have := (b x s e).1.length_le; have := h2.length_le; omega⟩, c⟩
    · exact .inr (hs.of_suffix h2)

/-! ## Constraints and the other functions that do not nest -/

theorem parseTable_settles (ts : List Token) : Settles 1 ts fun _ => parseTable ts := by
  unfold parseTable
  refine .need fun _ us _ _ => expectAll_bind fun b hl => .ite (fun _ => ?_) fun _ => .error _
  refine .drop (j := 3) hl ?_
  dsimp only
  split
  · rename_i h
    unfold expectAll at h
    split at h
    · cases h
    · rename_i hl'
      exact .drop (j := 3) (by simpa using hl') (.need fun _ _ _ _ => .ok _)
  · exact .need fun _ _ _ _ => .ok _

theorem parseContents_settles (ts : List Token) : Settles 1 ts fun _ => parseContents ts := by
  unfold parseContents
  exact .need fun _ _ _ _ => .need fun _ _ _ _ => .need fun _ _ _ _ => .need fun _ _ _ _ => .ok _

theorem parseEndPoint_settles (ts : List Token) : Settles 1 ts fun _ => parseEndPoint ts := by
  unfold parseEndPoint
  exact .attempt (m := fun _ => parseValue ts) (parseValue_settles ts) (fun _ _ _ _ => .ok _) (.need fun _ _ _ _ => .ok _)

theorem parseLowerMark_settles (ts : List Token) : Settles 1 ts fun _ => parseLowerMark ts := by
  unfold parseLowerMark
  cases ts with
  | nil => exact .error _
  | cons t us =>
    refine .ite (fun _ => ?_) fun _ => .ite (fun _ => .cons (.ok _)) fun _ => .error _
    cases us with
    | nil => exact .panic
    | cons => exact .cons (.cons (.ok _))

theorem parseRange_settles (ts : List Token) : Settles 1 ts fun _ => parseRange ts := by
  unfold parseRange
  exact .bind (m := fun _ => parseEndPoint ts) (parseEndPoint_settles ts) fun _ s _ _ =>
    .bind (m := fun _ => parseLowerMark s) ((parseLowerMark_settles s).less (Nat.zero_le _)) fun _ s _ _ =>
    .skip (fun _ s _ _ => .bind (m := fun _ => parseEndPoint s) ((parseEndPoint_settles s).less (Nat.zero_le _)) fun _ _ _ _ => .ok _)
    (fun _ _ _ _ => .bind (m := fun _ => parseEndPoint s) ((parseEndPoint_settles s).less (Nat.zero_le _)) fun _ _ _ _ => .ok _)

theorem twoWords_settles (k : Kind) (ts : List Token) : Settles 0 ts fun _ => twoWords k ts := by
  unfold twoWords
  cases ts with
  | nil => exact .panic
  | cons => exact .cons (.ok _)

theorem parseObjectIdentifier_settles (ts : List Token) : Settles 1 ts fun _ => parseObjectIdentifier ts := by
  unfold parseObjectIdentifier
  exact expectAll_bind fun _ hl => .ite (fun _ => .drop (j := 2) hl (.ok _)) fun _ => .error _

theorem parseSeqVersion_settles (ts : List Token) : Settles 0 ts fun _ => parseSeqVersion ts := by
  unfold parseSeqVersion
  cases ts with
  | nil => exact .ok _
  | cons t us => exact .ite (fun _ => .cons (.need fun _ _ _ _ => .ok _)) fun _ => .ok _

theorem parseChoiceVersion_settles (ts : List Token) : Settles 0 ts fun _ => parseChoiceVersion ts := by
  unfold parseChoiceVersion
  cases ts with
  | nil => exact .error _
  | cons t us => exact .ite (fun _ => .cons (.need fun _ _ _ _ => .ok _)) fun _ => .ok _

theorem parseMarker_settles (ts : List Token) : Settles 0 ts fun _ => parseMarker ts := by
  unfold parseMarker
  exact .skip (fun _ _ _ _ => .ite (fun _ => .skip (fun _ _ _ _ => .ok _) fun _ _ _ _ => .ok _) fun h => absurd rfl h)
    fun _ _ _ _ => .ite (fun h => by cases h) fun _ => .ok _

theorem parsePresence_settles (ts : List Token) : Settles 0 ts fun _ => parsePresence ts := by
  unfold parsePresence
  have h : ∀ (o : Bool) us, Settles 0 us fun _ => (skip (Token.isKeyword "DEFAULT") us).bind fun d =>
      if d.1 then
        (parseValue d.2).bind fun v =>
          if o then Out.err Err.parse else .ok ((false, some v.1), v.2)
      else .ok ((o, none), d.2) := fun o us =>
    .skip (fun _ s _ _ => .ite (fun _ => .bind (m := fun _ => parseValue s) ((parseValue_settles s).less (Nat.zero_le _))
      fun _ _ _ _ => .ite (fun _ => .error _) fun _ => .ok _) fun h => absurd rfl h)
      fun _ _ _ _ => .ite (fun h => by cases h) fun _ => .ok _
  exact .skip (fun _ _ _ _ => h _ _) fun _ _ _ _ => h _ _

/-! ## The mutual recursion -/

namespace Settles
variable {α β : Type} {j k : Nat} {ts s : List Token}

/-- Either the step succeeds in what follows it, or from some depth on it is an error. -/
theorem attemptOr {m : Nat → Out Err (α × List Token)} {f : Nat → Option (α × List Token) → Out Err (β × List Token)}
    (hm : Settles j ts m)
    (hs : ∀ a s, s <:+ ts → s.length + j ≤ ts.length → Settles (k - j) s fun n => f n (some (a, s))) :
    (Settles k ts fun n => (m n).attempt.bind (f n)) ∨ ∃ e, Ev fun n => m n = .err e := by
  rcases hm with ⟨r, h1, h2, h3⟩ | h
  · cases r with
    | err e => exact .inr ⟨e, h3⟩
    | ok x =>
      obtain ⟨hx, hl⟩ := h2 x.1 x.2 rfl
      rcases hs x.1 x.2 hx hl with ⟨r', h1', h2', h3'⟩ | h
      · refine .inl (.inl ⟨r', h1', fun a s e => ⟨(h2' a s e).1.trans hx, ?_⟩, (h3.and h3').imp fun n hn => ?_⟩)
        · have := (h2' a s e).2; omega
        · dsimp only at hn ⊢; rw [hn.1]; exact hn.2
      · exact .inl (.inr (h.of_suffix hx))
    | panic => exact .inl (.inl ⟨.panic, nofun, nofun, h3.imp fun n hn => by dsimp only at hn ⊢; rw [hn]; rfl⟩)
    | diverge => exact absurd rfl h1
  · exact .inl (.inr h)

theorem congr {o o' : Nat → Out Err (α × List Token)} (he : Ev fun n => o n = o' n) (h : Settles k ts o') :
    Settles k ts o := by
  rcases h with ⟨r, h1, h2, h3⟩ | h
  · exact .inl ⟨r, h1, h2, (he.and h3).imp fun n hn => hn.1.trans hn.2⟩
  · exact .inr h

end Settles

/-- The functions of the mutual recursion on `ts`. -/
structure EndsAt (ts : List Token) : Prop where
  type : Settles 1 ts fun n => parseType n ts
  constraints : Settles 0 ts fun n => parseConstraints n ts
  constraint : Settles 1 ts fun n => parseConstraint n ts
  elementSet : Settles 1 ts fun n => parseElementSet n ts
  union : ∀ c, Settles 0 ts fun n => unionLoop n c ts
  inter : ∀ es b, Settles 0 ts fun n => interLoop n es b ts
  elements : Settles 1 ts fun n => parseElements n ts
  elementsRest : Settles 1 ts fun n => parseElementsRest n ts
  seqLoop : ∀ r a m, Settles 0 ts fun n => seqLoop n r a m ts
  seqAfter : ∀ r a m, Settles 0 ts fun n => seqAfter n r a m ts
  seqOf : Settles 0 ts fun n => parseSeqOf n ts
  component : Settles 1 ts fun n => parseComponent n ts
  seqComponent : (∃ m : Nat → Out Err (SeqComponent × List Token), Settles 1 ts m ∧
    Ev fun n => parseSeqComponent n ts = (m n).bind fun r => .ok (some r.1, r.2)) ∨
    (Ev fun n => parseSeqComponent n ts = .ok (none, ts)) ∨ Spins ts
  seqGroupLoop : ∀ cs, Settles 0 ts fun n => seqGroupLoop n cs ts
  seqGroup : Settles 1 ts fun n => parseSeqGroup n ts
  choiceLoop : ∀ r g b m, Settles 0 ts fun n => choiceLoop n r g b m ts
  choiceAfter : ∀ r g b m, Settles 0 ts fun n => choiceAfter n r g b m ts
  choiceGroup : Settles 1 ts fun n => parseChoiceGroup n ts
  choiceGroupLoop : ∀ cs, Settles 0 ts fun n => choiceGroupLoop n cs ts

section
variable {ts : List Token} (H : ∀ s : List Token, s.length < ts.length → EndsAt s)
include H

theorem ends_kind {t : Token} {us : List Token} (e : ts = t :: us) : Settles 1 ts fun n => parseKind n t us := by
  subst e
  refine .succ ?_
  simp only [parseKind]
  refine .ite (fun _ => parseBitString_settles _) fun _ => .ite (fun _ => .cons (twoWords_settles _ _)) fun _ =>
    .ite (fun _ => .cons (twoWords_settles _ _)) fun _ => .ite (fun _ => parseEnumerated_settles _) fun _ =>
    .ite (fun _ => parseInteger_settles _) fun _ => .ite (fun _ => parseObjectIdentifier_settles _) fun _ =>
    .ite (fun _ => .cons (.ok _)) fun _ => .ite (fun _ => .cons (.ok _)) fun _ => .ite (fun _ => .cons (.ok _)) fun _ =>
    .ite (fun _ => ?_) fun _ => .ite (fun _ => ?_) fun _ => .cons (parseReference_settles _ _)
  · refine .succ ?_
    simp only [parseChoice]
    refine .need fun _ s h _ => .need fun _ s' h' _ => (H s' ?_).choiceLoop _ _ _ _
    cases h; subst h'; simp; omega
  · refine .succ ?_
    simp only [parseSeqOrSeqOf]
    refine .need fun _ s h _ => .expect fun _ _ _ => .ite (fun _ => .need fun _ s' h' _ => (H s' ?_).seqLoop _ _ _)
      fun _ => (H s ?_).seqOf
    · cases h; subst h'; simp; omega
    · cases h; simp

theorem ends_elementSet : Settles 1 ts fun n => parseElementSet n ts := by
  refine .succ ?_
  simp only [parseElementSet]
  refine .need fun _ s h _ => .bind ((H s ?_).union _) fun a s' hs hl => .ite (fun _ => .error _) fun _ => ?_
  · subst h; simp
  have lt : ∀ r : List Token, r <:+ s' → r.length < ts.length := fun r hr => by
    have := hr.length_le; subst h; simp; omega
  refine .skip (fun _ _ h1 _ => .ite (fun _ => .need fun _ _ h2 _ => .skip
    (fun _ r h3 _ => .attempt (j := 0) ((H r (lt r ?_)).union _) (fun _ _ _ _ => .need fun _ _ _ _ => .ok _)
      (.need fun _ _ _ _ => .ok _))
    (fun _ _ h3 _ => .attempt (j := 0) ((H _ (lt _ ?_)).union _) (fun _ _ _ _ => .need fun _ _ _ _ => .ok _)
      (.need fun _ _ _ _ => .ok _))) (fun h => absurd rfl h))
    fun _ _ _ _ => .ite (fun h => by cases h) fun _ => .need fun _ _ _ _ => .ok _
  · subst h1 h2 h3
    exact (List.suffix_cons _ _).trans ((List.suffix_cons _ _).trans (List.suffix_cons _ _))
  · subst h1 h2
    exact (List.suffix_cons _ _).trans (List.suffix_cons _ _)

theorem ends_constraint : Settles 1 ts fun n => parseConstraint n ts := by
  refine .succ ?_
  simp only [parseConstraint]
  exact .attempt (ends_elementSet H) (fun _ _ _ _ => .ok _) (.attempt (m := fun _ => parseTable ts) (parseTable_settles ts)
    (fun _ _ _ _ => .ok _) (.attempt (m := fun _ => parseContents ts) (parseContents_settles ts)
    (fun _ _ _ _ => .ok _) (.error _)))

theorem ends_constraints : Settles 0 ts fun n => parseConstraints n ts := by
  refine .succ ?_
  simp only [parseConstraints]
  exact .attempt (ends_constraint H) (fun _ s _ hl => .bind ((H s (by omega)).constraints) fun _ _ _ _ => .ok _) (.ok _)

theorem ends_type : Settles 1 ts fun n => parseType n ts := by
  refine .succ ?_
  cases ts with
  | nil => simp only [parseType]; exact .error _
  | cons t us =>
    simp only [parseType]
    exact .ite (fun _ => .bind (ends_kind H rfl) fun _ s _ hl => .bind (H s (by omega)).constraints
      fun _ _ _ _ => .ok _) fun _ => .error _

theorem ends_elementsRest : Settles 1 ts fun n => parseElementsRest n ts := by
  refine .succ ?_
  simp only [parseElementsRest]
  exact .attempt (m := fun _ => parseRange ts) (parseRange_settles ts) (fun _ _ _ _ => .ok _)
    (.expect fun _ _ _ => .ite (fun _ => .bind (ends_elementSet H) fun _ _ _ _ => .ok _) fun _ =>
      .attempt (m := fun _ => parseValue ts) (parseValue_settles ts) (fun _ _ _ _ => .ok _)
        (.attempt (ends_type H) (fun _ _ _ _ => .ok _) (.error _)))

theorem ends_elements : Settles 1 ts fun n => parseElements n ts := by
  refine .succ ?_
  cases ts with
  | nil => simp only [parseElements]; exact .error _
  | cons t us =>
    simp only [parseElements]
    refine .ite (fun _ => .cons (.expect fun _ _ _ => .ite (fun _ => ?_) fun _ => ?_)) fun _ => ends_elementsRest H
    · exact .bind ((H us (by simp)).elementSet.less (Nat.zero_le _)) fun _ _ _ _ => .ok _
    · exact (H us (by simp)).elementsRest.less (Nat.zero_le _)

theorem ends_inter (es : List Elements) (b : Bool) : Settles 0 ts fun n => interLoop n es b ts := by
  refine .succ ?_
  simp only [interLoop]
  refine .attempt (ends_elements H) (fun a s _ hl => .skip (fun _ r h _ => .ite (fun _ => ?_) fun h => absurd rfl h)
    fun _ _ _ _ => .ite (fun h => by cases h) fun _ => .ok _)
    (.ite (fun _ => .error _) fun _ => .skip (fun _ r h _ => .ite (fun _ => ?_) fun h => absurd rfl h)
    fun _ _ _ _ => .ite (fun h => by cases h) fun _ => .ok _)
  · exact (H r (by subst h; simp at hl; omega)).inter _ _
  · exact (H r (by subst h; simp)).inter _ _

theorem ends_union (c : List (List Elements)) : Settles 0 ts fun n => unionLoop n c ts := by
  refine .succ ?_
  simp only [unionLoop]
  exact .bind (ends_inter H _ _) fun _ s _ hl => .skip (fun _ r h _ => .ite
    (fun _ => (H r (by subst h; simp at hl; omega)).union _) fun h => absurd rfl h)
    fun _ _ _ _ => .ite (fun h => by cases h) fun _ => .ok _

theorem ends_seqOf : Settles 0 ts fun n => parseSeqOf n ts := by
  refine .succ ?_
  simp only [parseSeqOf]
  refine .attempt (ends_constraint H) (fun a s _ hl => .need fun _ r h _ => ?_) (.need fun _ r h _ => ?_)
  · exact .bind ((H r (by subst h; simp at hl; omega)).type.less (Nat.zero_le _)) fun _ _ _ _ => .ok _
  · exact .bind ((H r (by subst h; simp)).type.less (Nat.zero_le _)) fun _ _ _ _ => .ok _

theorem ends_component : Settles 1 ts fun n => parseComponent n ts := by
  refine .succ ?_
  simp only [parseComponent]
  exact .need fun _ r h _ => .bind ((H r (by subst h; simp)).type.less (Nat.zero_le _)) fun _ _ _ _ => .ok _

theorem ends_seqComponent : (∃ m : Nat → Out Err (SeqComponent × List Token), Settles 1 ts m ∧
    Ev fun n => parseSeqComponent n ts = (m n).bind fun r => .ok (some r.1, r.2)) ∨
    (Ev fun n => parseSeqComponent n ts = .ok (none, ts)) ∨ Spins ts := by
  have hc := ends_component H
  rcases hc with ⟨r, h1, h2, h3⟩ | h
  · cases r with
    | err e =>
      refine .inr (.inl (Ev.step (h3.imp fun n hn => ?_)))
      simp only [parseSeqComponent, hn, Out.attempt, Out.bind]
    | ok x =>
      obtain ⟨⟨i, ty⟩, s⟩ := x
      obtain ⟨hs, hl⟩ := h2 _ s rfl
      refine .inl ⟨fun _ => (parsePresence s).bind fun p => .ok (.mk i ty p.1.1 p.1.2, p.2), ?_,
        Ev.step (h3.imp fun n hn => ?_)⟩
      · have : Settles 0 s fun _ => (parsePresence s).bind fun p => .ok (SeqComponent.mk i ty p.1.1 p.1.2, p.2) :=
          .bind (m := fun _ => parsePresence s) (parsePresence_settles s) fun p r _ _ => .ok _
        rcases this with ⟨r, h1, h2, h3⟩ | h
        · exact .inl ⟨r, h1, fun a t e => ⟨(h2 a t e).1.trans hs, by have := (h2 a t e).2; omega⟩, h3⟩
        · exact .inr (h.of_suffix hs)
      · simp only [parseSeqComponent, hn, Out.attempt, Out.bind]
        cases parsePresence s <;> rfl
    | panic =>
      refine .inl ⟨fun _ => .panic, .panic, Ev.step (h3.imp fun n hn => ?_)⟩
      simp only [parseSeqComponent, hn, Out.attempt, Out.bind]
    | diverge => exact absurd rfl h1
  · exact .inr (.inr h)

theorem ends_seqGroupLoop (cs : List SeqComponent) : Settles 0 ts fun n => seqGroupLoop n cs ts := by
  refine .succ ?_
  simp only [seqGroupLoop]
  rcases ends_seqComponent H with ⟨m, hm, he⟩ | h | h
  · refine .congr (he.imp fun n hn => ?_) (.bind hm (f := fun n r =>
      (skip (Token.is .comma) r.2).bind fun d => seqGroupLoop n (cs ++ [r.1]) d.2) fun a s _ hl => ?_)
    · rw [hn]; cases m n <;> rfl
    · refine .skip (fun _ r h _ => (H r ?_).seqGroupLoop _) fun _ _ _ _ => (H s ?_).seqGroupLoop _
      · subst h; simp at hl; omega
      · omega
  · refine .congr (h.imp fun n hn => ?_) (.ok cs)
    rw [hn]; rfl
  · exact .inr h

theorem ends_seqGroup : Settles 1 ts fun n => parseSeqGroup n ts := by
  refine .succ ?_
  simp only [parseSeqGroup]
  refine .need fun _ r h _ => .bind (m := fun _ => parseSeqVersion r) (parseSeqVersion_settles r) fun v s _ hl =>
    .bind ((H s ?_).seqGroupLoop _) fun _ _ _ _ => .ite (fun _ => .error _) fun _ => .need fun _ _ _ _ => .ok _
  subst h; simp; omega

/-- After a component, at a token that is consumed. -/
theorem ends_seqAfter_at {z : Token} {us : List Token} (e : ts = z :: us)
    (hz : z.is .comma = true ∨ z.is .extension = true ∨ z.is .curlyEnd = true)
    (r : List SeqComponent) (a : List SeqGroup) (m : Nat) : Settles 0 ts fun n => seqAfter n r a m ts := by
  refine .succ ?_
  simp only [seqAfter]
  have after : ∀ s : List Token, s.length < ts.length → ∀ m, Settles 0 s fun n =>
      (skip (Token.is .curlyEnd) s).bind fun z =>
        if z.1 then .ok (Kind.sequence r a (0 < m), z.2) else Compiler.seqLoop n r a m z.2 := by
    intro s hs m
    exact .skip (fun _ _ _ _ => .ite (fun _ => .ok _) fun h => absurd rfl h) fun _ _ _ _ =>
      .ite (fun h => by cases h) fun _ => (H s hs).seqLoop _ _ _
  refine .skip (fun t u h _ => .bind (m := fun _ => parseMarker u) (parseMarker_settles u) fun b s _ hl =>
    after s (by subst h; simp; omega) _) fun t u h hc => ?_
  cases h.symm.trans e
  by_cases hx : z.is .extension = true
  · have : Settles 1 ts fun _ => parseMarker ts := by
      unfold parseMarker
      refine .skip (fun _ _ _ _ => .ite (fun _ => .skip (fun _ _ _ _ => .ok _) fun _ _ _ _ => .ok _) fun h => absurd rfl h)
        fun t' _ h' hf => ?_
      cases h'.symm.trans e; rw [hx] at hf; cases hf
    exact .bind (m := fun _ => parseMarker ts) this fun b s _ hl => after s (by omega) _
  · have he : z.is .curlyEnd = true := by
      rcases hz with h | h | h
      · rw [h] at hc; cases hc
      · exact absurd h hx
      · exact h
    have : parseMarker ts = .ok (false, ts) := by subst e; simp [parseMarker, skip, hx, Out.bind]
    simp only [this, Out.bind]
    refine .skip (fun _ _ _ _ => .ite (fun _ => .ok _) fun h => absurd rfl h) fun t' _ h' hf => ?_
    cases h'.symm.trans e; rw [he] at hf; cases hf

theorem ends_seqLoop (r : List SeqComponent) (a : List SeqGroup) (m : Nat) :
    Settles 0 ts fun n => seqLoop n r a m ts := by
  refine .succ ?_
  simp only [seqLoop]
  have none : ((Ev fun n => (∃ e, parseSeqComponent n ts = .err e) ∨ parseSeqComponent n ts = .ok (none, ts)) →
      Settles 0 ts fun n => (parseSeqComponent n ts).attempt.bind fun c? =>
        let c := c?.getD (none, ts)
        (expect (Token.is .additionGroupsBegin) c.2).bind fun b =>
          if b then
            if m = 1 then
              (parseSeqGroup n c.2).bind fun g => Compiler.seqAfter n (r ++ c.1.toList) (a ++ [g.1]) m g.2
            else .err .parse
          else Compiler.seqAfter n (r ++ c.1.toList) a m c.2) := by
    intro hn
    refine .congr (o' := fun n => (expect (Token.is .additionGroupsBegin) ts).bind fun b =>
          if b then
            if m = 1 then
              (parseSeqGroup n ts).bind fun g => Compiler.seqAfter n (r ++ []) (a ++ [g.1]) m g.2
            else .err .parse
          else Compiler.seqAfter n (r ++ []) a m ts) (hn.imp fun n h => ?_) ?_
    · rcases h with ⟨e, h⟩ | h <;> rw [h] <;> rfl
    · refine .expect fun z us e => .ite (fun _ => .ite (fun _ => .bind (ends_seqGroup H) fun g s _ hl =>
        (H s (by omega)).seqAfter _ _ _) fun _ => .error _) fun hg => ?_
      by_cases hz : z.is .comma = true ∨ z.is .extension = true ∨ z.is .curlyEnd = true
      · exact ends_seqAfter_at H e hz _ _ _
      · refine .inr ⟨ts, List.suffix_refl _, ?_⟩
        subst e
        refine .sequence ?_ ?_ ?_ ?_ hn
        all_goals
          simp [Token.is] at hz hg
          first | exact hz.1 | exact hz.2.1 | exact hz.2.2 | exact hg
  rcases ends_seqComponent H with ⟨mm, hm, he⟩ | h | h
  · rcases Settles.attemptOr (k := 0) hm (f := fun n c? =>
        let c : Option SeqComponent × List Token := (c?.map fun x => (some x.1, x.2)).getD (Option.none, ts)
        (expect (Token.is .additionGroupsBegin) c.2).bind fun b =>
          if b then
            if m = 1 then
              (parseSeqGroup n c.2).bind fun g => Compiler.seqAfter n (r ++ c.1.toList) (a ++ [g.1]) m g.2
            else .err .parse
          else Compiler.seqAfter n (r ++ c.1.toList) a m c.2) (fun x s _ hl =>
        have hl' : s.length < ts.length := by omega
        .expect fun _ _ _ => .ite (fun _ => .ite (fun _ =>
        .bind ((H s hl').seqGroup.less (Nat.zero_le _)) fun g u _ hu => (H u (by omega)).seqAfter _ _ _) fun _ => .error _)
        fun _ => (H s hl').seqAfter _ _ _) with h | ⟨e, h⟩
    · refine .congr (he.imp fun n hn => ?_) h
      rw [hn]; cases mm n <;> rfl
    · refine none ((he.and h).imp fun n hn => .inl ⟨e, ?_⟩)
      rw [hn.1, hn.2]; rfl
  · exact none (h.imp fun n hn => .inr hn)
  · exact .inr h

theorem ends_seqAfter (r : List SeqComponent) (a : List SeqGroup) (m : Nat) :
    Settles 0 ts fun n => seqAfter n r a m ts := by
  cases ts with
  | nil => exact .succ (by simp only [seqAfter]; exact .error _)
  | cons z us =>
    by_cases hz : z.is .comma = true ∨ z.is .extension = true ∨ z.is .curlyEnd = true
    · exact ends_seqAfter_at H rfl hz _ _ _
    · simp only [not_or, Bool.not_eq_true] at hz
      refine .succ ?_
      have e : parseMarker (z :: us) = .ok (false, z :: us) := by simp [parseMarker, skip, hz.2.1, Out.bind]
      have : (fun n => Compiler.seqAfter (n + 1) r a m (z :: us)) = fun n => Compiler.seqLoop n r a m (z :: us) := by
        funext n
        simp [Compiler.seqAfter, skip, hz.1, hz.2.2, Out.bind, e]
      rw [this]
      exact ends_seqLoop H _ _ _

/-! The same for CHOICE. -/

theorem ends_choiceGroupLoop (cs : List Component) : Settles 0 ts fun n => choiceGroupLoop n cs ts := by
  refine .succ ?_
  simp only [choiceGroupLoop]
  have after : ∀ s : List Token, s.length < ts.length → ∀ cs, Settles 0 s fun n =>
      (skip (Token.is .additionGroupsEnd) s).bind fun z =>
        if z.1 then .ok (cs, z.2) else Compiler.choiceGroupLoop n cs z.2 := by
    intro s hs cs
    exact .skip (fun _ _ _ _ => .ite (fun _ => .ok _) fun h => absurd rfl h) fun _ _ _ _ =>
      .ite (fun h => by cases h) fun _ => (H s hs).choiceGroupLoop _
  rcases Settles.attemptOr (k := 0) (ends_component H) (f := fun n c? =>
      (skip (Token.is .comma) ((c?.map (·.2)).getD ts)).bind fun d =>
        (skip (Token.is .additionGroupsEnd) d.2).bind fun z =>
          if z.1 then .ok (cs ++ (c?.map (·.1)).toList, z.2)
          else Compiler.choiceGroupLoop n (cs ++ (c?.map (·.1)).toList) z.2) (fun a s _ hl =>
      .skip (fun _ r h _ => after r (by subst h; simp at hl; omega) _) fun _ _ _ _ => after s (by omega) _) with h | ⟨e, h⟩
  · exact h
  · refine .congr (o' := fun n => (skip (Token.is .comma) ts).bind fun d =>
        (skip (Token.is .additionGroupsEnd) d.2).bind fun z =>
          if z.1 then .ok (cs ++ [], z.2)
          else Compiler.choiceGroupLoop n (cs ++ []) z.2) (h.imp fun n hn => ?_) ?_
    · rw [hn]; rfl
    · refine .skip (fun _ r h _ => after r (by subst h; simp) _) fun t u e1 hc =>
        .skip (fun _ _ _ _ => .ite (fun _ => .ok _) fun h => absurd rfl h) fun t' _ e2 hz =>
        .ite (fun h => by cases h) fun _ => .inr ⟨ts, List.suffix_refl _, ?_⟩
      cases e1.symm.trans e2
      subst e1
      exact .group (by simpa [Token.is] using hc) (by simpa [Token.is] using hz) (h.imp fun n hn => ⟨e, hn⟩)

theorem ends_choiceGroup : Settles 1 ts fun n => parseChoiceGroup n ts := by
  refine .succ ?_
  simp only [parseChoiceGroup]
  refine .need fun _ r h _ => .bind (m := fun _ => parseChoiceVersion r) (parseChoiceVersion_settles r) fun v s _ hl =>
    .bind ((H s ?_).choiceGroupLoop _) fun _ _ _ _ => .ite (fun _ => .error _) fun _ => .ok _
  subst h; simp; omega

theorem ends_choiceAfter_at {z : Token} {us : List Token} (e : ts = z :: us)
    (hz : z.is .comma = true ∨ z.is .extension = true ∨ z.is .curlyEnd = true)
    (r : List Component) (g : List ChoiceGroup) (b : List Component) (m : Nat) :
    Settles 0 ts fun n => choiceAfter n r g b m ts := by
  refine .succ ?_
  simp only [choiceAfter]
  have after : ∀ s : List Token, s.length < ts.length → ∀ m, Settles 0 s fun n =>
      (skip (Token.is .curlyEnd) s).bind fun z =>
        if z.1 then .ok (Kind.choice r (choiceAdditions m g b), z.2) else Compiler.choiceLoop n r g b m z.2 := by
    intro s hs m
    exact .skip (fun _ _ _ _ => .ite (fun _ => .ok _) fun h => absurd rfl h) fun _ _ _ _ =>
      .ite (fun h => by cases h) fun _ => (H s hs).choiceLoop _ _ _ _
  refine .skip (fun t u h _ => .expect fun _ _ _ => .ite (fun _ => .error _) fun _ =>
    .bind (m := fun _ => parseMarker u) (parseMarker_settles u) fun b s _ hl =>
    after s (by subst h; simp; omega) _) fun t u h hc => .expect fun _ _ _ => .ite (fun _ => .error _) fun _ => ?_
  cases h.symm.trans e
  by_cases hx : z.is .extension = true
  · have : Settles 1 ts fun _ => parseMarker ts := by
      unfold parseMarker
      refine .skip (fun _ _ _ _ => .ite (fun _ => .skip (fun _ _ _ _ => .ok _) fun _ _ _ _ => .ok _) fun h => absurd rfl h)
        fun t' _ h' hf => ?_
      cases h'.symm.trans e; rw [hx] at hf; cases hf
    exact .bind (m := fun _ => parseMarker ts) this fun b s _ hl => after s (by omega) _
  · have he : z.is .curlyEnd = true := by
      rcases hz with h | h | h
      · rw [h] at hc; cases hc
      · exact absurd h hx
      · exact h
    have : parseMarker ts = .ok (false, ts) := by subst e; simp [parseMarker, skip, hx, Out.bind]
    simp only [this, Out.bind]
    refine .skip (fun _ _ _ _ => .ite (fun _ => .ok _) fun h => absurd rfl h) fun t' _ h' hf => ?_
    cases h'.symm.trans e; rw [he] at hf; cases hf

theorem ends_choiceLoop (r : List Component) (g : List ChoiceGroup) (b : List Component) (m : Nat) :
    Settles 0 ts fun n => choiceLoop n r g b m ts := by
  refine .succ ?_
  simp only [choiceLoop]
  rcases Settles.attemptOr (k := 0) (ends_component H) (f := fun n c? =>
        let new := (c?.map (·.1)).toList
        let q := (c?.map (·.2)).getD ts
        let root' := if 0 < m then r else r ++ new
        let bare' := if 0 < m then b ++ new else b
        (expect (Token.is .additionGroupsBegin) q).bind fun x =>
          if x then
            if m = 1 then
              (parseChoiceGroup n q).bind fun y => Compiler.choiceAfter n root' (g ++ [y.1]) bare' m y.2
            else .err .parse
          else Compiler.choiceAfter n root' g bare' m q) (fun x s _ hl =>
      have hl' : s.length < ts.length := by omega
      .expect fun _ _ _ => .ite (fun _ => .ite (fun _ =>
      .bind ((H s hl').choiceGroup.less (Nat.zero_le _)) fun g u _ hu => (H u (by omega)).choiceAfter _ _ _ _) fun _ => .error _)
      fun _ => (H s hl').choiceAfter _ _ _ _) with h | ⟨e, hn⟩
  · exact h
  · refine .congr (o' := fun n =>
        (expect (Token.is .additionGroupsBegin) ts).bind fun x =>
          if x then
            if m = 1 then
              (parseChoiceGroup n ts).bind fun y => Compiler.choiceAfter n (if 0 < m then r else r ++ []) (g ++ [y.1])
                (if 0 < m then b ++ [] else b) m y.2
            else .err .parse
          else Compiler.choiceAfter n (if 0 < m then r else r ++ []) g (if 0 < m then b ++ [] else b) m ts)
      (hn.imp fun n h => ?_) ?_
    · rw [h]; rfl
    · refine .expect fun z us e => .ite (fun _ => .ite (fun _ => .bind (ends_choiceGroup H) fun g s _ hl =>
        (H s (by omega)).choiceAfter _ _ _ _) fun _ => .error _) fun hg => ?_
      by_cases hz : z.is .comma = true ∨ z.is .extension = true ∨ z.is .curlyEnd = true
      · exact ends_choiceAfter_at H e hz _ _ _ _
      · refine .inr ⟨ts, List.suffix_refl _, ?_⟩
        subst e
        refine .choice ?_ ?_ ?_ ?_ (hn.imp fun n h => ⟨_, h⟩)
        all_goals
          simp [Token.is] at hz hg
          first | exact hz.1 | exact hz.2.1 | exact hz.2.2 | exact hg

theorem ends_choiceAfter (r : List Component) (g : List ChoiceGroup) (b : List Component) (m : Nat) :
    Settles 0 ts fun n => choiceAfter n r g b m ts := by
  cases ts with
  | nil => exact .succ (by simp only [choiceAfter]; exact .error _)
  | cons z us =>
    by_cases hz : z.is .comma = true ∨ z.is .extension = true ∨ z.is .curlyEnd = true
    · exact ends_choiceAfter_at H rfl hz _ _ _ _
    · simp only [not_or, Bool.not_eq_true] at hz
      refine .succ ?_
      have e : parseMarker (z :: us) = .ok (false, z :: us) := by simp [parseMarker, skip, hz.2.1, Out.bind]
      have : (fun n => Compiler.choiceAfter (n + 1) r g b m (z :: us)) = fun n => Compiler.choiceLoop n r g b m (z :: us) := by
        funext n
        simp [Compiler.choiceAfter, skip, expect, hz.1, hz.2.1, hz.2.2, Out.bind, e]
      rw [this]
      exact ends_choiceLoop H _ _ _ _

end

theorem endsAt (l : Nat) : ∀ ts : List Token, ts.length < l → EndsAt ts := by
  induction l with
  | zero => exact fun _ h => absurd h (Nat.not_lt_zero _)
  | succ l ih =>
    intro ts hl
    have H : ∀ s : List Token, s.length < ts.length → EndsAt s := fun s hs => ih s (by omega)
    exact ⟨ends_type H, ends_constraints H, ends_constraint H, ends_elementSet H, ends_union H, ends_inter H,
      ends_elements H, ends_elementsRest H, ends_seqLoop H, ends_seqAfter H, ends_seqOf H, ends_component H,
      ends_seqComponent H, ends_seqGroupLoop H, ends_seqGroup H, ends_choiceLoop H, ends_choiceAfter H,
      ends_choiceGroup H, ends_choiceGroupLoop H⟩

theorem ends (ts : List Token) : EndsAt ts := endsAt _ ts (Nat.lt_succ_self _)

/-! ## Classes and object sets -/

theorem parseFieldEnd_settles {α : Type} {p : Nat → Parser α} (ts : List Token)
    (h : ∀ us, Settles 0 us fun n => p n us) : Settles 0 ts fun n => parseFieldEnd (p n) ts := by
  unfold parseFieldEnd
  cases ts with
  | nil => exact .error _
  | cons t us =>
    exact .ite (fun _ => .cons (.ok _)) fun _ => .ite (fun _ => .cons (.bind (h us) fun _ _ _ _ => .ok _)) fun _ => .ok _

theorem Settles.of_suffix {α : Type} {s ts : List Token} {o : Nat → Out Err (α × List Token)} (h : Settles 0 s o)
    (hs : s <:+ ts) : Settles 0 ts o := by
  rcases h with ⟨r, h1, h2, h3⟩ | h
  · exact .inl ⟨r, h1, fun a t e => ⟨(h2 a t e).1.trans hs, by
      have := (h2 a t e).2; have := hs.length_le; omega⟩, h3⟩
  · exact .inr (h.of_suffix hs)

theorem parseValueFieldSpec_settles (ts : List Token) : Settles 1 ts fun n => parseValueFieldSpec n ts := by
  unfold parseValueFieldSpec
  exact .need fun _ us _ _ => .bind ((ends us).type.less (Nat.zero_le _)) fun ty s _ _ =>
    .of_suffix (.bind (m := fun _ => parseFieldEnd parseValue (parseUnique s).2) (j := 0)
      (parseFieldEnd_settles (p := fun _ => parseValue) _ fun us => (parseValue_settles us).less (Nat.zero_le _))
      fun _ _ _ _ => .ite (fun _ => .error _) fun _ => .ok _) (parseUnique_suffix s)

theorem parseTypeFieldSpec_settles (ts : List Token) : Settles 1 ts fun n => parseTypeFieldSpec n ts := by
  unfold parseTypeFieldSpec
  exact .need fun _ us _ _ => .bind (j := 0)
      (parseFieldEnd_settles (p := fun n => parseType n) us fun us => (ends us).type.less (Nat.zero_le _))
      fun _ _ _ _ => .ok _

theorem parseFieldSpec_settles (ts : List Token) : Settles 1 ts fun n => parseFieldSpec n ts := by
  unfold parseFieldSpec
  cases ts with
  | nil => exact .error _
  | cons t us =>
    exact .ite (fun _ => parseValueFieldSpec_settles _) fun _ => .ite (fun _ => parseTypeFieldSpec_settles _)
      fun _ => .error _

theorem classLoop_settles (l : Nat) : ∀ ts : List Token, ts.length < l → ∀ fs,
    Settles 0 ts fun n => classLoop n fs ts := by
  induction l with
  | zero => exact fun _ h => absurd h (Nat.not_lt_zero _)
  | succ l ih =>
    intro ts hl fs
    refine .succ ?_
    simp only [classLoop]
    refine .bind (parseFieldSpec_settles ts) fun f s _ hs => ?_
    cases s with
    | nil => exact .error _
    | cons t us =>
      exact .ite (fun _ => .cons (ih us (by simp at hs; omega) _)) fun _ => .ite (fun _ => .cons (.ok _)) fun _ => .error _

theorem closeGroup_settles (g : Bool) (ts : List Token) : Settles 0 ts fun _ => closeGroup g ts := by
  unfold closeGroup
  exact .skip (fun _ _ _ _ => .ite (fun _ => .ite (fun _ => .ok _) fun _ => .error _) fun h => absurd rfl h)
    fun _ _ _ _ => .ite (fun h => by cases h) fun _ => .ok _

theorem withWords_ends (g : Bool) (w : Text) (f : ClassField) : f.withWords g w ≠ .diverge := by
  cases f <;> simp only [ClassField.withWords] <;> split <;> nofun

theorem withSyntaxLoop_settles (l : Nat) : ∀ ts : List Token, ts.length < l → ∀ g fs,
    Settles 0 ts fun n => withSyntaxLoop n g fs ts := by
  induction l with
  | zero => exact fun _ h => absurd h (Nat.not_lt_zero _)
  | succ l ih =>
    intro ts hl g fs
    refine .succ ?_
    simp only [withSyntaxLoop]
    have last : ∀ (s : List Token), s.length < l → ∀ (g : Bool) fs, Settles 0 s fun n =>
        (skip (Token.is .curlyEnd) s).bind fun z =>
          if z.1 then if g then .err Err.parse else .ok (fs, z.2) else withSyntaxLoop n g fs z.2 := by
      intro s hs g fs
      exact .skip (fun _ _ _ _ => .ite (fun _ => .ite (fun _ => .error _) fun _ => .ok _) fun h => absurd rfl h)
        fun _ _ _ _ => .ite (fun h => by cases h) fun _ => ih s hs _ _
    have rest : ∀ (s : List Token), s.length ≤ l → ∀ (g : Bool) (w : Text), Settles 0 s fun n =>
        (need (Token.is .andIdentifier) (s.dropWhile fun t => !t.is .andIdentifier)).bind fun f =>
            match get fs f.1.text with
            | none => .err Err.parse
            | some spec =>
                (spec.withWords g w).bind fun spec' =>
                  (skip (Token.is .comma) f.2).bind fun c =>
                    (closeGroup g c.2).bind fun e =>
                      (skip (Token.is .curlyEnd) e.2).bind fun z =>
                        if z.1 then
                          if e.1 then .err .parse else .ok (put fs f.1.text spec', z.2)
                        else withSyntaxLoop n e.1 (put fs f.1.text spec') z.2 := by
      intro s hs g w
      refine .of_suffix (s := s.dropWhile fun t => !t.is .andIdentifier) ?_ (List.dropWhile_suffix _)
      have hd := (List.dropWhile_suffix (fun t : Token => !t.is .andIdentifier) (l := s)).length_le
      refine .need fun t us hu _ => ?_
      rw [hu] at hd
      simp only [List.length_cons] at hd
      dsimp only
      cases get fs t.text with
      | none => exact .error _
      | some spec =>
        dsimp only
        cases hw : spec.withWords g w with
        | err e => exact .error _
        | panic => exact .panic
        | diverge => exact absurd hw (withWords_ends _ _ _)
        | ok spec' =>
          exact .skip (fun _ r hr _ => .bind (m := fun _ => closeGroup g r) (closeGroup_settles g r) fun _ r' _ hr' =>
            last r' (by rw [hr] at hd; simp at hd; omega) _ _)
            fun _ _ _ _ => .bind (m := fun _ => closeGroup g us) (closeGroup_settles g us) fun _ r' _ hr' =>
            last r' (by omega) _ _
    exact .skip (fun _ r hr _ => .ite (fun _ => .error _) fun _ => rest r (by rw [hr] at hl; simp at hl; omega) _ _)
      fun _ _ _ _ => .ite (fun _ => .error _) fun _ => rest ts (by omega) _ _

theorem parseWithSyntax_settles (fs : List (Text × ClassField)) (ts : List Token) :
    Settles 0 ts fun n => parseWithSyntax n fs ts := by
  unfold parseWithSyntax
  refine expectAll_bind fun b hl => .ite (fun _ => ?_) fun _ => .ok _
  exact .drop (j := 2) hl (.need fun _ r _ _ => withSyntaxLoop_settles _ r (Nat.lt_succ_self _) _ _)

theorem parseClass_settles (ts : List Token) : Settles 1 ts fun n => parseClass n ts := by
  unfold parseClass
  exact .need fun _ _ _ _ => .need fun _ r _ _ => .bind (classLoop_settles _ r (Nat.lt_succ_self _) _) fun _ s _ _ =>
    parseWithSyntax_settles _ s

theorem parseSetElement_cases (ts : List Token) :
    (Settles 1 ts fun _ => parseSetElement ts) ∨ parseSetElement ts = .ok (none, ts) := by
  cases ts with
  | nil => exact .inl (.error .unexpectedEnd)
  | cons t us =>
    rcases Settles.attemptOr (k := 1) (m := fun _ => parseSetIsh (t :: us)) (parseSetIsh_settles _) (f := fun _ r? => match r? with
      | some r => .ok (some (SetElement.object (.input r.1)), r.2)
      | none =>
            if t.isValueRef then .ok (some (.objectRef t.text), us)
            else if t.isTypeRef then .ok (some (.setRef t.text), us)
            else .ok (none, t :: us)) (fun _ _ _ _ => .ok _) with h | ⟨e, n, he⟩
    · exact .inl h
    · have he := he n (Nat.le_refl _)
      dsimp only at he
      by_cases h1 : t.isValueRef = true
      · left
        simp only [parseSetElement, he, Out.attempt, Out.bind, if_pos h1]
        exact .cons (.ok _)
      · by_cases h2 : t.isTypeRef = true
        · left
          simp only [parseSetElement, he, Out.attempt, Out.bind, if_neg h1, if_pos h2]
          exact .cons (.ok _)
        · right
          simp only [parseSetElement, he, Out.attempt, Out.bind, if_neg h1, if_neg h2]

theorem objectSetLoop_settles (l : Nat) : ∀ ts : List Token, ts.length < l → ∀ r a m,
    Settles 0 ts fun n => objectSetLoop n r a m ts := by
  induction l with
  | zero => exact fun _ h => absurd h (Nat.not_lt_zero _)
  | succ l ih =>
    intro ts hl r a m
    refine .succ ?_
    simp only [objectSetLoop]
    have last3 : ∀ s : List Token, s.length < l → ∀ r a m, Settles 0 s fun n =>
        (skip (Token.is .curlyEnd) s).bind fun z =>
          if z.1 then .ok ((r, a), z.2) else objectSetLoop n r a m z.2 := by
      intro s hs r a m
      exact .skip (fun _ _ _ _ => .ite (fun _ => .ok _) fun h => absurd rfl h)
        fun _ _ _ _ => .ite (fun h => by cases h) fun _ => ih s hs _ _ _
    have last2 : ∀ s : List Token, s.length < l → ∀ r a m, Settles 0 s fun n =>
        (skip Token.isUnion s).bind fun u => (skip (Token.is .curlyEnd) u.2).bind fun z =>
          if z.1 then .ok ((r, a), z.2) else objectSetLoop n r a m z.2 := by
      intro s hs r a m
      exact .skip (fun _ q h _ => last3 q (by rw [h] at hs; simp at hs; omega) _ _ _) fun _ _ _ _ => last3 s hs _ _ _
    have last1 : ∀ s : List Token, s.length < l → ∀ r a m, Settles 0 s fun n =>
        (skip (Token.is .comma) s).bind fun c =>
        (skip Token.isUnion c.2).bind fun u => (skip (Token.is .curlyEnd) u.2).bind fun z =>
          if z.1 then .ok ((r, a), z.2) else objectSetLoop n r a m z.2 := by
      intro s hs r a m
      exact .skip (fun _ q h _ => last2 q (by rw [h] at hs; simp at hs; omega) _ _ _) fun _ _ _ _ => last2 s hs _ _ _
    refine .expect fun z us e => .ite (fun _ => .error _) fun _ => ?_
    by_cases hx : z.is .extension = true
    · have : Settles 1 ts fun _ => parseMarker ts := by
        unfold parseMarker
        refine .skip (fun _ _ _ _ => .ite (fun _ => .skip (fun _ _ _ _ => .ok _) fun _ _ _ _ => .ok _) fun h => absurd rfl h)
          fun t' _ h' hf => ?_
        cases h'.symm.trans e; rw [hx] at hf; cases hf
      refine .bind (m := fun _ => parseMarker ts) this fun b s _ hs => ?_
      have hE : Settles 0 s fun _ => parseSetElement s := by
        rcases parseSetElement_cases s with h | h
        · exact h.less (Nat.zero_le _)
        · simp only [h]; exact .ok _
      exact .bind (m := fun _ => parseSetElement s) hE fun x s' _ hs' => last1 s' (by omega) _ _ _
    · have : parseMarker ts = .ok (false, ts) := by subst e; simp [parseMarker, skip, hx, Out.bind]
      simp only [this, Out.bind]
      rcases parseSetElement_cases ts with h | h
      · exact .bind (m := fun _ => parseSetElement ts) h fun x s _ hs => last1 s (by omega) _ _ _
      · simp only [h]
        refine .skip (fun _ q h _ => last2 q (by rw [h] at hl; simp at hl; omega) _ _ _) fun t u e1 hc =>
          .skip (fun _ q h _ => last3 q (by rw [h] at hl; simp at hl; omega) _ _ _) fun t' u' e2 hu =>
          .skip (fun _ _ _ _ => .ite (fun _ => .ok _) fun h => absurd rfl h) fun t'' u'' e3 hz =>
          .ite (fun h => by cases h) fun _ => .inr ⟨ts, List.suffix_refl _, ?_⟩
        cases e1.symm.trans e; cases e2.symm.trans e; cases e3.symm.trans e
        subst e
        exact .objectSet (by simpa [Token.is] using hc) (by simpa [Token.is] using hx) (by simpa [Token.is] using hz) hu h

theorem parseObjectSet_settles (ts : List Token) : Settles 1 ts fun n => parseObjectSet n ts := by
  unfold parseObjectSet
  exact .need fun _ r _ _ => objectSetLoop_settles _ r (Nat.lt_succ_self _) _ _ _

/-! ## Definitions -/

theorem parseParam_settles (ts : List Token) : Settles 1 ts fun _ => parseParam ts := by
  unfold parseParam
  refine expectAll_bind fun b hl => .ite (fun _ => .drop (j := 3) hl (.ok _)) fun _ => ?_
  cases ts with
  | nil => exact .error _
  | cons t us => exact .ite (fun _ => .cons (.ok _)) fun _ => .error _

theorem paramsLoop_settles (l : Nat) : ∀ ts : List Token, ts.length < l → ∀ names,
    Settles 0 ts fun n => paramsLoop n names ts := by
  induction l with
  | zero => exact fun _ h => absurd h (Nat.not_lt_zero _)
  | succ l ih =>
    intro ts hl names
    refine .succ ?_
    simp only [paramsLoop]
    exact .bind (m := fun _ => parseParam ts) (parseParam_settles ts) fun p s _ hs =>
      .skip (fun _ q h _ => .skip (fun _ _ _ _ => .ite (fun _ => .ok _) fun h => absurd rfl h)
        fun _ _ _ _ => .ite (fun h => by cases h) fun _ => ih q (by rw [h] at hs; simp at hs; omega) _)
      fun _ _ _ _ => .skip (fun _ _ _ _ => .ite (fun _ => .ok _) fun h => absurd rfl h)
        fun _ _ _ _ => .ite (fun h => by cases h) fun _ => ih s (by omega) _

theorem parseParams_settles (ts : List Token) : Settles 0 ts fun n => parseParams n ts := by
  unfold parseParams
  exact .need fun _ r _ _ => paramsLoop_settles _ r (Nat.lt_succ_self _) _

theorem parseObjectAssignment_settles (ts : List Token) : Settles 1 ts fun _ => parseObjectAssignment ts := by
  unfold parseObjectAssignment
  exact expectAll_bind fun b hl => .ite (fun _ => .drop (j := 2) hl (.need fun _ r _ _ =>
    .bind (m := fun _ => parseSetIsh r) ((parseSetIsh_settles r).less (Nat.zero_le _)) fun _ _ _ _ => .ok _))
    fun _ => .error _

theorem parseValueAssignment_settles (ts : List Token) : Settles 1 ts fun n => parseValueAssignment n ts := by
  unfold parseValueAssignment
  exact .need fun _ r _ _ => .bind ((ends r).type.less (Nat.zero_le _)) fun _ _ _ _ => .need fun _ s _ _ =>
    .bind (m := fun _ => parseValue s) ((parseValue_settles s).less (Nat.zero_le _)) fun _ _ _ _ => .ok _

theorem parseValueish_settles (ts : List Token) : Settles 1 ts fun n => parseValueish n ts := by
  unfold parseValueish
  exact .attempt (m := fun _ => parseObjectAssignment ts) (parseObjectAssignment_settles ts) (fun _ _ _ _ => .ok _)
    (.attempt (parseValueAssignment_settles ts) (fun _ _ _ _ => .ok _) (.error _))

theorem parseTypeAssignment_settles (ts : List Token) : Settles 1 ts fun n => parseTypeAssignment n ts := by
  unfold parseTypeAssignment
  exact .need fun _ r _ _ => .attempt (j := 0) (parseParams_settles r)
    (fun _ _ _ _ => .need fun _ q _ _ => .bind ((ends q).type.less (Nat.zero_le _)) fun _ _ _ _ => .ok _)
    (.need fun _ q _ _ => .bind ((ends q).type.less (Nat.zero_le _)) fun _ _ _ _ => .ok _)

theorem parseClassAssignment_settles (ts : List Token) : Settles 1 ts fun n => parseClassAssignment n ts := by
  unfold parseClassAssignment
  exact .need fun _ _ _ _ => .need fun _ q _ _ => .bind ((parseClass_settles q).less (Nat.zero_le _)) fun _ _ _ _ => .ok _

theorem parseObjectSetAssignment_settles (ts : List Token) : Settles 1 ts fun n => parseObjectSetAssignment n ts := by
  unfold parseObjectSetAssignment
  exact .need fun _ _ _ _ => .need fun _ _ _ _ => .need fun _ q _ _ =>
    .bind ((parseObjectSet_settles q).less (Nat.zero_le _)) fun _ _ _ _ => .ok _

theorem parseTypeish_settles (ts : List Token) : Settles 1 ts fun n => parseTypeish n ts := by
  unfold parseTypeish
  exact .attempt (parseTypeAssignment_settles ts) (fun _ _ _ _ => .ok _)
    (.attempt (parseClassAssignment_settles ts) (fun _ _ _ _ => .ok _)
    (.attempt (parseObjectSetAssignment_settles ts) (fun _ _ _ _ => .ok _) (.error _)))

theorem parseDefinition_settles (ts : List Token) : Settles 1 ts fun n => parseDefinition n ts := by
  unfold parseDefinition
  cases ts with
  | nil => exact .error _
  | cons t us =>
    exact .ite (fun _ => parseValueish_settles _) fun _ => .ite (fun _ => parseTypeish_settles _) fun _ => .error _

/-! ## Modules -/

theorem oidNumber_ends (t : Token) : oidNumber t ≠ .diverge := by
  unfold oidNumber; split <;> nofun

theorem wellKnown_ends (t : Text) : wellKnown t ≠ .diverge := by
  unfold wellKnown; split <;> nofun

theorem Settles.pure {α β : Type} {k : Nat} {ts : List Token} {m : Out Err α} {f : Nat → α → Out Err (β × List Token)}
    (hm : m ≠ .diverge) (hf : ∀ a, Settles k ts fun n => f n a) : Settles k ts fun n => m.bind (f n) := by
  cases m with
  | ok a => exact hf a
  | err e => exact .error e
  | panic => exact .panic
  | diverge => exact absurd rfl hm

theorem parseOidComponent_settles (ts : List Token) : Settles 1 ts fun _ => parseOidComponent ts := by
  unfold parseOidComponent
  cases ts with
  | nil => exact .error _
  | cons t us =>
    refine .ite (fun _ => .cons ?_) fun _ => .ite (fun _ => .cons (.pure (oidNumber_ends _) fun _ => .ok _)) fun _ => .error _
    unfold parseNamedOid
    refine .ite (fun _ => ?_) fun _ => .error _
    split
    · exact .ite (fun _ => .pure (oidNumber_ends _) fun _ => .cons (.cons (.cons (.ok _)))) fun _ =>
        .pure (wellKnown_ends _) fun _ => .ok _
    · exact .pure (wellKnown_ends _) fun _ => .ok _

theorem oidLoop_settles (l : Nat) : ∀ ts : List Token, ts.length < l → ∀ cs,
    Settles 0 ts fun n => oidLoop n cs ts := by
  induction l with
  | zero => exact fun _ h => absurd h (Nat.not_lt_zero _)
  | succ l ih =>
    intro ts hl cs
    refine .succ ?_
    simp only [oidLoop]
    exact .skip (fun _ _ _ _ => .ite (fun _ => .ok _) fun h => absurd rfl h)
      fun _ _ _ _ => .ite (fun h => by cases h) fun _ =>
        .bind (m := fun _ => parseOidComponent ts) (parseOidComponent_settles ts) fun _ s _ hs => ih s (by omega) _

theorem parseMaybeOid_settles (ts : List Token) : Settles 0 ts fun n => parseMaybeOid n ts := by
  unfold parseMaybeOid
  cases ts with
  | nil => exact .ok _
  | cons t us =>
    exact .ite (fun _ => .cons (.bind (oidLoop_settles _ us (Nat.lt_succ_self _) _) fun _ _ _ _ => .ok _)) fun _ => .ok _

theorem parseModuleName_settles (ts : List Token) : Settles 1 ts fun n => parseModuleName n ts := by
  unfold parseModuleName
  cases ts with
  | nil => exact .error _
  | cons t us =>
    exact .ite (fun _ => .cons (.bind (parseMaybeOid_settles us) fun _ _ _ _ => .ok _)) fun _ => .error _

theorem parseTags_settles (ts : List Token) : Settles 0 ts fun _ => parseTags ts := by
  unfold parseTags
  exact .skip (fun _ _ _ _ => .ite (fun _ => .need fun _ _ _ _ => .ok _) fun h => absurd rfl h)
    fun _ _ _ _ => .ite (fun h => by cases h) fun _ => .ok _

theorem importNames_settles (l : Nat) : ∀ ts : List Token, ts.length < l → ∀ names,
    Settles 1 ts fun n => importNames n names ts := by
  induction l with
  | zero => exact fun _ h => absurd h (Nat.not_lt_zero _)
  | succ l ih =>
    intro ts hl names
    refine .succ ?_
    cases ts with
    | nil => simp only [importNames]; exact .error _
    | cons t us =>
      simp only [importNames]
      exact .ite (fun _ => .cons (.ok _)) fun _ => .cons (.skip
        (fun _ q h _ => (ih q (by rw [h] at hl; simp at hl; omega) _).less (Nat.zero_le _))
        fun _ _ _ _ => (ih us (by simp at hl; omega) _).less (Nat.zero_le _))

theorem addImports_ends (m : Text) (ds : List Text) : ∀ is, addImports m is ds ≠ .diverge := by
  induction ds with
  | nil => exact fun _ => nofun
  | cons d ds ih =>
    intro is
    rw [addImports]
    split
    · nofun
    · exact ih _

theorem importsLoop_settles (l : Nat) : ∀ ts : List Token, ts.length < l → ∀ is,
    Settles 0 ts fun n => importsLoop n is ts := by
  induction l with
  | zero => exact fun _ h => absurd h (Nat.not_lt_zero _)
  | succ l ih =>
    intro ts hl is
    refine .succ ?_
    simp only [importsLoop]
    exact .bind (importNames_settles _ ts (Nat.lt_succ_self _) _) fun _ s _ hs =>
      .bind ((parseModuleName_settles s).less (Nat.zero_le _)) fun _ s' _ hs' => .pure (addImports_ends _ _ _) fun _ =>
      .skip (fun _ _ _ _ => .ite (fun _ => .ok _) fun h => absurd rfl h)
        fun _ _ _ _ => .ite (fun h => by cases h) fun _ => ih s' (by omega) _

theorem parseImports_settles (ts : List Token) : Settles 0 ts fun n => parseImports n ts := by
  unfold parseImports
  exact .skip (fun _ r _ _ => .ite (fun _ => importsLoop_settles _ r (Nat.lt_succ_self _) _) fun h => absurd rfl h)
    fun _ _ _ _ => .ite (fun h => by cases h) fun _ => .ok _

theorem definitionsLoop_settles (l : Nat) : ∀ ts : List Token, ts.length < l → ∀ ds,
    Settles 0 ts fun n => definitionsLoop n ds ts := by
  induction l with
  | zero => exact fun _ h => absurd h (Nat.not_lt_zero _)
  | succ l ih =>
    intro ts hl ds
    refine .succ ?_
    simp only [definitionsLoop]
    exact .skip (fun _ _ _ _ => .ite (fun _ => .ok _) fun h => absurd rfl h)
      fun _ _ _ _ => .ite (fun h => by cases h) fun _ =>
        .bind (parseDefinition_settles ts) fun _ s _ hs => ih s (by omega) _

theorem parseModule_settles (ts : List Token) : Settles 1 ts fun n => parseModule n ts := by
  unfold parseModule
  exact .bind (parseModuleName_settles ts) fun _ _ _ _ => .need fun _ r _ _ =>
    .bind (m := fun _ => parseTags r) (parseTags_settles r) fun _ _ _ _ => .need fun _ _ _ _ => .need fun _ r _ _ =>
    .bind (parseImports_settles r) fun _ s _ _ => .bind (definitionsLoop_settles _ s (Nat.lt_succ_self _) _)
    fun _ _ _ _ => .ok _

/-- The parser ends, unless it spins somewhere. -/
theorem modulesLoop_ends (l : Nat) : ∀ ts : List Token, ts.length < l → ∀ ms,
    (∃ r, r ≠ .diverge ∧ Ev fun n => modulesLoop n ms ts = r) ∨ Spins ts := by
  induction l with
  | zero => exact fun _ h => absurd h (Nat.not_lt_zero _)
  | succ l ih =>
    intro ts hl ms
    rcases parseModule_settles ts with ⟨r, h1, h2, h3⟩ | h
    · dsimp only at h3
      cases r with
      | err e =>
        refine .inl ⟨.err e, nofun, Ev.step (h3.imp fun n hn => ?_)⟩
        rw [modulesLoop, hn]; rfl
      | panic =>
        refine .inl ⟨.panic, nofun, Ev.step (h3.imp fun n hn => ?_)⟩
        rw [modulesLoop, hn]; rfl
      | diverge => exact absurd rfl h1
      | ok x =>
        obtain ⟨hs, hl'⟩ := h2 x.1 x.2 rfl
        by_cases he : x.2.isEmpty = true
        · refine .inl ⟨.ok (ms ++ [x.1]), nofun, Ev.step (h3.imp fun n hn => ?_)⟩
          rw [modulesLoop, hn]
          simp only [Out.bind, if_pos he]
        · rcases ih x.2 (by omega) (ms ++ [x.1]) with ⟨r, hr, hE⟩ | h
          · refine .inl ⟨r, hr, Ev.step ((h3.and hE).imp fun n hn => ?_)⟩
            rw [modulesLoop, hn.1]
            simp only [Out.bind, if_neg he]
            exact hn.2
          · exact .inr (h.of_suffix hs)
    · exact .inr h

theorem parse_ends (ts : List Token) :
    (∃ r, r ≠ .diverge ∧ Ev fun n => parse n ts = r) ∨ Spins (ts.filter fun t => !t.is .comment) :=
  modulesLoop_ends _ _ (Nat.lt_succ_self _) _

end Hampi.Compiler
