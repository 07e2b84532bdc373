import Verif.Props.Macro
import Verif.Spec.Emits
/-!
# The derive macro on any item
-/
namespace Hampi.Compiler
open Hampi.Derive
open _root_.Hampi.Compiler.Spec _root_.Hampi.Compiler.Props
open _root_.Hampi.Spec (Numeral)

/-! ## The entries -/

/-- What an entry gives to `name`. -/
def entryValue {α : Type} (name : Text) (un : Lit → Option α) : Nested → Option α
  | .nameValue p l => if p = name then un l else none
  | .other => none

/-- How the entries of one name are read. -/
structure EntryReads {P α : Type} (E : Nested → Prop) (add : P → Nested → Option P) (see : P → P) (field : P → Option α)
    (name : String) (mk : α → Lit) (un : Lit → Option α) : Prop where
  adds : ∀ p e, E e → ∃ q, add p e = some q ∧ field q = (entryValue name.toList un e).or (field p)
  known : ∀ p e q, add p e = some q → E e
  sees : ∀ p, field (see p) = field p
  made : ∀ x, un (mk x) = some x
  only : ∀ l, E (.nameValue name.toList l) → ∃ x, l = mk x

variable {P α : Type} {E : Nested → Prop} {add : P → Nested → Option P} {see : P → P} {field : P → Option α}
  {name : String} {mk : α → Lit} {un : Lit → Option α}

theorem EntryReads.addAll (R : EntryReads E add see field name mk un) : ∀ (l : List Nested) (p : P) (b : Bool),
    ((∀ e ∈ l, E e) → (addAll add l (p, b)).2 = b ∧
      field (addAll add l (p, b)).1 = l.foldl (fun o e => (entryValue name.toList un e).or o) (field p)) ∧
    ((addAll add l (p, b)).2 = false → b = false ∧ ∀ e ∈ l, E e)
  | [], p, b => ⟨fun _ => ⟨rfl, rfl⟩, fun h => ⟨h, fun _ h => by cases h⟩⟩
  | e :: l, p, b => by
      constructor
      · intro h
        obtain ⟨q, hq, hf⟩ := R.adds p e (h e (.head _))
        have := (R.addAll l q b).1 fun e he => h e (.tail _ he)
        simp only [Derive.addAll, hq, List.foldl_cons]
        rw [← hf]
        exact this
      · intro h
        simp only [Derive.addAll] at h
        cases hq : add p e with
        | none =>
          rw [hq] at h
          exact absurd ((R.addAll l p true).2 h).1 nofun
        | some q =>
          rw [hq] at h
          obtain ⟨hb, hl⟩ := (R.addAll l q b).2 h
          refine ⟨hb, fun e' he' => ?_⟩
          rcases List.mem_cons.mp he' with rfl | he'
          · exact R.known _ _ _ hq
          · exact hl _ he'

theorem EntryReads.readAttrs (R : EntryReads E add see field name mk un) : ∀ (as : List Attr) (p : P) (b : Bool),
    (OnlyEntries E as → (readAttrs add see as (p, b)).2 = b ∧ field (readAttrs add see as (p, b)).1 =
      (entries as).foldl (fun o e => (entryValue name.toList un e).or o) (field p)) ∧
    ((readAttrs add see as (p, b)).2 = false → b = false ∧ OnlyEntries E as)
  | [], p, b => ⟨fun _ => ⟨rfl, rfl⟩, fun h => ⟨h, fun _ h => by cases h⟩⟩
  | a :: as, p, b => by
      constructor
      · intro h
        obtain ⟨hp, l, hl, he⟩ := h a (.head _)
        obtain ⟨h1, h2⟩ := (R.addAll l (see p) b).1 he
        have h3 := (R.readAttrs as (Derive.addAll add l (see p, b)).1 (Derive.addAll add l (see p, b)).2).1
          fun a' h' => h a' (.tail _ h')
        simp only [Derive.readAttrs, hp, hl, if_true, entries, List.foldl_append]
        rw [← R.sees p, ← h2]
        exact ⟨h3.1.trans h1, h3.2⟩
      · intro h
        simp only [Derive.readAttrs] at h
        by_cases hp : a.path = "asn".toList
        · rw [if_pos hp] at h
          cases hl : a.body with
          | list l =>
            rw [hl] at h
            obtain ⟨h1, h2⟩ := (R.readAttrs as (Derive.addAll add l (see p, b)).1 (Derive.addAll add l (see p, b)).2).2 h
            obtain ⟨h3, h4⟩ := (R.addAll l (see p) b).2 h1
            refine ⟨h3, fun a' h' => ?_⟩
            rcases List.mem_cons.mp h' with rfl | h'
            · exact ⟨hp, l, hl, h4⟩
            · exact h2 _ h'
          | other => rw [hl] at h; exact absurd ((R.readAttrs as (see p) true).2 h).1 nofun
          | malformed => rw [hl] at h; exact absurd ((R.readAttrs as (see p) true).2 h).1 nofun
        · rw [if_neg hp] at h
          exact absurd ((R.readAttrs as p true).2 h).1 nofun

/-- Reading from the left, the last one stays. -/
theorem EntryReads.last (R : EntryReads E add see field name mk un) (x : α) : ∀ (l : List Nested) (o : Option α),
    (∀ e ∈ l, E e) →
    (l.foldl (fun o e => (entryValue name.toList un e).or o) o = some x ↔
      (∃ before after, l = before ++ .nameValue name.toList (mk x) :: after ∧
        ∀ l', .nameValue name.toList l' ∉ after) ∨ (o = some x ∧ ∀ l', .nameValue name.toList l' ∉ l))
  | [], o, _ => by
      constructor
      · intro h; exact .inr ⟨h, fun _ h => by cases h⟩
      · rintro (⟨before, _, h, _⟩ | h)
        · cases before <;> cases h
        · exact h.1
  | e :: l, o, h => by
      rw [List.foldl_cons, R.last x l _ fun e he => h e (.tail _ he)]
      by_cases he : ∃ l', e = .nameValue name.toList l'
      · obtain ⟨l', rfl⟩ := he
        obtain ⟨y, rfl⟩ := R.only _ (h _ (.head _))
        have hv : entryValue name.toList un (.nameValue name.toList (mk y)) = some y := by
          simp only [entryValue, if_true, R.made]
        rw [hv]
        constructor
        · rintro (⟨b, a, rfl, ha⟩ | ⟨hy, hn⟩)
          · exact .inl ⟨_ :: b, a, rfl, ha⟩
          · cases hy
            exact .inl ⟨[], l, rfl, hn⟩
        · rintro (⟨b, a, hl, ha⟩ | ⟨_, hn⟩)
          · cases b with
            | nil =>
              injection hl with h1 h2
              injection h1 with _ h1
              subst h2
              refine .inr ⟨?_, ha⟩
              have := R.made y
              rw [h1, R.made] at this
              rw [Option.some_or, ← this]
            | cons _ b =>
              injection hl with _ hl
              exact .inl ⟨b, a, hl, ha⟩
          · exact absurd (List.Mem.head _) (hn _)
      · have hv : entryValue name.toList un e = none := by
          cases e with
          | other => rfl
          | nameValue p l' =>
            simp only [entryValue]
            rw [if_neg]
            rintro rfl
            exact he ⟨_, rfl⟩
        rw [hv, Option.none_or]
        constructor
        · rintro (⟨b, a, rfl, ha⟩ | ⟨hy, hn⟩)
          · exact .inl ⟨_ :: b, a, rfl, ha⟩
          · refine .inr ⟨hy, fun l' hm => ?_⟩
            rcases List.mem_cons.mp hm with h' | h'
            · exact he ⟨_, h'.symm⟩
            · exact hn _ h'
        · rintro (⟨b, a, hl, ha⟩ | ⟨hy, hn⟩)
          · cases b with
            | nil => injection hl with h1 _; exact absurd ⟨_, h1⟩ he
            | cons _ b =>
              injection hl with _ hl
              exact .inl ⟨b, a, hl, ha⟩
          · exact .inr ⟨hy, fun l' hm => hn l' (.tail _ hm)⟩

theorem entries_only : ∀ {as : List Attr}, OnlyEntries E as → ∀ e ∈ entries as, E e
  | [], _, _, h => by cases h
  | a :: as, h, e, he => by
      rcases List.mem_append.mp he with he | he
      · obtain ⟨_, l, hl, hE⟩ := h a (.head _)
        rw [hl] at he
        exact hE e he
      · exact entries_only (fun a' h' => h a' (.tail _ h')) e he

/-- What has been read is what was given last. -/
theorem EntryReads.says (R : EntryReads E add see field name mk un) {as : List Attr} (h : OnlyEntries E as) {p : P}
    (hp : field p = none) (x : α) :
    field (Derive.readAttrs add see as (p, false)).1 = some x ↔ Last as name (mk x) := by
  rw [((R.readAttrs as p false).1 h).2, hp, R.last x _ _ (entries_only h)]
  constructor
  · rintro (h | ⟨h, _⟩)
    · exact h
    · cases h
  · exact .inl

/-! ## The parameters of an item -/

def Lit.text? : Lit → Option Text | .str s => some s | _ => none
def Lit.number? : Lit → Option Nat | .int s => some s | _ => none
def Lit.flag? : Lit → Option Bool | .bool s => some s | _ => none

/-- Noting that there is an attribute. -/
abbrev seen (p : TyParams) : TyParams := { p with attr := true }

theorem reads_ty : EntryReads ItemEntry TyParams.add seen TyParams.ty "type" Lit.str Lit.text? where
  adds p e h := by cases h <;> simp [TyParams.add, entryValue, Lit.text?]
  known _ _ _ h := (TyParams.add_known h).1
  sees _ := rfl
  made _ := rfl
  only l h := by
    generalize hn : "type".toList = n at h
    cases h <;> first | exact ⟨_, rfl⟩ | exact absurd hn (by decide)

theorem reads_lb : EntryReads ItemEntry TyParams.add seen TyParams.lb "lb" Lit.str Lit.text? where
  adds p e h := by cases h <;> simp [TyParams.add, entryValue, Lit.text?]
  known _ _ _ h := (TyParams.add_known h).1
  sees _ := rfl
  made _ := rfl
  only l h := by
    generalize hn : "lb".toList = n at h
    cases h <;> first | exact ⟨_, rfl⟩ | exact absurd hn (by decide)

theorem reads_ub : EntryReads ItemEntry TyParams.add seen TyParams.ub "ub" Lit.str Lit.text? where
  adds p e h := by cases h <;> simp [TyParams.add, entryValue, Lit.text?]
  known _ _ _ h := (TyParams.add_known h).1
  sees _ := rfl
  made _ := rfl
  only l h := by
    generalize hn : "ub".toList = n at h
    cases h <;> first | exact ⟨_, rfl⟩ | exact absurd hn (by decide)

theorem reads_szLb : EntryReads ItemEntry TyParams.add seen TyParams.szLb "sz_lb" Lit.str Lit.text? where
  adds p e h := by cases h <;> simp [TyParams.add, entryValue, Lit.text?]
  known _ _ _ h := (TyParams.add_known h).1
  sees _ := rfl
  made _ := rfl
  only l h := by
    generalize hn : "sz_lb".toList = n at h
    cases h <;> first | exact ⟨_, rfl⟩ | exact absurd hn (by decide)

theorem reads_szUb : EntryReads ItemEntry TyParams.add seen TyParams.szUb "sz_ub" Lit.str Lit.text? where
  adds p e h := by cases h <;> simp [TyParams.add, entryValue, Lit.text?]
  known _ _ _ h := (TyParams.add_known h).1
  sees _ := rfl
  made _ := rfl
  only l h := by
    generalize hn : "sz_ub".toList = n at h
    cases h <;> first | exact ⟨_, rfl⟩ | exact absurd hn (by decide)

theorem reads_ext : EntryReads ItemEntry TyParams.add seen TyParams.ext "extensible" Lit.bool Lit.flag? where
  adds p e h := by cases h <;> simp [TyParams.add, entryValue, Lit.flag?]
  known _ _ _ h := (TyParams.add_known h).1
  sees _ := rfl
  made _ := rfl
  only l h := by
    generalize hn : "extensible".toList = n at h
    cases h <;> first | exact ⟨_, rfl⟩ | exact absurd hn (by decide)

theorem reads_szExt : EntryReads ItemEntry TyParams.add seen TyParams.szExt "sz_extensible" Lit.bool Lit.flag? where
  adds p e h := by cases h <;> simp [TyParams.add, entryValue, Lit.flag?]
  known _ _ _ h := (TyParams.add_known h).1
  sees _ := rfl
  made _ := rfl
  only l h := by
    generalize hn : "sz_extensible".toList = n at h
    cases h <;> first | exact ⟨_, rfl⟩ | exact absurd hn (by decide)

theorem reads_optionalFields : EntryReads ItemEntry TyParams.add seen TyParams.optionalFields "optional_fields" Lit.int Lit.number? where
  adds p e h := by cases h <;> simp [TyParams.add, entryValue, Lit.number?]
  known _ _ _ h := (TyParams.add_known h).1
  sees _ := rfl
  made _ := rfl
  only l h := by
    generalize hn : "optional_fields".toList = n at h
    cases h <;> first | exact ⟨_, rfl⟩ | exact absurd hn (by decide)

theorem reads_key : EntryReads MemberEntry FieldParams.add id FieldParams.key "key" Lit.int Lit.number? where
  adds p e h := by cases h <;> simp [FieldParams.add, entryValue, Lit.number?]
  known _ _ _ h := (FieldParams.add_known h).1
  sees _ := rfl
  made _ := rfl
  only l h := by
    generalize hn : "key".toList = n at h
    cases h <;> first | exact ⟨_, rfl⟩ | exact absurd hn (by decide)

theorem reads_extended : EntryReads MemberEntry FieldParams.add id FieldParams.extended "extended" Lit.bool Lit.flag? where
  adds p e h := by cases h <;> simp [FieldParams.add, entryValue, Lit.flag?]
  known _ _ _ h := (FieldParams.add_known h).1
  sees _ := rfl
  made _ := rfl
  only l h := by
    generalize hn : "extended".toList = n at h
    cases h <;> first | exact ⟨_, rfl⟩ | exact absurd hn (by decide)

theorem reads_optionalIdx : EntryReads MemberEntry FieldParams.add id FieldParams.optionalIdx "optional_idx" Lit.int Lit.number? where
  adds p e h := by cases h <;> simp [FieldParams.add, entryValue, Lit.number?]
  known _ _ _ h := (FieldParams.add_known h).1
  sees _ := rfl
  made _ := rfl
  only l h := by
    generalize hn : "optional_idx".toList = n at h
    cases h <;> first | exact ⟨_, rfl⟩ | exact absurd hn (by decide)

theorem reads_keyField : EntryReads MemberEntry FieldParams.add id FieldParams.keyField "key_field" Lit.bool Lit.flag? where
  adds p e h := by cases h <;> simp [FieldParams.add, entryValue, Lit.flag?]
  known _ _ _ h := (FieldParams.add_known h).1
  sees _ := rfl
  made _ := rfl
  only l h := by
    generalize hn : "key_field".toList = n at h
    cases h <;> first | exact ⟨_, rfl⟩ | exact absurd hn (by decide)

/-- What is known of the parameters of an item. -/
structure ItemParams (as : List Attr) (p : TyParams) : Prop where
  ty : SaysText as "type" p.ty
  lb : SaysText as "lb" p.lb
  ub : SaysText as "ub" p.ub
  szLb : SaysText as "sz_lb" p.szLb
  szUb : SaysText as "sz_ub" p.szUb
  ext : SaysFlag as "extensible" p.ext
  szExt : SaysFlag as "sz_extensible" p.szExt
  optionalFields : SaysNumber as "optional_fields" p.optionalFields

theorem addAll_attr : ∀ (l : List Nested) (p : TyParams) (b : Bool), p.attr = true →
    (addAll TyParams.add l (p, b)).1.attr = true
  | [], _, _, h => h
  | e :: l, p, b, h => by
      simp only [addAll]
      cases hq : TyParams.add p e with
      | none => exact addAll_attr l p true h
      | some q =>
        refine addAll_attr l q b ?_
        have hk := (TyParams.add_known hq).1
        cases hk <;> simp [TyParams.add] at hq <;> subst hq <;> exact h

theorem readAttrs_attr : ∀ (as : List Attr) (p : TyParams) (b : Bool), p.attr = true →
    (readAttrs TyParams.add seen as (p, b)).1.attr = true
  | [], _, _, h => h
  | a :: as, p, b, h => by
      simp only [readAttrs]
      split
      · split
        · exact readAttrs_attr as _ _ (addAll_attr _ _ _ rfl)
        · exact readAttrs_attr as _ _ rfl
      · exact readAttrs_attr as _ _ h

theorem tyParams_says {as : List Attr} (h : OnlyEntries ItemEntry as) :
    ∃ p, tyParams as = .ok p ∧ ItemParams as p ∧ (∀ s, p.ty = some s → p.attr = true) := by
  refine ⟨(readAttrs TyParams.add seen as ({}, false)).1, ?_, ⟨fun x => reads_ty.says h rfl x,
    fun x => reads_lb.says h rfl x, fun x => reads_ub.says h rfl x, fun x => reads_szLb.says h rfl x,
    fun x => reads_szUb.says h rfl x, fun x => reads_ext.says h rfl x, fun x => reads_szExt.says h rfl x,
    fun x => reads_optionalFields.says h rfl x⟩, ?_⟩
  · have := ((reads_ty.readAttrs as {} false).1 h).1
    unfold tyParams
    dsimp only
    rw [if_neg (by rw [this]; decide)]
  · intro s hs
    cases as with
    | nil => cases hs
    | cons a as =>
      obtain ⟨hp, l, hl, _⟩ := h a (.head _)
      simp only [readAttrs, hp, hl, if_true]
      exact readAttrs_attr as _ _ (addAll_attr _ _ _ rfl)

theorem tyParams_only {as : List Attr} (h : ¬ OnlyEntries ItemEntry as) : tyParams as = .err () := by
  unfold tyParams
  dsimp only
  rw [if_pos]
  cases hb : (readAttrs TyParams.add seen as ({}, false)).2 with
  | true => rfl
  | false => exact absurd ((reads_ty.readAttrs as {} false).2 hb).2 h

theorem fieldParams_says {as : List Attr} (h : OnlyEntries MemberEntry as) :
    ∃ p, fieldParams as = .ok p ∧ SaysNumber as "key" p.key ∧ SaysFlag as "extended" p.extended ∧
      SaysNumber as "optional_idx" p.optionalIdx ∧ SaysFlag as "key_field" p.keyField := by
  refine ⟨(readAttrs FieldParams.add id as ({}, false)).1, ?_, fun x => reads_key.says h rfl x,
    fun x => reads_extended.says h rfl x, fun x => reads_optionalIdx.says h rfl x,
    fun x => reads_keyField.says h rfl x⟩
  have := ((reads_key.readAttrs as {} false).1 h).1
  unfold fieldParams
  dsimp only
  rw [if_neg (by rw [this]; decide)]

theorem fieldParams_only {as : List Attr} (h : ¬ OnlyEntries MemberEntry as) : fieldParams as = .err () := by
  unfold fieldParams
  dsimp only
  rw [if_pos]
  cases hb : (readAttrs FieldParams.add id as ({}, false)).2 with
  | true => rfl
  | false => exact absurd ((reads_key.readAttrs as {} false).2 hb).2 h

theorem option_ext' {α : Type} {a b : Option α} {Q : α → Prop} (h : ∀ x, a = some x ↔ Q x) (h' : ∀ x, b = some x ↔ Q x) :
    a = b := by
  cases a with
  | some x => exact ((h' x).2 ((h x).1 rfl)).symm
  | none =>
    cases b with
    | none => rfl
    | some x => exact (h x).2 ((h' x).1 rfl)

/-! ## Bounds -/

theorem boundOf_says {as : List Attr} {n : String} {o : Option Text} (h : SaysText as n o) (b : Option Int) :
    boundOf o = .ok b ↔ SaysMaybeBound as n b := by
  cases o with
  | none =>
    constructor
    · intro e; cases e; exact fun s hs => nomatch (h s).2 hs
    · intro e
      cases b with
      | none => rfl
      | some v => obtain ⟨s, hs, _⟩ := e; exact nomatch (h s).2 hs
  | some s =>
    have hs := (h s).1 rfl
    simp only [boundOf]
    constructor
    · intro e
      cases hp : parseI128 s with
      | none => rw [hp] at e; cases e
      | some v => rw [hp] at e; cases e; exact ⟨s, hs, parseI128_sound hp⟩
    · intro e
      cases b with
      | none => exact absurd hs (e s)
      | some v =>
        obtain ⟨s', hs', hv, hf⟩ := e
        cases (h s').2 hs'
        rw [parseI128_complete hv hf]

theorem boundOf_panic {as : List Attr} {n : String} {o : Option Text} (h : SaysText as n o) :
    (boundOf o = .panic ∧ ¬ BoundFine as n) ∨ ∃ b, boundOf o = .ok b ∧ SaysMaybeBound as n b := by
  cases hb : boundOf o with
  | ok b => exact .inr ⟨b, rfl, (boundOf_says h b).1 hb⟩
  | panic => exact .inl ⟨rfl, fun ⟨b, hf⟩ => by rw [(boundOf_says h b).2 hf] at hb; cases hb⟩
  | err e => unfold boundOf at hb; split at hb <;> (try cases hb); split at hb <;> cases hb
  | diverge => unfold boundOf at hb; split at hb <;> (try cases hb); split at hb <;> cases hb

theorem choiceBound_says {as : List Attr} {n : String} {o : Option Text} (h : SaysText as n o) (v : Int) :
    choiceBound o = .ok v ↔ SaysBound as n v := by
  cases o with
  | none =>
    constructor
    · intro e; cases e
    · rintro ⟨s, hs, _⟩; exact nomatch (h s).2 hs
  | some s =>
    have hs := (h s).1 rfl
    simp only [choiceBound]
    constructor
    · intro e
      cases hp : parseI128 s with
      | none => rw [hp] at e; cases e
      | some v => rw [hp] at e; cases e; exact ⟨s, hs, parseI128_sound hp⟩
    · rintro ⟨s', hs', hv, hf⟩
      cases (h s').2 hs'
      rw [parseI128_complete hv hf]

theorem choiceBound_panic {as : List Attr} {n : String} {o : Option Text} (h : SaysText as n o) :
    (choiceBound o = .panic ∧ ¬ ∃ v, SaysBound as n v) ∨ ∃ v, choiceBound o = .ok v ∧ SaysBound as n v := by
  cases hb : choiceBound o with
  | ok b => exact .inr ⟨b, rfl, (choiceBound_says h b).1 hb⟩
  | panic => exact .inl ⟨rfl, fun ⟨b, hf⟩ => by rw [(choiceBound_says h b).2 hf] at hb; cases hb⟩
  | err e => unfold choiceBound at hb; split at hb <;> (try cases hb); split at hb <;> cases hb
  | diverge => unfold choiceBound at hb; split at hb <;> (try cases hb); split at hb <;> cases hb

theorem bounds_says {as : List Attr} {n m k : String} {lb ub : Option Text} {e : Option Bool}
    (hl : SaysText as n lb) (hu : SaysText as m ub) (he : SaysFlag as k e) (r : Option Int × Option Int × Bool) :
    bounds lb ub e = .ok r ↔ SaysMaybeBound as n r.1 ∧ SaysMaybeBound as m r.2.1 ∧ SaysOrFalse as k r.2.2 := by
  unfold bounds
  rw [Out.bind_ok]
  constructor
  · rintro ⟨l, h1, h⟩
    rw [Out.bind_ok] at h
    obtain ⟨u, h2, h⟩ := h
    cases h
    exact ⟨(boundOf_says hl _).1 h1, (boundOf_says hu _).1 h2, e, he, rfl⟩
  · obtain ⟨l, u, b⟩ := r
    rintro ⟨h1, h2, o, h3, rfl⟩
    refine ⟨l, (boundOf_says hl _).2 h1, Out.bind_ok.2 ⟨u, (boundOf_says hu _).2 h2, ?_⟩⟩
    rw [option_ext' he h3]

theorem bounds_panic {as : List Attr} {n m k : String} {lb ub : Option Text} {e : Option Bool}
    (hl : SaysText as n lb) (hu : SaysText as m ub) (_he : SaysFlag as k e) :
    (bounds lb ub e = .panic ∧ ¬ (BoundFine as n ∧ BoundFine as m)) ∨
      (∃ r, bounds lb ub e = .ok r) ∧ BoundFine as n ∧ BoundFine as m := by
  unfold bounds
  rcases boundOf_panic hl with ⟨h, hn⟩ | ⟨b, h, hb⟩
  · rw [h]; exact .inl ⟨rfl, fun h => hn h.1⟩
  · rw [h]
    rcases boundOf_panic hu with ⟨h, hn⟩ | ⟨c, h, hc⟩
    · rw [h]; exact .inl ⟨rfl, fun h => hn h.2⟩
    · rw [h]; exact .inr ⟨⟨_, rfl⟩, ⟨b, hb⟩, ⟨c, hc⟩⟩

/-! ## Fields and variants -/

theorem fieldImpl_emits (f : FieldSyn) (r : FieldImpl) : fieldImpl f = .ok r ↔ EmitsField f r := by
  by_cases ho : OnlyEntries MemberEntry f.attrs
  · obtain ⟨p, hp, _, _, hi, hk⟩ := fieldParams_says ho
    unfold fieldImpl
    rw [hp]
    dsimp only [Out.bind]
    cases hty : f.ty with
    | other =>
      constructor
      · intro h; cases h
      · intro h
        cases h with
        | optional _ h => rw [hty] at h; cases h
        | required _ h => rw [hty] at h; cases h
    | path c x args more =>
      by_cases hc : c = false ∧ more = false ∧ x = "Option".toList
      · simp only [fieldType, if_pos hc]
        obtain ⟨rfl, rfl, rfl⟩ := hc
        constructor
        · intro h
          match args, hty, h with
          | [], _, h => cases h
          | .other :: _, _, h => cases h
          | .path c' y args' more' :: rest, hty, h =>
            dsimp only at h
            cases hx : p.optionalIdx with
            | none => rw [hx] at h; cases h
            | some k => rw [hx] at h; cases h; exact .optional ho hty ((hi k).1 hx)
        · intro h
          cases h with
          | optional _ h hl =>
            rw [hty] at h
            injection h with _ _ h
            subst h
            dsimp only
            rw [(hi _).2 hl]
          | required _ h hn _ =>
            rw [hty] at h
            cases h
            exact absurd ⟨rfl, rfl, rfl⟩ hn
      · simp only [fieldType, if_neg hc]
        constructor
        · intro h
          cases h
          exact .required ho hty (fun ⟨a, b, d⟩ => hc ⟨a, d, b⟩) ⟨_, hk, rfl⟩
        · intro h
          cases h with
          | optional _ h hl =>
            rw [hty] at h
            cases h
            exact absurd ⟨rfl, rfl, rfl⟩ hc
          | required _ h hn hkf =>
            rw [hty] at h
            cases h
            obtain ⟨o, h1, rfl⟩ := hkf
            rw [option_ext' hk h1]
  · unfold fieldImpl
    rw [fieldParams_only ho]
    constructor
    · intro h; cases h
    · intro h
      cases h with
      | optional h => exact absurd h ho
      | required h => exact absurd h ho

theorem variantImpl_emits (v : VariantSyn) (r : Option VariantImpl) : variantImpl v = .ok r ↔ EmitsVariant v r := by
  by_cases ho : OnlyEntries MemberEntry v.attrs
  · obtain ⟨p, hp, hk, he, _, _⟩ := fieldParams_says ho
    unfold variantImpl
    rw [hp]
    dsimp only [Out.bind]
    cases hkey : p.key with
    | none =>
      constructor
      · intro h; cases h
      · intro h
        cases h with
        | tuple _ h => rw [(hk _).2 h] at hkey; cases hkey
        | passed _ h => rw [(hk _).2 h] at hkey; cases hkey
    | some k =>
      have hl := (hk k).1 hkey
      constructor
      · intro h
        cases hf : v.fields with
        | unit => rw [hf] at h; cases h; exact .passed ho hl (by rw [hf]; nofun)
        | named => rw [hf] at h; cases h; exact .passed ho hl (by rw [hf]; nofun)
        | tuple tys =>
          rw [hf] at h
          match tys, hf, h with
          | [], _, h => cases h
          | [ty], hf, h => cases h; exact .tuple ho hl hf he
          | _ :: _ :: _, _, h => cases h
      · intro h
        cases h with
        | tuple _ h hf he' =>
          rw [hf]
          have := (hk _).2 h
          rw [hkey] at this
          cases this
          rw [option_ext' he he']
        | passed _ h hf =>
          cases hv : v.fields with
          | unit => rfl
          | named => rfl
          | tuple tys => exact absurd hv (hf tys)
  · unfold variantImpl
    rw [fieldParams_only ho]
    constructor
    · intro h; cases h
    · intro h
      cases h with
      | tuple h => exact absurd h ho
      | passed h => exact absurd h ho

theorem allOk_all2 {α β : Type} {f : α → Out Unit β} {Q : α → β → Prop} (h : ∀ x y, f x = .ok y ↔ Q x y) :
    ∀ (l : List α) (r : List β), allOk f l = .ok r ↔ All2 Q l r
  | [], r => by
      constructor
      · intro h; cases h; exact .nil
      · intro h; cases h; rfl
  | x :: l, r => by
      rw [allOk_cons]
      constructor
      · rintro ⟨y, ys, h1, h2, rfl⟩
        exact .cons ((h _ _).1 h1) ((allOk_all2 h l ys).1 h2)
      · intro h'
        cases h' with
        | cons h1 h2 => exact ⟨_, _, (h _ _).2 h1, (allOk_all2 h l _).2 h2, rfl⟩

theorem seqFields_emits (d : Data) (fs : List FieldImpl) : seqFields d = .ok fs ↔ EmitsFields d fs := by
  constructor
  · intro h
    cases d with
    | named l => exact .named ((allOk_all2 fieldImpl_emits l fs).1 h)
    | unit => cases h; exact .others nofun
    | tuple => cases h; exact .others nofun
    | enum => cases h; exact .others nofun
    | union => cases h; exact .others nofun
  · intro h
    cases h with
    | named h => exact (allOk_all2 fieldImpl_emits _ fs).2 h
    | others h =>
      cases d with
      | named l => exact absurd rfl (h l)
      | _ => rfl

theorem variants_emits (d : Data) (vs : List VariantImpl) : variants d = .ok vs ↔ EmitsVariants d vs := by
  constructor
  · intro h
    cases d with
    | enum l =>
      obtain ⟨r, h1, h2⟩ := Out.bind_ok.1 h
      cases h2
      exact .enum ((allOk_all2 variantImpl_emits l r).1 h1)
    | unit => cases h; exact .others nofun
    | tuple => cases h; exact .others nofun
    | named => cases h; exact .others nofun
    | union => cases h; exact .others nofun
  · intro h
    cases h with
    | enum h => exact Out.bind_ok.2 ⟨_, (allOk_all2 variantImpl_emits _ _).2 h, rfl⟩
    | others h =>
      cases d with
      | enum l => exact absurd rfl (h l)
      | _ => rfl

/-! ## The item -/

/-- The texts of the types, in the order the macro asks for them. -/
theorem generateCodec_says {i : Input} {p : TyParams} (hp : ItemParams i.attrs p) (ty : Text) (impl : Impl) :
    generateCodec i ty p = .ok impl ↔ ∃ s : String, ty = s.toList ∧ EmitsBody i.attrs i.data s impl := by
  have hsingle : ∀ {t : RustTy}, single i.data = .ok t ↔ i.data = .tuple [t] := by
    intro t
    constructor
    · intro h
      cases hd : i.data with
      | tuple l =>
        rw [hd] at h
        match l, h with
        | [], h => cases h
        | [_], h => cases h; rfl
        | _ :: _ :: _, h => cases h
      | _ => rw [hd] at h; cases h
    · intro h; rw [h]; rfl
  constructor
  · intro h
    refine ⟨String.ofList ty, (String.toList_ofList).symm, ?_⟩
    have hname : ∀ {s : String}, ty = s.toList → String.ofList ty = s := by
      intro s h; rw [h]; exact String.ofList_toList
    unfold generateCodec at h
    by_cases e : ty = "BOOLEAN".toList
    · rw [if_pos e] at h
      cases h; rw [hname e]; exact .boolean
    rw [if_neg e] at h; clear e
    by_cases e : ty = "CHOICE".toList
    · rw [if_pos e] at h
      rw [hname e]
      obtain ⟨lb, h1, h⟩ := Out.bind_ok.1 h
      obtain ⟨ub, h2, h⟩ := Out.bind_ok.1 h
      obtain ⟨vs, h3, h⟩ := Out.bind_ok.1 h
      cases h
      exact .choice ((choiceBound_says hp.lb _).1 h1) ((choiceBound_says hp.ub _).1 h2) hp.ext ((variants_emits _ _).1 h3)
    rw [if_neg e] at h; clear e
    by_cases e : ty = "INTEGER".toList
    · rw [if_pos e] at h
      rw [hname e]
      obtain ⟨t, h1, h⟩ := Out.bind_ok.1 h
      obtain ⟨b, h2, h⟩ := Out.bind_ok.1 h
      cases h
      have := (bounds_says hp.lb hp.ub hp.ext _).1 h2
      exact .integer (hsingle.1 h1) this.1 this.2.1 this.2.2
    rw [if_neg e] at h; clear e
    by_cases e : ty = "ENUMERATED".toList
    · rw [if_pos e] at h
      rw [hname e]
      obtain ⟨t, h1, h⟩ := Out.bind_ok.1 h
      obtain ⟨b, h2, h⟩ := Out.bind_ok.1 h
      cases h
      have := (bounds_says hp.lb hp.ub hp.ext _).1 h2
      exact .enumerated (hsingle.1 h1) this.1 this.2.1 this.2.2
    rw [if_neg e] at h; clear e
    by_cases e : ty = "BITSTRING".toList
    · rw [if_pos e] at h
      rw [hname e]
      obtain ⟨t, h1, h⟩ := Out.bind_ok.1 h
      obtain ⟨b, h2, h⟩ := Out.bind_ok.1 h
      cases h
      have := (bounds_says hp.szLb hp.szUb hp.szExt _).1 h2
      exact .bits (hsingle.1 h1) this.1 this.2.1 this.2.2
    rw [if_neg e] at h; clear e
    by_cases e : ty = "OCTET-STRING".toList
    · rw [if_pos e] at h
      rw [hname e]
      obtain ⟨t, h1, h⟩ := Out.bind_ok.1 h
      obtain ⟨b, h2, h⟩ := Out.bind_ok.1 h
      cases h
      have := (bounds_says hp.szLb hp.szUb hp.szExt _).1 h2
      exact .octets (hsingle.1 h1) this.1 this.2.1 this.2.2
    rw [if_neg e] at h; clear e
    by_cases e : ty = "UTF8String".toList
    · rw [if_pos e] at h
      rw [hname e]
      obtain ⟨t, h1, h⟩ := Out.bind_ok.1 h
      obtain ⟨b, h2, h⟩ := Out.bind_ok.1 h
      cases h
      have := (bounds_says hp.szLb hp.szUb hp.szExt _).1 h2
      exact .chars .utf8 (hsingle.1 h1) this.1 this.2.1 this.2.2
    rw [if_neg e] at h; clear e
    by_cases e : ty = "PrintableString".toList
    · rw [if_pos e] at h
      rw [hname e]
      obtain ⟨t, h1, h⟩ := Out.bind_ok.1 h
      obtain ⟨b, h2, h⟩ := Out.bind_ok.1 h
      cases h
      have := (bounds_says hp.szLb hp.szUb hp.szExt _).1 h2
      exact .chars .printable (hsingle.1 h1) this.1 this.2.1 this.2.2
    rw [if_neg e] at h; clear e
    by_cases e : ty = "VisibleString".toList
    · rw [if_pos e] at h
      rw [hname e]
      obtain ⟨t, h1, h⟩ := Out.bind_ok.1 h
      obtain ⟨b, h2, h⟩ := Out.bind_ok.1 h
      cases h
      have := (bounds_says hp.szLb hp.szUb hp.szExt _).1 h2
      exact .chars .visible (hsingle.1 h1) this.1 this.2.1 this.2.2
    rw [if_neg e] at h; clear e
    by_cases e : ty = "NULL".toList
    · rw [if_pos e] at h
      cases h; rw [hname e]; exact .null
    rw [if_neg e] at h; clear e
    by_cases e : ty = "SEQUENCE".toList
    · rw [if_pos e] at h
      rw [hname e]
      obtain ⟨fs, h1, h⟩ := Out.bind_ok.1 h
      cases h
      exact .sequence hp.ext hp.optionalFields ((seqFields_emits _ _).1 h1)
    rw [if_neg e] at h; clear e
    by_cases e : ty = "OPEN".toList
    · rw [if_pos e] at h
      rw [hname e]
      obtain ⟨vs, h1, h⟩ := Out.bind_ok.1 h
      cases h
      exact .openType ((variants_emits _ _).1 h1)
    rw [if_neg e] at h; clear e
    by_cases e : ty = "SEQUENCE-OF".toList
    · rw [if_pos e] at h
      rw [hname e]
      obtain ⟨t, h1, h⟩ := Out.bind_ok.1 h
      obtain ⟨b, h2, h⟩ := Out.bind_ok.1 h
      cases h
      have := (bounds_says hp.szLb hp.szUb hp.szExt _).1 h2
      refine .sequenceOf (hsingle.1 h1) ?_ this.1 this.2.1 this.2.2
      split
      · exact .one
      · rename_i hn; exact .none fun c v c' y a m r m' e => hn c v c' y a m r m' e
    rw [if_neg e] at h; clear e
    by_cases e : ty = "OBJECT-IDENTIFIER".toList
    · rw [if_pos e] at h
      cases h; rw [hname e]; exact .objectIdentifier
    rw [if_neg e] at h; clear e
    cases h
  · rintro ⟨s, rfl, h⟩
    cases h with
    | boolean => rfl
    | null => unfold generateCodec; repeat rw [if_neg (by decide)]
              rfl
    | objectIdentifier => unfold generateCodec; repeat rw [if_neg (by decide)]
                          rfl
    | integer hd h1 h2 h3 =>
      have hb := (bounds_says hp.lb hp.ub hp.ext (_, _, _)).2 ⟨h1, h2, h3⟩
      unfold generateCodec
      rw [hd]
      repeat rw [if_neg (by decide)]
      rw [if_pos rfl, hb]; rfl
    | enumerated hd h1 h2 h3 =>
      have hb := (bounds_says hp.lb hp.ub hp.ext (_, _, _)).2 ⟨h1, h2, h3⟩
      unfold generateCodec
      rw [hd]
      repeat rw [if_neg (by decide)]
      rw [if_pos rfl, hb]; rfl
    | bits hd h1 h2 h3 =>
      have hb := (bounds_says hp.szLb hp.szUb hp.szExt (_, _, _)).2 ⟨h1, h2, h3⟩
      rw [generateCodec_bits i p _ hd, hb]; rfl
    | octets hd h1 h2 h3 =>
      have hb := (bounds_says hp.szLb hp.szUb hp.szExt (_, _, _)).2 ⟨h1, h2, h3⟩
      rw [generateCodec_octets i p _ hd, hb]; rfl
    | @chars _ k _ _ _ _ hc hd h1 h2 h3 =>
      have hb := (bounds_says hp.szLb hp.szUb hp.szExt (_, _, _)).2 ⟨h1, h2, h3⟩
      have hk : s.toList = kindName k := by cases hc <;> rfl
      rw [hk, generateCodec_chars i p _ _ hd, hb]; rfl
    | sequenceOf hd hy h1 h2 h3 =>
      have hb := (bounds_says hp.szLb hp.szUb hp.szExt (_, _, _)).2 ⟨h1, h2, h3⟩
      unfold generateCodec
      rw [hd]
      repeat rw [if_neg (by decide)]
      rw [if_pos rfl, hb]
      cases hy with
      | one => rfl
      | none hn =>
        dsimp only [single, Out.bind]
        split
        · exact absurd rfl (hn _ _ _ _ _ _ _ _)
        · rfl
    | choice h1 h2 h3 h4 =>
      unfold generateCodec
      rw [if_neg (by decide), if_pos rfl, (choiceBound_says hp.lb _).2 h1, (choiceBound_says hp.ub _).2 h2,
        (variants_emits _ _).2 h4]
      rw [option_ext' hp.ext h3]; rfl
    | openType h =>
      unfold generateCodec
      repeat rw [if_neg (by decide)]
      rw [if_pos rfl, (variants_emits _ _).2 h]; rfl
    | sequence h1 h2 h3 =>
      unfold generateCodec
      repeat rw [if_neg (by decide)]
      rw [if_pos rfl, (seqFields_emits _ _).2 h3, option_ext' hp.ext h1, option_ext' hp.optionalFields h2]; rfl

theorem derive_emits (i : Input) (impl : Impl) : derive i = .ok impl ↔ Emits i impl := by
  by_cases ho : OnlyEntries ItemEntry i.attrs
  · obtain ⟨p, hp, hs, ha⟩ := tyParams_says ho
    unfold derive
    rw [hp]
    dsimp only [Out.bind]
    constructor
    · intro h
      split at h
      · cases hty : p.ty with
        | none => rw [hty] at h; cases h
        | some ty =>
          rw [hty] at h
          obtain ⟨s, rfl, hb⟩ := (generateCodec_says hs ty impl).1 h
          exact ⟨ho, s, (hs.ty _).1 hty, hb⟩
      · cases h
    · rintro ⟨_, s, hl, hb⟩
      have hty := (hs.ty _).2 hl
      rw [if_pos (ha _ hty), hty]
      exact (generateCodec_says hs _ impl).2 ⟨s, rfl, hb⟩
  · unfold derive
    rw [tyParams_only ho]
    constructor
    · intro h; cases h
    · intro h; exact absurd h.1 ho

/-! ## Panics -/

theorem fieldParams_kind (as : List Attr) : (∃ p, fieldParams as = .ok p) ∨ fieldParams as = .err () := by
  unfold fieldParams
  dsimp only
  split
  · exact .inr rfl
  · exact .inl ⟨_, rfl⟩

/-- A result or an error. -/
def MacroCalm {β : Type} (o : Out Unit β) : Prop := (∃ y, o = .ok y) ∨ o = .err ()

theorem fieldImpl_quiet (f : FieldSyn) : MacroCalm (fieldImpl f) := by
  unfold fieldImpl
  rcases fieldParams_kind f.attrs with ⟨p, hp⟩ | hp
  · rw [hp]
    dsimp only [Out.bind]
    split
    · exact .inr rfl
    · split
      · exact .inr rfl
      · exact .inl ⟨_, rfl⟩
    · exact .inl ⟨_, rfl⟩
  · rw [hp]; exact .inr rfl

theorem variantImpl_quiet (v : VariantSyn) : MacroCalm (variantImpl v) := by
  unfold variantImpl
  rcases fieldParams_kind v.attrs with ⟨p, hp⟩ | hp
  · rw [hp]
    dsimp only [Out.bind]
    split
    · exact .inr rfl
    · split
      · exact .inl ⟨_, rfl⟩
      · exact .inr rfl
      · exact .inl ⟨_, rfl⟩
  · rw [hp]; exact .inr rfl

theorem allOk_quiet {α β : Type} {f : α → Out Unit β} (h : ∀ x, MacroCalm (f x)) : ∀ l, MacroCalm (allOk f l)
  | [] => .inl ⟨_, rfl⟩
  | x :: l => by
      rw [allOk]
      rcases h x with ⟨y, hy⟩ | hy
      · rw [hy]
        rcases allOk_quiet h l with ⟨ys, hl⟩ | hl
        · exact .inl ⟨_, by rw [hl]; rfl⟩
        · exact .inr (by rw [hl]; rfl)
      · rw [hy]; exact .inr rfl

theorem variants_quiet (d : Data) : MacroCalm (variants d) := by
  cases d with
  | enum l =>
    rcases allOk_quiet variantImpl_quiet l with ⟨r, h⟩ | h
    · exact .inl ⟨_, by rw [variants, h]; rfl⟩
    · exact .inr (by rw [variants, h]; rfl)
  | _ => exact .inl ⟨_, rfl⟩

theorem seqFields_quiet (d : Data) : MacroCalm (seqFields d) := by
  cases d with
  | named l => exact allOk_quiet fieldImpl_quiet l
  | _ => exact .inl ⟨_, rfl⟩

theorem single_quiet (d : Data) : (∃ t, single d = .ok t ∧ d = .tuple [t]) ∨ (single d = .err () ∧ ∀ t, d ≠ .tuple [t]) := by
  cases d with
  | tuple l =>
    match l with
    | [] => exact .inr ⟨rfl, nofun⟩
    | [t] => exact .inl ⟨t, rfl, rfl⟩
    | _ :: _ :: _ => exact .inr ⟨rfl, nofun⟩
  | _ => exact .inr ⟨rfl, nofun⟩

/-- A newtype: it panics exactly if a bound is no good. -/
theorem newtype_panics {as : List Attr} {n m k : String} {lb ub : Option Text} {e : Option Bool} {d : Data}
    {g : RustTy → Option Int × Option Int × Bool → Out Unit Impl} (hg : ∀ t b, ∃ x, g t b = .ok x)
    (hl : SaysText as n lb) (hu : SaysText as m ub) (he : SaysFlag as k e) :
    ((single d).bind fun t => (bounds lb ub e).bind fun b => g t b) ≠ .diverge ∧
    (((single d).bind fun t => (bounds lb ub e).bind fun b => g t b) = .panic ↔
      (∃ ty, d = .tuple [ty]) ∧ ¬ (BoundFine as n ∧ BoundFine as m)) := by
  rcases single_quiet d with ⟨t, h, hd⟩ | ⟨h, hd⟩
  · rw [h]
    dsimp only [Out.bind]
    rcases bounds_panic hl hu he with ⟨hb, hn⟩ | ⟨⟨r, hb⟩, hn⟩
    · rw [hb]
      exact ⟨nofun, fun _ => ⟨⟨t, hd⟩, hn⟩, fun _ => rfl⟩
    · rw [hb]
      obtain ⟨x, hx⟩ := hg t r
      dsimp only
      rw [hx]
      exact ⟨nofun, nofun, fun h => absurd hn h.2⟩
  · rw [h]
    exact ⟨nofun, nofun, fun ⟨⟨t, ht⟩, _⟩ => absurd ht (hd t)⟩

/-- What panics, by the text of the type. -/
def PanicsFor (i : Input) (s : String) : Prop :=
  (s ∈ ["INTEGER", "ENUMERATED"] ∧ (∃ ty, i.data = .tuple [ty]) ∧
      ¬ (BoundFine i.attrs "lb" ∧ BoundFine i.attrs "ub")) ∨
    (s ∈ ["BITSTRING", "OCTET-STRING", "UTF8String", "PrintableString", "VisibleString", "SEQUENCE-OF"] ∧
      (∃ ty, i.data = .tuple [ty]) ∧ ¬ (BoundFine i.attrs "sz_lb" ∧ BoundFine i.attrs "sz_ub")) ∨
    (s = "CHOICE" ∧ ¬ ((∃ v, SaysBound i.attrs "lb" v) ∧ ∃ v, SaysBound i.attrs "ub" v))

theorem generateCodec_panics {i : Input} {p : TyParams} (hp : ItemParams i.attrs p) (ty : Text) :
    generateCodec i ty p ≠ .diverge ∧ (generateCodec i ty p = .panic ↔ PanicsFor i (String.ofList ty)) := by
  have hname : ∀ {s : String}, ty = s.toList → String.ofList ty = s := by
    intro s h; rw [h]; exact String.ofList_toList
  have hother : ∀ {s : String}, ty ≠ s.toList → String.ofList ty ≠ s := by
    intro s h e; exact h (by rw [← e, String.toList_ofList])
  have hquiet : ∀ {o : Out Unit Impl} {s : String}, MacroCalm o → ¬ PanicsFor i s →
      o ≠ .diverge ∧ (o = .panic ↔ PanicsFor i s) := by
    rintro o s (⟨x, rfl⟩ | rfl) h
    · exact ⟨nofun, nofun, fun h' => absurd h' h⟩
    · exact ⟨nofun, nofun, fun h' => absurd h' h⟩
  have hnum : ∀ {s : String}, s ∈ ["INTEGER", "ENUMERATED"] → (PanicsFor i s ↔ (∃ ty, i.data = .tuple [ty]) ∧
      ¬ (BoundFine i.attrs "lb" ∧ BoundFine i.attrs "ub")) := by
    intro s hs
    constructor
    · rintro (h | ⟨h, _⟩ | ⟨h, _⟩)
      · exact h.2
      · simp at hs h; rcases hs with rfl | rfl <;> simp at h
      · subst h; simp at hs
    · exact fun h => .inl ⟨hs, h⟩
  have hsize : ∀ {s : String}, s ∈ ["BITSTRING", "OCTET-STRING", "UTF8String", "PrintableString", "VisibleString",
      "SEQUENCE-OF"] → (PanicsFor i s ↔ (∃ ty, i.data = .tuple [ty]) ∧
      ¬ (BoundFine i.attrs "sz_lb" ∧ BoundFine i.attrs "sz_ub")) := by
    intro s hs
    constructor
    · rintro (⟨h, _⟩ | h | ⟨h, _⟩)
      · simp at hs h; rcases h with rfl | rfl <;> simp at hs
      · exact h.2
      · subst h; simp at hs
    · exact fun h => .inr (.inl ⟨hs, h⟩)
  have hnone : ∀ {s : String}, s ∉ ["INTEGER", "ENUMERATED", "BITSTRING", "OCTET-STRING", "UTF8String",
      "PrintableString", "VisibleString", "SEQUENCE-OF", "CHOICE"] → ¬ PanicsFor i s := by
    rintro s hs (⟨h, _⟩ | ⟨h, _⟩ | ⟨h, _⟩)
    · simp at hs h; rcases h with rfl | rfl <;> simp at hs
    · simp at hs h; rcases h with rfl | rfl | rfl | rfl | rfl | rfl <;> simp at hs
    · subst h; simp at hs
  unfold generateCodec
  by_cases e1 : ty = "BOOLEAN".toList
  · rw [if_pos e1, hname e1]; exact hquiet (.inl ⟨_, rfl⟩) (hnone (by decide))
  rw [if_neg e1]
  by_cases e2 : ty = "CHOICE".toList
  · rw [if_pos e2, hname e2]
    have hc : PanicsFor i "CHOICE" ↔ ¬ ((∃ v, SaysBound i.attrs "lb" v) ∧ ∃ v, SaysBound i.attrs "ub" v) := by
      constructor
      · rintro (⟨h, _⟩ | ⟨h, _⟩ | h)
        · exact absurd h (by decide)
        · exact absurd h (by decide)
        · exact h.2
      · exact fun h => .inr (.inr ⟨rfl, h⟩)
    rw [hc]
    rcases choiceBound_panic hp.lb with ⟨h, hn⟩ | ⟨v, h, hv⟩
    · rw [h]; exact ⟨nofun, fun _ h => hn h.1, fun _ => rfl⟩
    · rw [h]
      rcases choiceBound_panic hp.ub with ⟨h, hn⟩ | ⟨w, h, hw⟩
      · rw [h]; exact ⟨nofun, fun _ h => hn h.2, fun _ => rfl⟩
      · rw [h]
        rcases variants_quiet i.data with ⟨vs, h⟩ | h
        · rw [h]; exact ⟨nofun, nofun, fun h => absurd ⟨⟨v, hv⟩, ⟨w, hw⟩⟩ h⟩
        · rw [h]; exact ⟨nofun, nofun, fun h => absurd ⟨⟨v, hv⟩, ⟨w, hw⟩⟩ h⟩
  rw [if_neg e2]
  by_cases e3 : ty = "INTEGER".toList
  · rw [if_pos e3, hname e3, hnum (by decide)]
    exact newtype_panics (fun _ _ => ⟨_, rfl⟩) hp.lb hp.ub hp.ext
  rw [if_neg e3]
  by_cases e4 : ty = "ENUMERATED".toList
  · rw [if_pos e4, hname e4, hnum (by decide)]
    exact newtype_panics (fun _ _ => ⟨_, rfl⟩) hp.lb hp.ub hp.ext
  rw [if_neg e4]
  by_cases e5 : ty = "BITSTRING".toList
  · rw [if_pos e5, hname e5, hsize (by decide)]
    exact newtype_panics (g := fun _ b => .ok (.bitstring b.1 b.2.1 b.2.2)) (fun _ _ => ⟨_, rfl⟩) hp.szLb hp.szUb hp.szExt
  rw [if_neg e5]
  by_cases e6 : ty = "OCTET-STRING".toList
  · rw [if_pos e6, hname e6, hsize (by decide)]
    exact newtype_panics (g := fun _ b => .ok (.octetstring b.1 b.2.1 b.2.2)) (fun _ _ => ⟨_, rfl⟩) hp.szLb hp.szUb hp.szExt
  rw [if_neg e6]
  by_cases e7 : ty = "UTF8String".toList
  · rw [if_pos e7, hname e7, hsize (by decide)]
    exact newtype_panics (g := fun _ b => .ok (.charstring .utf8 b.1 b.2.1 b.2.2)) (fun _ _ => ⟨_, rfl⟩) hp.szLb hp.szUb hp.szExt
  rw [if_neg e7]
  by_cases e8 : ty = "PrintableString".toList
  · rw [if_pos e8, hname e8, hsize (by decide)]
    exact newtype_panics (g := fun _ b => .ok (.charstring .printable b.1 b.2.1 b.2.2)) (fun _ _ => ⟨_, rfl⟩) hp.szLb hp.szUb hp.szExt
  rw [if_neg e8]
  by_cases e9 : ty = "VisibleString".toList
  · rw [if_pos e9, hname e9, hsize (by decide)]
    exact newtype_panics (g := fun _ b => .ok (.charstring .visible b.1 b.2.1 b.2.2)) (fun _ _ => ⟨_, rfl⟩) hp.szLb hp.szUb hp.szExt
  rw [if_neg e9]
  by_cases e10 : ty = "NULL".toList
  · rw [if_pos e10, hname e10]; exact hquiet (.inl ⟨_, rfl⟩) (hnone (by decide))
  rw [if_neg e10]
  by_cases e11 : ty = "SEQUENCE".toList
  · rw [if_pos e11, hname e11]
    refine hquiet ?_ (hnone (by decide))
    rcases seqFields_quiet i.data with ⟨vs, h⟩ | h
    · exact .inl ⟨_, by rw [h]; rfl⟩
    · exact .inr (by rw [h]; rfl)
  rw [if_neg e11]
  by_cases e12 : ty = "OPEN".toList
  · rw [if_pos e12, hname e12]
    refine hquiet ?_ (hnone (by decide))
    rcases variants_quiet i.data with ⟨vs, h⟩ | h
    · exact .inl ⟨_, by rw [h]; rfl⟩
    · exact .inr (by rw [h]; rfl)
  rw [if_neg e12]
  by_cases e13 : ty = "SEQUENCE-OF".toList
  · rw [if_pos e13, hname e13, hsize (by decide)]
    exact newtype_panics (fun _ _ => ⟨_, rfl⟩) hp.szLb hp.szUb hp.szExt
  rw [if_neg e13]
  have hrest : ¬ PanicsFor i (String.ofList ty) := by
    apply hnone
    simp only [List.mem_cons, List.not_mem_nil, or_false, not_or]
    exact ⟨hother e3, hother e4, hother e5, hother e6, hother e7, hother e8, hother e9, hother e13, hother e2⟩
  by_cases e14 : ty = "OBJECT-IDENTIFIER".toList
  · rw [if_pos e14]; exact hquiet (.inl ⟨_, rfl⟩) hrest
  rw [if_neg e14]
  exact hquiet (.inr rfl) hrest

theorem derive_panics (i : Input) : derive i ≠ .diverge ∧ (derive i = .panic ↔ MacroPanics i) := by
  by_cases ho : OnlyEntries ItemEntry i.attrs
  · obtain ⟨p, hp, hs, ha⟩ := tyParams_says ho
    unfold derive
    rw [hp]
    dsimp only [Out.bind]
    cases hty : p.ty with
    | none =>
      have : (if p.attr = true then (Out.err () : Out Unit Impl) else .err ()) = .err () := by split <;> rfl
      dsimp only
      rw [this]
      refine ⟨nofun, nofun, ?_⟩
      rintro ⟨_, s, hl, _⟩
      rw [(hs.ty _).2 hl] at hty; cases hty
    | some ty =>
      rw [if_pos (ha _ hty)]
      refine ⟨(generateCodec_panics hs ty).1, (generateCodec_panics hs ty).2.trans ?_⟩
      constructor
      · intro h
        exact ⟨ho, String.ofList ty, by rw [String.toList_ofList]; exact (hs.ty _).1 hty, h⟩
      · rintro ⟨_, s, hl, h⟩
        have := (hs.ty _).2 hl
        rw [hty] at this
        cases this
        rw [String.ofList_toList]
        exact h
  · unfold derive
    rw [tyParams_only ho]
    exact ⟨nofun, nofun, fun h => absurd h.1 ho⟩

end Hampi.Compiler
