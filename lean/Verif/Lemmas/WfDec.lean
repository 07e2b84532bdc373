import Verif.Spec.Keys
/-!
# Well-formedness and announced keys can be computed

Used to show that concrete messages meet the hypotheses of the round-trip theorems.
-/
namespace Hampi

open Spec (SizeBounds Within)

/-- A condition on the value of an optional bound. -/
def decBound {p : Int → Prop} (h : ∀ l, Decidable (p l)) : (o : Option Int) →
    Decidable (∀ l, o = some l → p l)
  | none => .isTrue fun _ h => nomatch h
  | some l => match h l with
    | .isTrue hp => .isTrue fun _ h => by cases h; exact hp
    | .isFalse hn => .isFalse fun hh => hn (hh l rfl)

instance (lb ub : Option Int) : Decidable (SizeBounds lb ub) :=
  @instDecidableAnd _ _ (decBound (fun _ => inferInstance) _) (decBound (fun _ => inferInstance) _)

instance (lb ub : Option Int) (n : Int) : Decidable (Within lb ub n) :=
  @instDecidableAnd _ _ (decBound (fun _ => inferInstance) _) (decBound (fun _ => inferInstance) _)

instance (lb ub : Option Int) (n : Nat) : Decidable (SizeOk lb ub n) :=
  @instDecidableAnd _ _ inferInstance (@instDecidableAnd _ _ inferInstance
    (@instDecidableOr _ _ (match ub with
      | none => .isFalse fun ⟨_, h, _⟩ => nomatch h
      | some u => if h : u < 65536 then .isTrue ⟨u, rfl, h⟩
          else .isFalse fun ⟨_, h1, h2⟩ => by cases h1; exact h h2) inferInstance))

instance decIntValueOk (w : Width) (lb : Option Int) (v : Int) : Decidable (IntValueOk w lb v) := by
  unfold IntValueOk; exact inferInstance

instance decTextOk (lb ub : Option Int) (v : String) : Decidable (TextOk lb ub v) := by
  unfold TextOk; exact inferInstance

instance (fs : Fields) (n : Nat) : Decidable (fs.IndexesOk n) := by
  unfold Fields.IndexesOk; exact inferInstance

/-- Which variant a value belongs to can be computed. -/
def Alts.decSelects : (as : Alts) → (k : Int) → (v : as.Val) → Decidable (as.Selects k v)
  | .cons key _ _ _, k, .inl _ => inferInstanceAs (Decidable (k = key))
  | .cons key _ _ rest, k, .inr v =>
    @instDecidableAnd (k ≠ key) (rest.Selects k v) inferInstance (rest.decSelects k v)

/-- A condition on all elements of a list. -/
def decAll {α : Type} {p : α → Prop} (h : ∀ x, Decidable (p x)) : (l : List α) →
    Decidable (∀ x ∈ l, p x)
  | [] => .isTrue fun _ h => nomatch h
  | x :: xs => match h x, decAll h xs with
    | .isTrue h1, .isTrue h2 => .isTrue fun y hy => by
        rcases List.mem_cons.mp hy with rfl | hy
        · exact h1
        · exact h2 y hy
    | .isFalse h1, _ => .isFalse fun hh => h1 (hh x List.mem_cons_self)
    | _, .isFalse h2 => .isFalse fun hh => h2 fun y hy => hh y (List.mem_cons_of_mem _ hy)

mutual

def Ty.decWf : (t : Ty) → (v : t.Val) → Decidable (t.Wf v)
  | .boolean, _ => .isTrue trivial
  | .null, _ => .isTrue trivial
  | .integer w lb _ _, v => decIntValueOk w lb v
  | .enumerated w lb _ _, v => decIntValueOk w lb v
  | .bitstring lb ub _, _ => inferInstanceAs (Decidable (SizeBounds lb ub))
  | .octetstring lb ub _, _ => inferInstanceAs (Decidable (SizeBounds lb ub))
  | .charstring _ lb ub _, v => decTextOk lb ub v
  | .objectIdentifier, _ => .isTrue trivial
  | .sequence _ n fs, v => @instDecidableAnd (fs.IndexesOk n) (fs.Wf v) inferInstance (fs.decWf v)
  | .sequenceOf lb ub ext e, v =>
    @instDecidableAnd _ _
      (match (show List e.Val from v) with
        | [] => .isFalse fun h => h rfl
        | _ :: _ => .isTrue nofun)
      (@instDecidableAnd _ _
        (inferInstanceAs (Decidable (if ext then List.length v < 16384 else SizeOk lb ub (List.length v))))
        (decAll e.decWf v))
  | .choice _ _ _ as, v =>
    @instDecidableAnd (as.Selects (as.keyOf v) v) (IsI128 (as.keyOf v) ∧ as.Wf v) (as.decSelects _ v)
      (@instDecidableAnd _ _ inferInstance (as.decWf v))
  | .openType as, v => as.decWf v

def Fields.decWf : (fs : Fields) → (v : fs.Val) → Decidable (fs.Wf v)
  | .nil, _ => .isTrue trivial
  | .required _ t rest, v => @instDecidableAnd (t.Wf v.1) (rest.Wf v.2) (t.decWf v.1) (rest.decWf v.2)
  | .optional _ t rest, (some x, vs) =>
    @instDecidableAnd (t.Wf x) (rest.Wf vs) (t.decWf x) (rest.decWf vs)
  | .optional _ _ rest, (none, vs) => @instDecidableAnd True (rest.Wf vs) (.isTrue trivial) (rest.decWf vs)

def Alts.decWf : (as : Alts) → (v : as.Val) → Decidable (as.Wf v)
  | .cons _ _ t _, .inl v => t.decWf v
  | .cons _ _ _ rest, .inr v => rest.decWf v

end

instance (t : Ty) (v : t.Val) : Decidable (t.Wf v) := t.decWf v

mutual

def Ty.decAnnounced : (t : Ty) → (v : t.Val) → (key : Option Int) → Decidable (t.Announced v key)
  | .boolean, _, _ => .isTrue trivial
  | .null, _, _ => .isTrue trivial
  | .integer .., _, _ => .isTrue trivial
  | .enumerated .., _, _ => .isTrue trivial
  | .bitstring .., _, _ => .isTrue trivial
  | .octetstring .., _, _ => .isTrue trivial
  | .charstring .., _, _ => .isTrue trivial
  | .objectIdentifier, _, _ => .isTrue trivial
  | .sequence _ _ fs, v, _ => fs.decAnnounced v none
  | .sequenceOf _ _ _ e, v, _ => decAll (fun x => e.decAnnounced x none) v
  | .choice _ _ _ as, v, _ => as.decAnnounced v
  | .openType as, v, key =>
    @instDecidableAnd (∃ k, key = some k ∧ as.Selects k v) (as.Announced v)
      (match key with
        | none => .isFalse fun ⟨_, h, _⟩ => nomatch h
        | some k => match as.decSelects k v with
          | .isTrue h => .isTrue ⟨k, rfl, h⟩
          | .isFalse h => .isFalse fun ⟨_, h1, h2⟩ => by cases h1; exact h h2)
      (as.decAnnounced v)

def Fields.decAnnounced : (fs : Fields) → (v : fs.Val) → (key : Option Int) →
    Decidable (fs.Announced v key)
  | .nil, _, _ => .isTrue trivial
  | .required k t rest, v, key =>
    @instDecidableAnd (t.Announced v.1 key) (rest.Announced v.2 (keyAfterField k t v.1 key))
      (t.decAnnounced v.1 key) (rest.decAnnounced v.2 _)
  | .optional _ t rest, (some x, vs), key =>
    @instDecidableAnd (t.Announced x key) (rest.Announced vs key) (t.decAnnounced x key)
      (rest.decAnnounced vs key)
  | .optional _ _ rest, (none, vs), key =>
    @instDecidableAnd True (rest.Announced vs key) (.isTrue trivial) (rest.decAnnounced vs key)

def Alts.decAnnounced : (as : Alts) → (v : as.Val) → Decidable (as.Announced v)
  | .cons _ _ t _, .inl v => t.decAnnounced v none
  | .cons _ _ _ rest, .inr v => rest.decAnnounced v

end

instance (t : Ty) (v : t.Val) (key : Option Int) : Decidable (t.Announced v key) := t.decAnnounced v key

end Hampi
