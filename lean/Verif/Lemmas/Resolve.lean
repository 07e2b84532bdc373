import Verif.Compiler.Modules
import Verif.Lemmas.Sort
import Verif.Lemmas.Constraints
/-! # Lemmas about the resolver -/
namespace Hampi.Compiler
open Spec

theorem get_cons {α : Type} (k' : Text) (v : α) (m : List (Text × α)) (k : Text) :
    get ((k', v) :: m) k = if k' = k then some v else get m k := by
  unfold get
  rw [List.find?_cons]
  by_cases h : k' = k
  · simp [h]
  · have : (k' == k) = false := by simpa using h
    simp [h, this]

theorem get_put {α : Type} (m : List (Text × α)) (k : Text) (v : α) (k' : Text) :
    get (put m k v) k' = if k = k' then some v else get m k' := by
  induction m with
  | nil => rw [put, get_cons]
  | cons e m ih =>
    obtain ⟨j, w⟩ := e
    rw [put]
    by_cases h1 : k = j
    · subst h1
      rw [if_pos rfl, get_cons, get_cons]
      split <;> rfl
    · rw [if_neg h1]
      split
      · rw [get_cons]
      · rw [get_cons, get_cons, ih]
        by_cases h2 : j = k'
        · subst h2; simp [h1]
        · simp [h2]

theorem get_mem {α : Type} {m : List (Text × α)} {k : Text} {v : α} (h : get m k = some v) : (k, v) ∈ m := by
  induction m with
  | nil => cases h
  | cons e m ih =>
    obtain ⟨j, w⟩ := e
    rw [get_cons] at h
    split at h
    · rename_i hj; subst hj; cases h; exact .head _
    · exact .tail _ (ih h)

theorem get_isSome {α : Type} {m : List (Text × α)} {k : Text} :
    (get m k).isSome ↔ ∃ v, (k, v) ∈ m := by
  induction m with
  | nil => simp [get]
  | cons e m ih =>
    obtain ⟨j, w⟩ := e
    rw [get_cons]
    split
    · rename_i hj; subst hj; simp
    · rename_i hj
      rw [ih]
      constructor
      · rintro ⟨v, hv⟩; exact ⟨v, .tail _ hv⟩
      · rintro ⟨v, hv⟩
        rcases List.mem_cons.mp hv with h | h
        · cases h; exact absurd rfl hj
        · exact ⟨v, h⟩

/-- With different keys, membership is lookup. -/
theorem get_of_mem {α : Type} {m : List (Text × α)} (hn : (m.map (·.1)).Nodup) {k : Text} {v : α}
    (h : (k, v) ∈ m) : get m k = some v := by
  induction m with
  | nil => cases h
  | cons e m ih =>
    obtain ⟨j, w⟩ := e
    rw [List.map_cons, List.nodup_cons] at hn
    rw [get_cons]
    rcases List.mem_cons.mp h with h | h
    · cases h; simp
    · rw [if_neg, ih hn.2 h]
      rintro rfl
      exact hn.1 (List.mem_map.mpr ⟨_, h, rfl⟩)

/-! ## The order -/

theorem Sorted.nodup {needs : List (Text × List Text)} {out : List Text} (h : Sorted needs out) : out.Nodup :=
  (PopsAll.nodup h (graphOf_for needs).nodup).1

theorem Sorted.before {needs : List (Text × List Text)} {out : List Text} (h : Sorted needs out)
    {k r : Text} (hk : k ∈ out) (hr : Needs needs k r) : Before out r k :=
  PopsAll.before h (graphOf_closed needs) (r, k) (((graphOf_for needs).edges _).mpr hr) hk

theorem Sorted.mem {needs : List (Text × List Text)} {out : List Text} (h : Sorted needs out)
    {k : Text} (hk : k ∈ out) : (∃ rs, (k, rs) ∈ needs) ∨ ∃ j, Needs needs j k :=
  ((graphOf_for needs).nodes k).mp ((PopsAll.nodup h (graphOf_for needs).nodup).2 k hk)

theorem Sorted.reaches {needs : List (Text × List Text)} {out : List Text} (h : Sorted needs out)
    {k r : Text} (hr : Reaches needs k r) (hk : k ∈ out) :
    r ∈ out ∧ out.idxOf r < out.idxOf k := by
  induction hr with
  | one hn =>
    have := h.before hk hn
    exact ⟨(Before.mem this).1, Before.idx h.nodup this⟩
  | more hn _ ih =>
    have h1 := h.before hk hn
    have h2 := ih (Before.mem h1).1
    exact ⟨h2.1, Nat.lt_trans h2.2 (Before.idx h.nodup h1)⟩

/-- A name is in the order exactly when it is defined or needed and neither on nor above a cycle. -/
theorem Sorted.mem_iff {needs : List (Text × List Text)} {out : List Text} (h : Sorted needs out)
    {k : Text} (hk : (∃ rs, (k, rs) ∈ needs) ∨ ∃ j, Needs needs j k) : k ∈ out ↔ ¬ Cyclic needs k := by
  constructor
  · rintro hm (hc | ⟨c, h1, h2⟩)
    · exact absurd (h.reaches hc hm).2 (Nat.lt_irrefl _)
    · have := (h.reaches h1 hm).1
      exact absurd (h.reaches h2 this).2 (Nat.lt_irrefl _)
  · intro hc
    refine Decidable.byContradiction fun hm => hc ?_
    have G := graphOf_for needs
    refine cyclic_of_stuck (graphOf needs).nodes (fun x => x ∈ (graphOf needs).nodes ∧ x ∉ out) ?_
      (fun _ hx => hx.1) ⟨(G.nodes k).mpr hk, hm⟩
    rintro x ⟨hx1, hx2⟩
    obtain ⟨e, he, rfl, hx⟩ := PopsAll.stuck h x hx1 hx2
    exact ⟨e.1, (G.edges e).mp he, (graphOf_closed needs e he).1, hx⟩

theorem PopsAll.nothing {g : Graph} {out : List Text} (h : PopsAll g out) (hr : g.ready = []) : out = [] := by
  cases h with
  | done => rfl
  | round _ hne => exact absurd hr hne

/-! ## Loops -/

/-- Two lists related element by element. -/
inductive All2 {α β : Type} (P : α → β → Prop) : List α → List β → Prop
  | nil : All2 P [] []
  | cons {x : α} {y : β} {xs : List α} {ys : List β} (h : P x y) (t : All2 P xs ys) : All2 P (x :: xs) (y :: ys)

theorem All2.mem_right {α β : Type} {P : α → β → Prop} {l : List α} {r : List β} (h : All2 P l r) :
    ∀ y ∈ r, ∃ x ∈ l, P x y := by
  induction h with
  | nil => intro y hy; cases hy
  | cons h _ ih =>
    intro y hy
    rcases List.mem_cons.mp hy with rfl | hy
    · exact ⟨_, .head _, h⟩
    · obtain ⟨x, hx, hp⟩ := ih y hy
      exact ⟨x, .tail _ hx, hp⟩

theorem All2.mem_left {α β : Type} {P : α → β → Prop} {l : List α} {r : List β} (h : All2 P l r) :
    ∀ x ∈ l, ∃ y ∈ r, P x y := by
  induction h with
  | nil => intro y hy; cases hy
  | cons h _ ih =>
    intro y hy
    rcases List.mem_cons.mp hy with rfl | hy
    · exact ⟨_, .head _, h⟩
    · obtain ⟨x, hx, hp⟩ := ih y hy
      exact ⟨x, .tail _ hx, hp⟩

theorem mapOut_ok {ε α β : Type} {f : α → Out ε β} : {l : List α} → {r : List β} →
    mapOut f l = .ok r → All2 (fun x y => f x = .ok y) l r
  | [], r, h => by cases h; exact .nil
  | x :: xs, r, h => by
      rw [mapOut, Out.bind_ok] at h
      obtain ⟨y, hy, h⟩ := h
      rw [Out.bind_ok] at h
      obtain ⟨ys, hys, h⟩ := h
      cases h
      exact .cons hy (mapOut_ok hys)

/-! ## One definition, one module -/

theorem resolveOne_keeps {n : Nat} {defs : List (Text × Definition)} {R R' : Resolver} {k j : Text}
    (h : resolveOne n defs R k = .ok R') (hj : j ≠ k) :
    get R'.resolved j = get R.resolved j ∧ get R'.params j = get R.params j ∧
      get R'.classes j = get R.classes j := by
  have hk : ¬ k = j := fun e => hj e.symm
  unfold resolveOne at h
  split at h
  · cases h; exact ⟨rfl, rfl, rfl⟩
  · split at h
    · cases h; exact ⟨rfl, by simp [get_put, hk], rfl⟩
    · split at h
      · cases h; exact ⟨rfl, rfl, by simp [get_put, hk]⟩
      · rw [Out.bind_ok] at h
        obtain ⟨x, _, h⟩ := h
        cases h; exact ⟨by simp [get_put, hk], rfl, rfl⟩

theorem resolveInOrder_keeps {n : Nat} {defs : List (Text × Definition)} {j : Text} :
    {order : List Text} → {R R' : Resolver} → resolveInOrder n defs R order = .ok R' → j ∉ order →
    get R'.resolved j = get R.resolved j ∧ get R'.params j = get R.params j ∧
      get R'.classes j = get R.classes j
  | [], R, R', h, _ => by cases h; exact ⟨rfl, rfl, rfl⟩
  | k :: ks, R, R', h, hj => by
      rw [resolveInOrder, Out.bind_ok] at h
      obtain ⟨R1, h1, h2⟩ := h
      have a := resolveOne_keeps h1 (fun e => hj (e ▸ .head _) : j ≠ k)
      have b := resolveInOrder_keeps h2 (fun hm => hj (.tail _ hm))
      exact ⟨b.1.trans a.1, b.2.1.trans a.2.1, b.2.2.trans a.2.2⟩

theorem resolveInOrder_append {n : Nat} {defs : List (Text × Definition)} {b : List Text} :
    {a : List Text} → {R R' : Resolver} → resolveInOrder n defs R (a ++ b) = .ok R' →
    ∃ R1, resolveInOrder n defs R a = .ok R1 ∧ resolveInOrder n defs R1 b = .ok R'
  | [], R, R', h => ⟨R, rfl, h⟩
  | k :: ks, R, R', h => by
      rw [List.cons_append, resolveInOrder, Out.bind_ok] at h
      obtain ⟨R1, h1, h2⟩ := h
      obtain ⟨R2, h3, h4⟩ := resolveInOrder_append h2
      exact ⟨R2, by rw [resolveInOrder, Out.bind_ok]; exact ⟨R1, h1, h3⟩, h4⟩

/-- What a definition in the order is resolved to stays. -/
theorem resolveInOrder_at {n : Nat} {defs : List (Text × Definition)} {order : List Text} {R R' : Resolver}
    (h : resolveInOrder n defs R order = .ok R') (hn : order.Nodup) {k : Text} (hk : k ∈ order) :
    ∃ a b R1 R2, order = a ++ k :: b ∧ resolveInOrder n defs R a = .ok R1 ∧ resolveOne n defs R1 k = .ok R2 ∧
      get R'.resolved k = get R2.resolved k ∧ get R'.params k = get R2.params k ∧
      get R'.classes k = get R2.classes k := by
  obtain ⟨a, b, rfl⟩ := List.append_of_mem hk
  obtain ⟨R1, h1, h2⟩ := resolveInOrder_append h
  rw [resolveInOrder, Out.bind_ok] at h2
  obtain ⟨R2, h2, h3⟩ := h2
  rw [List.nodup_append, List.nodup_cons] at hn
  exact ⟨a, b, R1, R2, rfl, h1, h2, resolveInOrder_keeps h3 hn.2.1.1⟩

theorem readDefinition_key {R : Resolver} {M : Module} {d e : Text × Definition}
    (h : readDefinition R M d = .ok e) : e.1 = d.1 ∧ e.2.params = d.2.params := by
  unfold readDefinition at h
  split at h
  · split at h
    · cases h
    · rw [Out.bind_ok] at h
      obtain ⟨x, _, h⟩ := h
      cases h; exact ⟨rfl, rfl⟩
  · split at h <;> cases h
    exact ⟨rfl, rfl⟩
  · split at h
    · cases h
    · rw [Out.bind_ok] at h
      obtain ⟨x, _, h⟩ := h
      cases h; exact ⟨rfl, rfl⟩
  · cases h; exact ⟨rfl, rfl⟩

theorem readDefinitions_keys {R : Resolver} {M : Module} {l l' : List (Text × Definition)}
    (h : All2 (fun x y => readDefinition R M x = .ok y) l l') : l'.map (·.1) = l.map (·.1) := by
  induction h with
  | nil => rfl
  | cons h _ ih => simp [ih, (readDefinition_key h).1]

end Hampi.Compiler
