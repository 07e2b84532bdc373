import Verif.Compiler.Sort
import Verif.Spec.Order
/-!
# The sorting loop
-/
namespace Hampi.Compiler

open Spec

theorem Graph.mem_ready {g : Graph} {k : Text} :
    k ∈ g.ready ↔ k ∈ g.nodes ∧ ∀ e ∈ g.edges, e.2 ≠ k := by
  simp [Graph.ready]

theorem Graph.mem_remove_nodes {g : Graph} {ks : List Text} {k : Text} :
    k ∈ (g.remove ks).nodes ↔ k ∈ g.nodes ∧ k ∉ ks := by
  simp [Graph.remove]

theorem Graph.mem_remove_edges {g : Graph} {ks : List Text} {e : Text × Text} :
    e ∈ (g.remove ks).edges ↔ e ∈ g.edges ∧ e.1 ∉ ks := by
  simp [Graph.remove]

/-- The elements of every registered pair are registered. -/
def Graph.Closed (g : Graph) : Prop := ∀ e ∈ g.edges, e.1 ∈ g.nodes ∧ e.2 ∈ g.nodes

theorem Graph.Closed.remove {g : Graph} (h : g.Closed) {ks : List Text} (hk : ∀ k ∈ ks, k ∈ g.ready) :
    (g.remove ks).Closed := by
  intro e he
  rw [Graph.mem_remove_edges] at he
  have h1 := h e he.1
  refine ⟨Graph.mem_remove_nodes.mpr ⟨h1.1, he.2⟩, Graph.mem_remove_nodes.mpr ⟨h1.2, fun hc => ?_⟩⟩
  exact (Graph.mem_ready.mp (hk _ hc)).2 e he.1 rfl

/-- What comes out was registered, once. -/
theorem PopsAll.nodup {g : Graph} {out : List Text} (h : PopsAll g out) (hn : g.nodes.Nodup) :
    out.Nodup ∧ ∀ k ∈ out, k ∈ g.nodes := by
  induction h with
  | done => simp
  | @round g popped rest hp hne hr ih =>
    have h1 : (g.remove popped).nodes.Nodup := hn.filter _
    have ih := ih h1
    have h2 : popped.Nodup := hp.nodup_iff.mpr (hn.filter _)
    refine ⟨?_, ?_⟩
    · rw [List.nodup_append]
      refine ⟨h2, ih.1, ?_⟩
      rintro a ha b hb rfl
      exact (Graph.mem_remove_nodes.mp (ih.2 a hb)).2 ha
    · intro k hk
      rw [List.mem_append] at hk
      rcases hk with hk | hk
      · exact (Graph.mem_ready.mp (hp.mem_iff.mp hk)).1
      · exact (Graph.mem_remove_nodes.mp (ih.2 k hk)).1

theorem Before.of_append {a b : Text} {l1 l2 : List Text} (h1 : a ∈ l1) (h2 : b ∈ l2) :
    Before (l1 ++ l2) a b := by
  obtain ⟨x, y, rfl⟩ := List.append_of_mem h1
  obtain ⟨u, v, rfl⟩ := List.append_of_mem h2
  exact ⟨x, y ++ u, v, by simp⟩

theorem Before.append_left {a b : Text} {l : List Text} (l1 : List Text) (h : Before l a b) :
    Before (l1 ++ l) a b := by
  obtain ⟨x, y, z, rfl⟩ := h
  exact ⟨l1 ++ x, y, z, by simp⟩

/-- Predecessors come out earlier. -/
theorem PopsAll.before {g : Graph} {out : List Text} (h : PopsAll g out) (hc : g.Closed) :
    ∀ e ∈ g.edges, e.2 ∈ out → Before out e.1 e.2 := by
  induction h with
  | done => intro e _ h; cases h
  | @round g popped rest hp hne hr ih =>
    intro e he h2
    have hready : ∀ k ∈ popped, k ∈ g.ready := fun k hk => hp.mem_iff.mp hk
    rw [List.mem_append] at h2
    rcases h2 with h2 | h2
    · exact absurd rfl ((Graph.mem_ready.mp (hready _ h2)).2 e he)
    · by_cases h1 : e.1 ∈ popped
      · exact Before.of_append h1 h2
      · exact Before.append_left _
          (ih (hc.remove hready) e (Graph.mem_remove_edges.mpr ⟨he, h1⟩) h2)

/-- What does not come out has a predecessor that does not come out. -/
theorem PopsAll.stuck {g : Graph} {out : List Text} (h : PopsAll g out) :
    ∀ k ∈ g.nodes, k ∉ out → ∃ e ∈ g.edges, e.2 = k ∧ e.1 ∉ out := by
  induction h with
  | @done g hr =>
    intro k hk _
    have : k ∉ g.ready := by rw [hr]; simp
    rw [Graph.mem_ready] at this
    apply Decidable.byContradiction
    intro hcon
    apply this
    refine ⟨hk, fun e he hek => hcon ⟨e, he, hek, by simp⟩⟩
  | @round g popped rest hp hne hr ih =>
    intro k hk hout
    rw [List.mem_append, not_or] at hout
    obtain ⟨e, he, hek, h1⟩ := ih k (Graph.mem_remove_nodes.mpr ⟨hk, hout.1⟩) hout.2
    rw [Graph.mem_remove_edges] at he
    exact ⟨e, he.1, hek, by rw [List.mem_append, not_or]; exact ⟨he.2, h1⟩⟩

/-- The loop ends, for every order of the elements. -/
theorem PopsAll.exists (g : Graph) : ∃ out, PopsAll g out := by
  generalize hn : g.nodes.length = n
  induction n using Nat.strongRecOn generalizing g with
  | ind n ih =>
    by_cases hr : g.ready = []
    · exact ⟨[], .done hr⟩
    · obtain ⟨x, hx⟩ := List.exists_mem_of_ne_nil _ hr
      have hlt : (g.remove g.ready).nodes.length < n := by
        rw [← hn]
        have hsub : (g.remove g.ready).nodes.length ≤ g.nodes.length := List.length_filter_le ..
        have hne : (g.remove g.ready).nodes.length ≠ g.nodes.length := by
          intro h
          have := (List.length_filter_eq_length_iff.mp h) x (Graph.mem_ready.mp hx).1
          simp [hx] at this
        omega
      obtain ⟨out, ho⟩ := ih _ hlt (g.remove g.ready) rfl
      exact ⟨_, .round (List.Perm.refl _) hr ho⟩

/-! ## The graph -/

theorem Graph.insert_nodes (g : Graph) (k x : Text) : x ∈ (g.insert k).nodes ↔ x ∈ g.nodes ∨ x = k := by
  unfold Graph.insert
  split
  · constructor
    · exact Or.inl
    · rintro (h | rfl)
      · exact h
      · assumption
  · simp

theorem Graph.insert_edges (g : Graph) (k : Text) : (g.insert k).edges = g.edges := by
  unfold Graph.insert; split <;> rfl

theorem Graph.insert_nodup {g : Graph} (h : g.nodes.Nodup) (k : Text) : (g.insert k).nodes.Nodup := by
  unfold Graph.insert
  split
  · exact h
  · rw [List.nodup_append]
    refine ⟨h, by simp, ?_⟩
    rintro a ha b hb rfl
    rw [List.mem_singleton] at hb
    subst hb
    contradiction

theorem Graph.add_nodes (g : Graph) (p s x : Text) :
    x ∈ (g.addDependency p s).nodes ↔ x ∈ g.nodes ∨ x = p ∨ x = s := by
  unfold Graph.addDependency
  dsimp only
  split <;> simp [Graph.insert_nodes, or_assoc]

theorem Graph.add_edges (g : Graph) (p s : Text) (e : Text × Text) :
    e ∈ (g.addDependency p s).edges ↔ e ∈ g.edges ∨ e = (p, s) := by
  unfold Graph.addDependency
  dsimp only
  split
  · rename_i h
    rw [Graph.insert_edges, Graph.insert_edges] at *
    constructor
    · exact Or.inl
    · rintro (h | rfl)
      · exact h
      · assumption
  · simp [Graph.insert_edges]

theorem Graph.add_nodup {g : Graph} (h : g.nodes.Nodup) (p s : Text) :
    (g.addDependency p s).nodes.Nodup := by
  unfold Graph.addDependency
  dsimp only
  split <;> exact Graph.insert_nodup (Graph.insert_nodup h p) s

/-- What the graph of a list has to satisfy, for a part of the list. -/
structure Graph.For (g : Graph) (needs : List (Text × List Text)) : Prop where
  nodup : g.nodes.Nodup
  edges : ∀ e, e ∈ g.edges ↔ Needs needs e.2 e.1
  nodes : ∀ k, k ∈ g.nodes ↔ (∃ rs, (k, rs) ∈ needs) ∨ ∃ d, Needs needs d k

theorem foldl_add {k : Text} : (rs : List Text) → (g : Graph) →
    let g' := rs.foldl (fun g r => g.addDependency r k) g
    (g.nodes.Nodup → g'.nodes.Nodup) ∧ (∀ e, e ∈ g'.edges ↔ e ∈ g.edges ∨ (e.2 = k ∧ e.1 ∈ rs)) ∧
      ∀ x, (x ∈ g'.nodes ↔ x ∈ g.nodes ∨ x ∈ rs ∨ (x = k ∧ rs ≠ []))
  | [], g => by simp
  | r :: rs, g => by
      have := foldl_add (k := k) rs (g.addDependency r k)
      dsimp only at this ⊢
      rw [List.foldl_cons]
      refine ⟨fun h => this.1 (Graph.add_nodup h _ _), fun e => ?_, fun x => ?_⟩
      · rw [this.2.1, Graph.add_edges]
        obtain ⟨a, b⟩ := e
        simp only [Prod.mk.injEq, List.mem_cons]
        constructor
        · rintro ((h | ⟨rfl, rfl⟩) | ⟨h1, h2⟩)
          · exact .inl h
          · exact .inr ⟨rfl, .inl rfl⟩
          · exact .inr ⟨h1, .inr h2⟩
        · rintro (h | ⟨h1, rfl | h2⟩)
          · exact .inl (.inl h)
          · exact .inl (.inr ⟨rfl, h1⟩)
          · exact .inr ⟨h1, h2⟩
      · rw [this.2.2, Graph.add_nodes]
        simp only [List.mem_cons, ne_eq, reduceCtorEq, not_false_eq_true, and_true]
        constructor
        · rintro ((h | h | h) | h | ⟨h, -⟩)
          · exact .inl h
          · exact .inr (.inl (.inl h))
          · exact .inr (.inr h)
          · exact .inr (.inl (.inr h))
          · exact .inr (.inr h)
        · rintro (h | (h | h) | h)
          · exact .inl (.inl h)
          · exact .inl (.inr (.inl h))
          · exact .inr (.inl h)
          · exact .inl (.inr (.inr h))

theorem graph_step {g : Graph} {done : List (Text × List Text)} (h : g.For done) (p : Text × List Text) :
    ((p.2.foldl (fun g r => g.addDependency r p.1) g).insert p.1).For (done ++ [p]) := by
  obtain ⟨h1, h2, h3⟩ := foldl_add (k := p.1) p.2 g
  obtain ⟨k, rs⟩ := p
  refine ⟨Graph.insert_nodup (h1 h.nodup) _, fun e => ?_, fun x => ?_⟩
  · rw [Graph.insert_edges, h2, h.edges]
    unfold Needs
    simp only [List.mem_append, List.mem_singleton, Prod.mk.injEq]
    constructor
    · rintro (⟨rs', h4, h5⟩ | ⟨h4, h5⟩)
      · exact ⟨rs', .inl h4, h5⟩
      · exact ⟨rs, .inr ⟨h4, rfl⟩, h5⟩
    · rintro ⟨rs', h4 | ⟨h4, rfl⟩, h5⟩
      · exact .inl ⟨rs', h4, h5⟩
      · exact .inr ⟨h4, h5⟩
  · rw [Graph.insert_nodes, h3, h.nodes]
    unfold Needs
    simp only [List.mem_append, List.mem_singleton, Prod.mk.injEq]
    constructor
    · rintro (((⟨rs', h4⟩ | ⟨d, rs', h4, h5⟩) | h4 | ⟨h4, -⟩) | h4)
      · exact .inl ⟨rs', .inl h4⟩
      · exact .inr ⟨d, rs', .inl h4, h5⟩
      · exact .inr ⟨k, rs, .inr ⟨rfl, rfl⟩, h4⟩
      · exact .inl ⟨rs, .inr ⟨h4, rfl⟩⟩
      · exact .inl ⟨rs, .inr ⟨h4, rfl⟩⟩
    · rintro (⟨rs', h4 | ⟨h4, rfl⟩⟩ | ⟨d, rs', h4 | ⟨h4, rfl⟩, h5⟩)
      · exact .inl (.inl (.inl ⟨rs', h4⟩))
      · exact .inr h4
      · exact .inl (.inl (.inr ⟨d, rs', h4, h5⟩))
      · exact .inl (.inr (.inl h5))

theorem graphOf_for (needs : List (Text × List Text)) : (graphOf needs).For needs := by
  have key : ∀ (rest done : List (Text × List Text)) (g : Graph), g.For done →
      (rest.foldl (fun g p => (p.2.foldl (fun g r => g.addDependency r p.1) g).insert p.1) g).For
        (done ++ rest) := by
    intro rest
    induction rest with
    | nil => intro done g h; simpa using h
    | cons p rest ih =>
      intro done g h
      have := ih (done ++ [p]) _ (graph_step h p)
      simpa using this
  have h0 : ({} : Graph).For [] := ⟨by simp, by simp [Needs], by simp [Needs]⟩
  exact key needs [] {} h0

theorem graphOf_closed (needs : List (Text × List Text)) : (graphOf needs).Closed := by
  have h := graphOf_for needs
  intro e he
  have hn := (h.edges e).mp he
  exact ⟨(h.nodes _).mpr (.inr ⟨_, hn⟩), (h.nodes _).mpr (.inl (let ⟨rs, h1, _⟩ := hn; ⟨rs, h1⟩))⟩

/-! ## Cycles -/

theorem Reaches.trans {needs : List (Text × List Text)} {a b c : Text} (h1 : Reaches needs a b)
    (h2 : Reaches needs b c) : Reaches needs a c := by
  induction h1 with
  | one h => exact .more h h2
  | more h _ ih => exact .more h (ih h2)

theorem filter_length_lt {α : Type} {l : List α} {p q : α → Bool} (hpq : ∀ x ∈ l, p x = true → q x = true)
    {x : α} (hx : x ∈ l) (h1 : p x = false) (h2 : q x = true) :
    (l.filter p).length < (l.filter q).length := by
  induction l with
  | nil => cases hx
  | cons y ys ih =>
    have hle : (ys.filter p).length ≤ (ys.filter q).length := by
      clear ih hx
      induction ys with
      | nil => simp
      | cons z zs ih2 =>
        have h3 := ih2 fun x hx => hpq x (by
          simp only [List.mem_cons] at hx ⊢
          rcases hx with h | h
          · exact .inl h
          · exact .inr (.inr h))
        rw [List.filter_cons, List.filter_cons]
        have := hpq z (by simp)
        cases hp : p z <;> cases hq : q z <;> simp_all <;> omega
    rw [List.filter_cons, List.filter_cons]
    simp only [List.mem_cons] at hx
    rcases hx with rfl | hx
    · simp [h1, h2]; omega
    · have := ih (fun x hx => hpq x (List.mem_cons_of_mem _ hx)) hx
      have hy := hpq y (by simp)
      cases hp : p y <;> cases hq : q y <;> simp_all <;> omega

/-- Within a finite set in which every element needs one of the set, every element leads to a cycle. -/
theorem cyclic_of_stuck {needs : List (Text × List Text)} (R : List Text) (P : Text → Prop)
    (hstep : ∀ k, P k → ∃ r, Needs needs k r ∧ P r) (hR : ∀ k, P k → k ∈ R) {k : Text} (hk : P k) :
    Cyclic needs k := by
  classical
  generalize hn : (R.filter fun x => decide (Reaches needs k x)).length = n
  induction n using Nat.strongRecOn generalizing k with
  | ind n ih =>
    by_cases hc : Reaches needs k k
    · exact .inl hc
    · obtain ⟨r, hr, hpr⟩ := hstep k hk
      by_cases hrr : Reaches needs r r
      · exact .inr ⟨r, .one hr, hrr⟩
      · have hlt : (R.filter fun x => decide (Reaches needs r x)).length < n := by
          rw [← hn]
          refine filter_length_lt (x := r) ?_ (hR r hpr) (by simp [hrr]) (by simp [Reaches.one hr])
          intro x _ hx
          simp only [decide_eq_true_eq] at hx ⊢
          exact .more hr hx
        rcases ih _ hlt hpr rfl with h | ⟨c, h1, h2⟩
        · exact absurd h hrr
        · exact .inr ⟨c, .more hr h1, h2⟩

theorem Before.mem {l : List Text} {a b : Text} (h : Before l a b) : a ∈ l ∧ b ∈ l := by
  obtain ⟨x, y, z, rfl⟩ := h
  simp

theorem Before.idx {l : List Text} (hn : l.Nodup) {a b : Text} (h : Before l a b) :
    l.idxOf a < l.idxOf b := by
  obtain ⟨x, y, z, rfl⟩ := h
  rw [List.nodup_append] at hn
  obtain ⟨h1, h2, h3⟩ := hn
  rw [List.nodup_cons] at h2
  have ha : a ∉ x := fun hc => h3 a hc a (by simp) rfl
  have hb : b ∉ x := fun hc => h3 b hc b (by simp) rfl
  have hab : a ≠ b := by rintro rfl; exact h2.1 (by simp)
  rw [List.idxOf_append, List.idxOf_append, if_neg ha, if_neg hb, List.idxOf_cons_self,
    List.idxOf_cons, show (a == b) = false by simp [hab]]
  simp only [cond_false]
  omega

end Hampi.Compiler
