import Verif.Lemmas.Main
import Verif.Lemmas.Sort
/-!
# The order of the modules
-/
namespace Hampi.Compiler
open Hampi.Compiler.Spec

/-- The two graphs have the same elements and pairs. -/
structure Graph.Same (g g' : Graph) : Prop where
  left : g.nodes.Nodup
  right : g'.nodes.Nodup
  nodes : ∀ k, k ∈ g.nodes ↔ k ∈ g'.nodes
  edges : ∀ e, e ∈ g.edges ↔ e ∈ g'.edges

theorem perm_of_mem {l l' : List Text} (h : l.Nodup) (h' : l'.Nodup) (hm : ∀ k, k ∈ l ↔ k ∈ l') : l.Perm l' := by
  induction l generalizing l' with
  | nil =>
    cases l' with
    | nil => exact .refl _
    | cons a l' => exact absurd ((hm a).mpr List.mem_cons_self) List.not_mem_nil
  | cons a l ih =>
    obtain ⟨b, c, rfl⟩ := List.append_of_mem ((hm a).mp List.mem_cons_self)
    rw [List.nodup_cons] at h
    have h2 := (List.perm_middle (a := a) (l₁ := b) (l₂ := c)).nodup_iff.mp h'
    rw [List.nodup_cons] at h2
    refine ((ih h.2 h2.2 fun k => ?_).cons a).trans List.perm_middle.symm
    have := hm k
    rw [List.mem_cons, (List.perm_middle (a := a) (l₁ := b) (l₂ := c)).mem_iff, List.mem_cons] at this
    constructor
    · intro hk
      exact (this.mp (.inr hk)).resolve_left fun e => h.1 (e ▸ hk)
    · intro hk
      exact (this.mpr (.inr hk)).resolve_left fun e => h2.1 (e ▸ hk)

theorem Graph.Same.ready {g g' : Graph} (h : g.Same g') : g.ready.Perm g'.ready := by
  refine perm_of_mem (h.left.filter _) (h.right.filter _) fun k => ?_
  rw [Graph.mem_ready, Graph.mem_ready, h.nodes]
  constructor
  · exact fun ⟨a, b⟩ => ⟨a, fun e he => b e ((h.edges e).mpr he)⟩
  · exact fun ⟨a, b⟩ => ⟨a, fun e he => b e ((h.edges e).mp he)⟩

theorem Graph.Same.remove {g g' : Graph} (h : g.Same g') (ks : List Text) : (g.remove ks).Same (g'.remove ks) where
  left := h.left.filter _
  right := h.right.filter _
  nodes k := by rw [Graph.mem_remove_nodes, Graph.mem_remove_nodes, h.nodes]
  edges e := by rw [Graph.mem_remove_edges, Graph.mem_remove_edges, h.edges]

theorem PopsAll.same {g g' : Graph} {out : List Text} (hp : PopsAll g out) (h : g.Same g') : PopsAll g' out := by
  induction hp generalizing g' with
  | done hr => exact .done (List.Perm.nil_eq (hr ▸ h.ready)).symm
  | round h1 h2 _ ih =>
    refine .round (h1.trans h.ready) (fun e => h2 ?_) (ih (h.remove _))
    exact (List.Perm.nil_eq (e ▸ h.ready.symm)).symm

/-- The order in which names are given to the sort does not matter. -/
theorem sorted_perm {needs needs' : List (Text × List Text)} (hp : needs.Perm needs') {out : List Text}
    (h : Sorted needs out) : Sorted needs' out := by
  have h1 := graphOf_for needs
  have h2 := graphOf_for needs'
  have hn : ∀ a b, Needs needs a b ↔ Needs needs' a b := fun a b =>
    ⟨fun ⟨rs, h3, h4⟩ => ⟨rs, hp.mem_iff.mp h3, h4⟩, fun ⟨rs, h3, h4⟩ => ⟨rs, hp.mem_iff.mpr h3, h4⟩⟩
  refine PopsAll.same h ⟨h1.nodup, h2.nodup, fun k => ?_, fun e => ?_⟩
  · rw [h1.nodes, h2.nodes]
    simp only [hn, hp.mem_iff]
  · rw [h1.edges, h2.edges, hn]

theorem getModule_perm {ms ms' : List Module} (hp : ms.Perm ms') (hn : (ms.map Module.name).Nodup) (k : Text) :
    getModule ms k = getModule ms' k := by
  unfold getModule
  induction hp with
  | nil => rfl
  | cons M _ ih =>
    rw [List.find?_cons, List.find?_cons, ih (List.nodup_cons.mp hn).2]
  | swap M N l =>
    simp only [List.find?_cons]
    split <;> split <;> try rfl
    rename_i _ h1 _ h2
    exfalso
    rw [List.map_cons, List.map_cons, List.nodup_cons] at hn
    simp only [beq_iff_eq] at h1 h2
    exact hn.1 (by rw [h1, ← h2]; exact List.mem_cons_self)
  | trans p1 _ ih1 ih2 => exact (ih1 hn).trans (ih2 ((p1.map Module.name).nodup_iff.mp hn))

theorem resolvesOrder_congr {n : Nat} {ms ms' : List Module} (h : ∀ k, getModule ms k = getModule ms' k)
    {order : List Text} {R : Resolver} {r : Out Err Resolver} (hr : ResolvesOrder n ms order R r) :
    ResolvesOrder n ms' order R r := by
  induction order generalizing R with
  | nil => exact hr
  | cons k ks ih =>
    unfold ResolvesOrder at hr ⊢
    rw [← h k]
    cases hg : getModule ms k with
    | none => rw [hg] at hr; exact hr
    | some M =>
      rw [hg] at hr
      obtain ⟨r1, h1, h2⟩ := hr
      refine ⟨r1, h1, ?_⟩
      cases r1 with
      | ok R1 => exact ih h2
      | err e => exact h2
      | panic => exact h2
      | diverge => exact h2

theorem resolvesModules_perm {n : Nat} {R : Resolver} {ms ms' : List Module} {r : Out Err Resolver}
    (hp : ms.Perm ms') (hn : (ms.map Module.name).Nodup) (h : ResolvesModules n R ms r) :
    ResolvesModules n R ms' r := by
  have hg := getModule_perm hp hn
  have hi : importsFound ms = importsFound ms' := by
    rw [Bool.eq_iff_iff]
    simp only [importsFound, List.all_eq_true, hg, hp.mem_iff]
  unfold ResolvesModules at h ⊢
  rw [← hi]
  split at h
  · rename_i hc
    rw [if_pos hc]
    obtain ⟨order, h1, h2⟩ := h
    exact ⟨order, sorted_perm (hp.map _) h1, resolvesOrder_congr hg h2⟩
  · rename_i hc
    rw [if_neg hc]
    exact h

/-! ## The files -/

theorem readArgs_read {u : Unicode} {n : Nat} {files : List (Arg × List ParsedModule)}
    (hf : ∀ f ∈ files, readArg u n f.1 = .ok f.2) {ms : List Module}
    (hnd : ((files.flatMap (·.2)).map ParsedModule.name ++ ms.map Module.name).Nodup) :
    ∃ ms', readArgs u n ms (files.map (·.1)) = .ok ms' ∧
      ms'.Perm ((files.flatMap (·.2)).map (·.toModule u n) ++ ms) := by
  induction files generalizing ms with
  | nil => exact ⟨ms, rfl, List.Perm.refl _⟩
  | cons f files ih =>
    rw [List.flatMap_cons, List.map_append, List.append_assoc] at hnd
    have hnd1 : (f.2.map ParsedModule.name ++ ms.map Module.name).Nodup := by
      rw [List.nodup_append] at hnd ⊢
      obtain ⟨g1, g2, g3⟩ := hnd
      exact ⟨g1, (List.nodup_append.mp g2).2.1, fun a ha b hb => g3 a ha b (List.mem_append_right _ hb)⟩
    obtain ⟨ms', h3, h4⟩ := ih (fun g hg => hf g (List.mem_cons_of_mem _ hg))
      (ms := f.2.map (·.toModule u n) ++ ms) (by
      rw [List.map_append, List.map_map]
      have h2 : (Module.name ∘ fun x : ParsedModule => x.toModule u n) = ParsedModule.name := rfl
      rw [h2]
      refine (List.Perm.nodup_iff ?_).mp hnd
      rw [← List.append_assoc, ← List.append_assoc]
      exact (List.perm_append_comm).append_right _)
    refine ⟨ms', ?_, h4.trans ?_⟩
    · rw [List.map_cons, readArgs, hf f List.mem_cons_self]
      simp only [Out.bind]
      rw [addModules_eq hnd1]
      exact h3
    · rw [List.flatMap_cons, List.map_append, ← List.append_assoc]
      exact (List.perm_append_comm).append_right _

/-- Adding modules keeps, of those there were, the ones with other names. -/
theorem addModules_shape (u : Unicode) (n : Nat) (pms : List ParsedModule) :
    ∃ new : List Module, (∀ M ∈ new, ∃ p ∈ pms, M = p.toModule u n) ∧
      ∀ ms, addModules u n ms pms = new ++ ms.filter fun N => !(pms.map ParsedModule.name).contains N.name := by
  induction pms with
  | nil =>
    refine ⟨[], fun M hM => absurd hM List.not_mem_nil, fun ms => ?_⟩
    exact (List.filter_eq_self.mpr fun N _ => rfl).symm
  | cons p pms ih =>
    obtain ⟨new, h1, h2⟩ := ih
    refine ⟨p.toModule u n :: new.filter (fun N => N.name != p.name), fun M hM => ?_, fun ms => ?_⟩
    · rcases List.mem_cons.mp hM with rfl | hM
      · exact ⟨p, List.mem_cons_self, rfl⟩
      · obtain ⟨q, hq, e⟩ := h1 M (List.mem_filter.mp hM).1
        exact ⟨q, List.mem_cons_of_mem _ hq, e⟩
    · have : addModules u n ms (p :: pms) = (addModule (addModules u n ms pms) (p.toModule u n)).1 := by
        simp only [addModules, List.reverse_cons, List.foldl_append, List.foldl_cons, List.foldl_nil]
      rw [this, h2 ms]
      simp only [addModule, toModule_name, List.filter_append, List.filter_filter, List.cons_append, List.map_cons,
        List.contains_cons, Bool.not_or, bne]

theorem addModules_twice (u : Unicode) (n : Nat) (ms : List Module) {ps qs : List ParsedModule}
    (h : ∀ p ∈ ps, ∃ q ∈ qs, q.name = p.name) :
    addModules u n (addModules u n ms ps) qs = addModules u n ms qs := by
  obtain ⟨new, h1, h2⟩ := addModules_shape u n ps
  obtain ⟨new', h3, h4⟩ := addModules_shape u n qs
  have hc : ∀ p ∈ ps, (qs.map ParsedModule.name).contains p.name = true := by
    intro p hp
    obtain ⟨q, hq, e⟩ := h p hp
    rw [List.contains_iff_mem]
    exact List.mem_map.mpr ⟨q, hq, e⟩
  have e1 : new.filter (fun N => !(qs.map ParsedModule.name).contains N.name) = [] := by
    rw [List.filter_eq_nil_iff]
    intro M hM
    obtain ⟨p, hp, rfl⟩ := h1 M hM
    rw [toModule_name, hc p hp]
    simp
  rw [h4, h4, h2, List.filter_append, e1, List.nil_append, List.filter_filter]
  congr 1
  refine List.filter_congr fun M _ => ?_
  cases hq : (qs.map ParsedModule.name).contains M.name with
  | true => rfl
  | false =>
    have : (ps.map ParsedModule.name).contains M.name = false := by
      rw [Bool.eq_false_iff]
      intro hp
      obtain ⟨p, hp, e⟩ := List.mem_map.mp (List.contains_iff_mem.mp hp)
      have := hc p hp
      rw [e, hq] at this
      cases this
    rw [this]
    rfl

end Hampi.Compiler
