import Verif.Lemmas.Resolve
import Verif.Spec.NotationDefs
/-! # KeySorted tables -/
namespace Hampi.Compiler
open _root_.Hampi.Compiler.Spec

/-- In the order of the keys, no key twice. -/
def KeySorted {α : Type} (m : List (Text × α)) : Prop := m.Pairwise fun a b => a.1 < b.1

theorem text_lt_of_not {a b : Text} (h : ¬ a < b) (k : a ≠ b) : b < a := Std.lt_of_le_of_ne h (Ne.symm k)

theorem mem_put {α : Type} {m : List (Text × α)} {k : Text} {v : α} {e : Text × α} (h : e ∈ put m k v) :
    e = (k, v) ∨ e ∈ m := by
  induction m with
  | nil => simpa [put] using h
  | cons x m ih =>
    obtain ⟨j, w⟩ := x
    rw [put] at h
    split at h
    · rcases List.mem_cons.mp h with h | h
      · exact .inl h
      · exact .inr (.tail _ h)
    · split at h
      · rcases List.mem_cons.mp h with h | h
        · exact .inl h
        · exact .inr h
      · rcases List.mem_cons.mp h with h | h
        · exact .inr (h ▸ .head _)
        · rcases ih h with h | h
          · exact .inl h
          · exact .inr (.tail _ h)

theorem KeySorted.put {α : Type} {m : List (Text × α)} (h : KeySorted m) (k : Text) (v : α) :
    KeySorted (put m k v) := by
  induction m with
  | nil => simp [Hampi.Compiler.put, KeySorted]
  | cons x m ih =>
    obtain ⟨j, w⟩ := x
    obtain ⟨h1, h2⟩ := List.pairwise_cons.mp h
    rw [Hampi.Compiler.put]
    split
    · rename_i hk
      subst hk
      exact List.pairwise_cons.mpr ⟨fun e he => h1 e he, h2⟩
    · rename_i hk
      split
      · rename_i hlt
        refine List.pairwise_cons.mpr ⟨fun e he => ?_, h⟩
        rcases List.mem_cons.mp he with rfl | he
        · exact hlt
        · exact List.lt_trans hlt (h1 e he)
      · rename_i hlt
        refine List.pairwise_cons.mpr ⟨fun e he => ?_, ih h2⟩
        rcases mem_put he with rfl | he
        · exact text_lt_of_not hlt hk
        · exact h1 e he

theorem get_none_of_lt {α : Type} {m : List (Text × α)} {k : Text} (h : ∀ e ∈ m, k < e.1) :
    get m k = none := by
  induction m with
  | nil => rfl
  | cons x m ih =>
    obtain ⟨j, w⟩ := x
    rw [get_cons, if_neg ?_, ih fun e he => h e (.tail _ he)]
    rintro rfl
    exact List.lt_irrefl _ (h (j, w) (.head _))

/-- A sorted table is determined by what it holds. -/
theorem KeySorted.ext {α : Type} {a b : List (Text × α)} (ha : KeySorted a) (hb : KeySorted b)
    (h : ∀ k, get a k = get b k) : a = b := by
  induction a generalizing b with
  | nil =>
    cases b with
    | nil => rfl
    | cons y b =>
      have := h y.1
      obtain ⟨j, w⟩ := y
      rw [get_cons, if_pos rfl] at this
      cases this
  | cons x a ih =>
    obtain ⟨i, v⟩ := x
    obtain ⟨ha1, ha2⟩ := List.pairwise_cons.mp ha
    cases b with
    | nil =>
      have := h i
      rw [get_cons, if_pos rfl] at this
      cases this
    | cons y b =>
      obtain ⟨j, w⟩ := y
      obtain ⟨hb1, hb2⟩ := List.pairwise_cons.mp hb
      have hij : i = j := by
        apply Decidable.byContradiction
        intro hne
        by_cases hlt : i < j
        · have h1 := h i
          rw [get_cons, if_pos rfl, get_none_of_lt (fun e he => ?_)] at h1
          · cases h1
          · rcases List.mem_cons.mp he with rfl | he
            · exact hlt
            · exact List.lt_trans hlt (hb1 e he)
        · have hlt := text_lt_of_not hlt hne
          have h1 := h j
          rw [get_cons, if_neg hne, get_cons, if_pos rfl, get_none_of_lt (fun e he => ?_)] at h1
          · cases h1
          · exact List.lt_trans hlt (ha1 e he)
      subst hij
      have hv := h i
      rw [get_cons, if_pos rfl, get_cons, if_pos rfl] at hv
      cases hv
      rw [ih ha2 hb2]
      intro k
      by_cases hk : i = k
      · subst hk
        rw [get_none_of_lt ha1, get_none_of_lt hb1]
      · have := h k
        rwa [get_cons, if_neg hk, get_cons, if_neg hk] at this

theorem KeySorted.nodup {α : Type} {m : List (Text × α)} (h : KeySorted m) : (m.map (·.1)).Nodup := by
  rw [List.nodup_iff_pairwise_ne, List.pairwise_map]
  exact h.imp fun {a b} hab e => by rw [e] at hab; exact List.lt_irrefl _ hab

theorem Spec.Table.nodup {α : Type} {m xs : List (Text × α)} (h : Table m xs) : (xs.map (·.1)).Nodup :=
  (h.1.map (·.1)).nodup_iff.mp (KeySorted.nodup h.2)

theorem get_perm {α : Type} {m xs : List (Text × α)} (h : m.Perm xs) (hx : (xs.map (·.1)).Nodup) (k : Text) :
    get m k = get xs k := by
  have hm : (m.map (·.1)).Nodup := (h.map (·.1)).nodup_iff.mpr hx
  cases hk : get m k with
  | some v => exact (get_of_mem hx (h.mem_iff.mp (get_mem hk))).symm
  | none =>
    cases hk' : get xs k with
    | none => rfl
    | some v => rw [get_of_mem hm (h.mem_iff.mpr (get_mem hk'))] at hk; cases hk

/-- Entries put into a table one after the other. -/
def putAll {α : Type} (m xs : List (Text × α)) : List (Text × α) := xs.foldl (fun m e => put m e.1 e.2) m

theorem putAll_sorted {α : Type} {m : List (Text × α)} (h : KeySorted m) (xs : List (Text × α)) :
    KeySorted (putAll m xs) := by
  induction xs generalizing m with
  | nil => exact h
  | cons x xs ih => exact ih (h.put _ _)

theorem get_putAll {α : Type} (m xs : List (Text × α)) (hx : (xs.map (·.1)).Nodup) (k : Text) :
    get (putAll m xs) k = (get xs k).or (get m k) := by
  induction xs generalizing m with
  | nil => rfl
  | cons x xs ih =>
    obtain ⟨j, w⟩ := x
    rw [List.map_cons, List.nodup_cons] at hx
    have := ih (put m j w) hx.2
    rw [putAll, List.foldl_cons]
    rw [putAll] at this
    rw [this, get_put, get_cons]
    by_cases hj : j = k
    · subst hj
      have : get xs j = none := by
        cases hg : get xs j with
        | none => rfl
        | some v => exact absurd (List.mem_map_of_mem (f := (·.1)) (get_mem hg)) hx.1
      simp [this]
    · simp [hj]

theorem Spec.Table.putAll {α : Type} {m xs : List (Text × α)} (h : Table m xs) :
    Hampi.Compiler.putAll [] xs = m := by
  refine KeySorted.ext (putAll_sorted List.Pairwise.nil xs) h.2 fun k => ?_
  rw [get_putAll _ _ h.nodup, get_perm h.1 h.nodup]
  simp [get]

end Hampi.Compiler
