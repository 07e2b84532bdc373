import Verif.Lemmas.Constraints
import Verif.Compiler.Generate
/-!
# Lemmas on the bounds of value sets and on integer widths
-/
namespace Hampi.Compiler

open Hampi.Spec

theorem foldl_min (l : List Int) (x : Int) :
    (l.foldl min x = x ∨ l.foldl min x ∈ l) ∧ l.foldl min x ≤ x ∧ ∀ y ∈ l, l.foldl min x ≤ y := by
  induction l generalizing x with
  | nil => simp
  | cons a l ih =>
    obtain ⟨h1, h2, h3⟩ := ih (min x a)
    simp only [List.foldl_cons, List.mem_cons]
    refine ⟨?_, by omega, ?_⟩
    · rcases h1 with h | h
      · rw [h]
        rcases Int.le_total x a with h' | h'
        · left; omega
        · right; left; omega
      · exact Or.inr (Or.inr h)
    · rintro y (rfl | hy)
      · omega
      · exact h3 y hy

theorem foldl_max (l : List Int) (x : Int) :
    (l.foldl max x = x ∨ l.foldl max x ∈ l) ∧ x ≤ l.foldl max x ∧ ∀ y ∈ l, y ≤ l.foldl max x := by
  induction l generalizing x with
  | nil => simp
  | cons a l ih =>
    obtain ⟨h1, h2, h3⟩ := ih (max x a)
    simp only [List.foldl_cons, List.mem_cons]
    refine ⟨?_, by omega, ?_⟩
    · rcases h1 with h | h
      · rw [h]
        rcases Int.le_total x a with h' | h'
        · right; left; omega
        · left; omega
      · exact Or.inr (Or.inr h)
    · rintro y (rfl | hy)
      · omega
      · exact h3 y hy

theorem minOf_some {l : List Int} {m : Int} (h : minOf l = some m) : m ∈ l ∧ ∀ y ∈ l, m ≤ y := by
  cases l with
  | nil => simp [minOf] at h
  | cons x xs =>
    simp only [minOf] at h
    injection h with h; subst h
    obtain ⟨h1, h2, h3⟩ := foldl_min xs x
    refine ⟨?_, ?_⟩
    · rcases h1 with h | h
      · rw [h]; simp
      · exact List.mem_cons_of_mem _ h
    · intro y hy
      rcases List.mem_cons.1 hy with rfl | hy
      · exact h2
      · exact h3 y hy

theorem maxOf_some {l : List Int} {m : Int} (h : maxOf l = some m) : m ∈ l ∧ ∀ y ∈ l, y ≤ m := by
  cases l with
  | nil => simp [maxOf] at h
  | cons x xs =>
    simp only [maxOf] at h
    injection h with h; subst h
    obtain ⟨h1, h2, h3⟩ := foldl_max xs x
    refine ⟨?_, ?_⟩
    · rcases h1 with h | h
      · rw [h]; simp
      · exact List.mem_cons_of_mem _ h
    · intro y hy
      rcases List.mem_cons.1 hy with rfl | hy
      · exact h2
      · exact h3 y hy

theorem minOf_none {l : List Int} (h : minOf l = none) : l = [] := by
  cases l <;> simp_all [minOf]

theorem maxOf_none {l : List Int} (h : maxOf l = none) : l = [] := by
  cases l <;> simp_all [maxOf]

/-- No range is empty. -/
def ConstraintValues.Proper (s : ConstraintValues) : Prop := ∀ r ∈ s.ranges, r.1 < r.2

theorem min_none {s : ConstraintValues} (h : s.min = none) : s.values = [] ∧ s.ranges = [] := by
  unfold ConstraintValues.min at h
  split at h
  · rename_i h1
    exact ⟨minOf_none h1, by simpa using minOf_none h⟩
  · exact absurd h (by simp)
  · exact absurd h (by simp)

theorem max_none {s : ConstraintValues} (h : s.max = none) : s.values = [] ∧ s.ranges = [] := by
  unfold ConstraintValues.max at h
  split at h
  · rename_i h1
    exact ⟨maxOf_none h1, by simpa using maxOf_none h⟩
  · exact absurd h (by simp)
  · exact absurd h (by simp)

/-- The computed minimum is the least member. -/
theorem min_least {s : ConstraintValues} (hs : s.Proper) {m : Int} (h : s.min = some m) :
    Holds s m ∧ ∀ x, Holds s x → m ≤ x := by
  unfold ConstraintValues.min at h
  have rangeMem : ∀ {r : Int}, r ∈ s.ranges.map (·.1) → Holds s r := by
    intro r hr
    obtain ⟨p, hp, rfl⟩ := List.mem_map.1 hr
    exact Or.inr ⟨p, hp, Int.le_refl _, hs p hp⟩
  split at h
  · rename_i h1
    have hv := minOf_none h1
    obtain ⟨a, b⟩ := minOf_some h
    refine ⟨rangeMem a, ?_⟩
    rintro x (hx | ⟨p, hp, h2, h3⟩)
    · simp [hv] at hx
    · have := b p.1 (List.mem_map_of_mem hp); omega
  · rename_i v h1 h2
    have hr := minOf_none h2
    injection h with h; subst h
    obtain ⟨a, b⟩ := minOf_some h1
    refine ⟨Or.inl a, ?_⟩
    rintro x (hx | ⟨p, hp, _⟩)
    · exact b x hx
    · simp only [List.map_eq_nil_iff] at hr; simp [hr] at hp
  · rename_i v r h1 h2
    injection h with h
    obtain ⟨a, b⟩ := minOf_some h1
    obtain ⟨c, d⟩ := minOf_some h2
    refine ⟨?_, ?_⟩
    · rcases Int.le_total r v with h' | h'
      · rw [show m = r by omega]; exact rangeMem c
      · rw [show m = v by omega]; exact Or.inl a
    · rintro x (hx | ⟨p, hp, h2, h3⟩)
      · have := b x hx; omega
      · have := d p.1 (List.mem_map_of_mem hp); omega

/-- The computed maximum is the greatest member when there are only single values, or only ranges. -/
theorem max_greatest {s : ConstraintValues} (hs : s.Proper) (hu : s.values = [] ∨ s.ranges = [])
    {m : Int} (h : s.max = some m) : Holds s m ∧ ∀ x, Holds s x → x ≤ m := by
  unfold ConstraintValues.max at h
  split at h
  · rename_i h1
    have hv := maxOf_none h1
    obtain ⟨a, b⟩ := maxOf_some h
    obtain ⟨p, hp, hm⟩ := List.mem_map.1 a
    refine ⟨Or.inr ⟨p, hp, ?_, ?_⟩, ?_⟩
    · have := hs p hp; omega
    · omega
    · rintro x (hx | ⟨p, hp, h2, h3⟩)
      · simp [hv] at hx
      · have := b (p.2 - 1) (List.mem_map_of_mem (f := fun r : Int × Int => r.2 - 1) hp); omega
  · rename_i v h1 h2
    have hr := maxOf_none h2
    injection h with h; subst h
    obtain ⟨a, b⟩ := maxOf_some h1
    refine ⟨Or.inl a, ?_⟩
    rintro x (hx | ⟨p, hp, _⟩)
    · exact b x hx
    · simp only [List.map_eq_nil_iff] at hr; simp [hr] at hp
  · rename_i v r h1 h2
    rcases hu with hu | hu
    · simp [hu, maxOf] at h1
    · simp [hu, maxOf] at h2

/-! ## Widths -/

theorem bitLen_le {n k : Nat} : bitLen n ≤ k ↔ n < 2 ^ k := by
  unfold bitLen
  split
  · rename_i h; subst h; simp [Nat.pow_pos]
  · rename_i h
    rw [Nat.succ_le_iff, Nat.log2_lt h]

theorem roundBits_cases (n : Nat) :
    (n ≤ 8 ∧ roundBits n = 8) ∨ (8 < n ∧ n ≤ 16 ∧ roundBits n = 16) ∨
    (16 < n ∧ n ≤ 32 ∧ roundBits n = 32) ∨ (32 < n ∧ n ≤ 64 ∧ roundBits n = 64) ∨
    (64 < n ∧ roundBits n = 128) := by
  unfold roundBits
  repeat' split
  all_goals omega

theorem innerWidth_roundBits (n : Nat) (signed : Bool) :
    (innerWidth (roundBits n) signed).signed = signed ∧
      (n ≤ 64 → n ≤ (innerWidth (roundBits n) signed).bits) ∧
      (innerWidth (roundBits n) signed).bits ∈ [8, 16, 32, 64] ∧
      (∀ k ∈ [8, 16, 32, 64], n ≤ k → (innerWidth (roundBits n) signed).bits ≤ k) := by
  rcases roundBits_cases n with ⟨h1, h⟩ | ⟨h0, h1, h⟩ | ⟨h0, h1, h⟩ | ⟨h0, h1, h⟩ | ⟨h0, h⟩ <;>
    rw [h] <;> cases signed <;>
    simp [innerWidth, Width.signed, Width.bits] <;> omega

end Hampi.Compiler
