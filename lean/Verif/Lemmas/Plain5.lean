import Verif.Lemmas.Plain4
import Verif.Props.Generate
import Verif.Props.Wire
/-! # Lemmas about generating code for a schema in which every definition has a meaning -/
namespace Hampi.Compiler
open Hampi.Compiler.Spec

/-! ## The generator succeeds -/

section
variable {R : Resolver} {sp : Spelling}

theorem withIdent_ok {ty : RType} {input : Text} {gen : Text → Gen → Out Err (Item × Gen)} {g : Gen}
    (hb : ∀ b, ty = .base b → ∃ t, b.attrs = .ok t) (h : ∃ p, gen input g = .ok p) :
    ∃ p, withIdent sp ty input gen g = .ok p := by
  obtain ⟨p, hp⟩ := h
  cases ty with
  | base b =>
    obtain ⟨t, ht⟩ := hb b rfl
    exact ⟨_, by simp only [withIdent, genBase, ht, Out.bind]; rfl⟩
  | reference r => exact ⟨_, rfl⟩
  | _ => exact ⟨_, by simp only [withIdent, hp, Out.bind]; rfl⟩

theorem means_attrs {ty : RType} {t : Ty} (h : Means R ty t) : ∀ b, ty = .base b → ∃ t, b.attrs = .ok t := by
  rintro b rfl
  cases h with
  | base hb => exact ⟨_, hb⟩

mutual

/-- An item is generated for every type with a meaning. -/
theorem means_generates {ty : RType} {t : Ty} (h : Means R ty t) (name : Text) (g : Gen) :
    ∃ p, genItem sp name ty g = .ok p := by
  match h with
  | .base hb => exact ⟨_, by simp only [genItem, genBase, hb, Out.bind]; rfl⟩
  | .reference _ _ => exact ⟨_, by rw [genItem]⟩
  | .sequence hf =>
      obtain ⟨p, hp⟩ := meansFields_generates hf name 0 g
      exact ⟨_, by simp only [genItem, hp, Out.bind]; rfl⟩
  | .sequenceOf he =>
      obtain ⟨p, hp⟩ := withIdent_ok (sp := sp) (gen := fun nm => genItem sp nm _) (means_attrs he)
        (means_generates he (name ++ "_Entry".toList) g)
      exact ⟨_, by rw [genItem, hp]; rfl⟩
  | .choice (c := c) (cs := cs) ha =>
      obtain ⟨p, hp, hl⟩ := meansAlts_generates ha name false 0 g
      refine ⟨_, by rw [genItem, hp]; simp only [Out.bind]; rw [if_neg (by rw [hl]; simp)]⟩
  | .choiceExt (c := c) (cs := cs) hb ha =>
      obtain ⟨p, hp, hl⟩ := meansAlts_generates ha name false 0 g
      obtain ⟨q, hq, _⟩ := meansAlts_generates hb name true 0 p.2
      refine ⟨_, by rw [genItem, hp]; simp only [Out.bind]; rw [hq]; simp only; rw [if_neg (by rw [hl]; simp)]⟩
  | .set ho => exact ⟨_, by rw [genItem]⟩
termination_by structural h

theorem meansFields_generates {i : Nat} {cs : List RSeqComponent} {n : Nat} {fs : Fields}
    (h : MeansFields R i cs n fs) (name : Text) (j : Nat) (g : Gen) : ∃ p, genFields sp name j cs g = .ok p := by
  match h with
  | .nil => exact ⟨_, by rw [genFields]⟩
  | .required (id := id) hm hr =>
      obtain ⟨p, hp⟩ := withIdent_ok (sp := sp) (gen := fun nm => genItem sp nm _) (means_attrs hm)
        (means_generates hm (name ++ typeIdent id) g)
      obtain ⟨q, hq⟩ := meansFields_generates hr name j p.2
      exact ⟨_, by rw [genFields, hp]; simp only [Out.bind]; rw [if_neg (by decide), hq]⟩
  | .optional (id := id) hm hr =>
      obtain ⟨p, hp⟩ := withIdent_ok (sp := sp) (gen := fun nm => genItem sp nm _) (means_attrs hm)
        (means_generates hm (name ++ typeIdent id) g)
      obtain ⟨q, hq⟩ := meansFields_generates hr name (j + 1) p.2
      exact ⟨_, by rw [genFields, hp]; simp only [Out.bind]; rw [if_pos trivial, hq]⟩
termination_by structural h

theorem meansAlts_generates {x : Bool} {i : Nat} {cs : List RComponent} {rest as : Alts}
    (h : MeansAlts R x i cs rest as) (name : Text) (y : Bool) (j : Nat) (g : Gen) :
    ∃ p, genVariants sp name y j cs g = .ok p ∧ p.1.length = cs.length := by
  match h with
  | .nil => exact ⟨_, by rw [genVariants], rfl⟩
  | .cons (id := id) hm hr =>
      obtain ⟨p, hp⟩ := withIdent_ok (sp := sp) (gen := fun nm => genItem sp nm _) (means_attrs hm)
        (means_generates hm (name ++ id) g)
      obtain ⟨q, hq, hl⟩ := meansAlts_generates hr name y (j + 1) p.2
      exact ⟨_, by rw [genVariants, hp]; simp only [Out.bind]; rw [hq], by simp [hl]⟩
termination_by structural h

end

theorem genAll_ok {ts : List (Text × RType)} (h : ∀ e ∈ ts, ∃ t, Means R e.2 t) (g : Gen) :
    ∃ p, genAll sp ts g = .ok p := by
  induction ts generalizing g with
  | nil => exact ⟨_, rfl⟩
  | cons e ts ih =>
    obtain ⟨t, ht⟩ := h e List.mem_cons_self
    obtain ⟨p, hp⟩ := means_generates (sp := sp) ht e.1 g
    obtain ⟨q, hq⟩ := ih (fun e he => h e (List.mem_cons_of_mem _ he)) p.2
    exact ⟨_, by rw [genAll, hp]; simp only [Out.bind]; rw [hq]⟩

end

section
variable {ms : List Module}

theorem schema_means (h : ProperSchema ms) {R : Resolver}
    (hready : ∀ M ∈ ms, ∀ x d, (x, d) ∈ M.definitions → ReadyAs ms R M x d) (hk : Known ms R) :
    ∀ e ∈ resolvedTypes R.resolved, ∃ t, Means R e.2 t := by
  rintro ⟨k, rt⟩ he
  have hg := get_of_mem hk.sorted.nodup (resolvedTypes_mem.mp he)
  obtain ⟨M, hM, ty, hd⟩ := hk.types k rt hg
  obtain ⟨rt', h1, h2, _⟩ := hready M hM k _ hd
  rw [hg] at h1
  cases h1
  cases h.proper M hM _ hd with
  | type ht => exact ⟨_, h2 _ _ ht⟩

/-- Code is generated when every resolved definition is what it means. -/
theorem generate_schema (h : ProperSchema ms) {R : Resolver}
    (hready : ∀ M ∈ ms, ∀ x d, (x, d) ∈ M.definitions → ReadyAs ms R M x d) (hk : Known ms R)
    (sp : Spelling) : ∃ items, generate sp R = .ok items := by
  obtain ⟨p, hp⟩ := genAll_ok (sp := sp) (schema_means h hready hk) .new
  exact ⟨_, by rw [generate, hp]; rfl⟩

/-! ## Ranges -/

/-- The bounds of a range. -/
theorem bounded_range {ns : Hampi.Spec.Names} (hn : ns.Proper) {lo hi : Text} {a b : Int}
    (h1 : Hampi.Spec.Denotes ns lo a) (h2 : Hampi.Spec.Denotes ns hi b) (hab : a ≤ b) (ha : -(2 ^ 127) < a)
    (hb : b + 1 < 2 ^ 127) : Bounded ns (.mk [[.range lo true hi true]] none) a b false := by
  have hperm : ∀ x, Hampi.Spec.Permits ns (.mk [[.range lo true hi true]] none) x ↔ a ≤ x ∧ x ≤ b := by
    have hword : ∀ t v, Hampi.Spec.Denotes ns t v → t ≠ Hampi.Spec.minWord ∧ t ≠ Hampi.Spec.maxWord := by
      rintro t v (hd | hd)
      · constructor <;> rintro rfl
        · exact not_numeral_word (w := Hampi.Spec.minWord) rfl (by decide) (by decide) (by decide) v hd
        · exact not_numeral_word (w := Hampi.Spec.maxWord) rfl (by decide) (by decide) (by decide) v hd
      · exact (hn t v hd).2
    intro x
    simp only [Hampi.Spec.Permits, Hampi.Spec.SomePermits, Hampi.Spec.EveryElement, Hampi.Spec.ElementPermits,
      Hampi.Spec.Above, Hampi.Spec.Below, and_true, or_false, true_and]
    constructor
    · rintro ⟨h | ⟨v, hv, hx⟩, h' | ⟨w, hw, hy⟩⟩
      · exact absurd h (hword lo a h1).1
      · exact absurd h (hword lo a h1).1
      · exact absurd h' (hword hi b h2).2
      · rw [hv.unique hn h1] at hx
        rw [hw.unique hn h2] at hy
        omega
    · rintro ⟨hx, hy⟩
      exact ⟨.inr ⟨a, h1, by omega⟩, .inr ⟨b, h2, by omega⟩⟩
  refine Bounded.mk (add := none) (.inr ?_) ?_ (fun _ h => nomatch h) ⟨⟨⟨⟨a, h1, ha, by omega⟩, ⟨b, h2, by omega, hb⟩⟩, trivial⟩, trivial⟩
    ((hperm a).mpr ⟨Int.le_refl _, hab⟩) (fun x hx => ((hperm x).mp hx).1)
    ((hperm b).mpr ⟨hab, Int.le_refl _⟩) (fun x hx => ((hperm x).mp hx).2)
  · intro i hi'
    rw [List.mem_singleton] at hi'
    exact ⟨_, _, _, _, hi'⟩
  · intro i hi'
    rw [List.mem_singleton] at hi'
    subst hi'
    have := (hperm a).mpr ⟨Int.le_refl _, hab⟩
    simp only [Hampi.Spec.Permits, Hampi.Spec.SomePermits, or_false] at this
    exact ⟨a, this⟩

end
end Hampi.Compiler
