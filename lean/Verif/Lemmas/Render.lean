import Verif.Lemmas.Plain5
import Verif.Lemmas.Macro
/-! # The items of a schema that has a meaning can be written as Rust -/
namespace Hampi.Compiler
open Hampi.Derive _root_.Hampi.Compiler.Spec

/-- Some Rust is written for the item. -/
def Renderable (i : Item) : Prop := ∃ r, Renders i r

theorem base_renderable {b : RBase} {t : Option Ty} (h : b.attrs = .ok t) (x : Text) (cs : List (Text × Int)) :
    Renderable (.newtype x t cs) := by
  cases b with
  | integer bits signed c => cases h; exact ⟨_, .newtype .integer⟩
  | enumerated bits signed ext root add =>
    cases root with
    | nil => cases h
    | cons _ _ => cases h; exact ⟨_, .newtype .enumerated⟩
  | bitString size _ => cases h; exact ⟨_, .newtype (.bitstring .size)⟩
  | boolean => cases h; exact ⟨_, .newtype .boolean⟩
  | octetString size => cases h; exact ⟨_, .newtype (.octetstring .size)⟩
  | characterString st size =>
    simp only [RBase.attrs] at h
    cases hk : charKindOf st with
    | none => rw [hk] at h; cases h; exact ⟨_, .unknownText (lb := none) (ub := none) (ext := false) hk .none⟩
    | some k => rw [hk] at h; cases h; exact ⟨_, .newtype (.charstring .size)⟩
  | objectIdentifier => cases h; exact ⟨_, .newtype .objectIdentifier⟩
  | null => cases h; exact ⟨_, .newtype .null⟩

theorem open_renderable {R : Resolver} {types : List (Text × Text × Text)} {as : Alts} (h : MeansOpen R types as) :
    ∃ l, RendersOpen (openItems types) l := by
  match h with
  | .nil => exact ⟨[], .nil⟩
  | .cons _ h =>
    obtain ⟨l, hl⟩ := open_renderable h
    exact ⟨_, .cons hl⟩
termination_by structural h

/-- Everything in the list can be rendered. -/
def Renderables (l : List Item) : Prop := ∀ i ∈ l, Renderable i

theorem Renderables.push {g : Gen} {i : Item} (h : Renderables g.aux) (hi : Renderable i) :
    Renderables (g.push i).aux := by
  intro j hj
  rcases List.mem_append.mp hj with hj | hj
  · exact h j hj
  · rw [List.eq_of_mem_singleton hj]; exact hi

section
variable {R : Resolver} {sp : Spelling}

theorem withIdent_renders {ty : RType} {input : Text} {gen : Text → Gen → Out Err (Item × Gen)} {g : Gen}
    {p : Text × Gen} (h : withIdent sp ty input gen g = .ok p) (hg : Renderables g.aux)
    (hi : ∀ q, gen input g = .ok q → Renderable q.1 ∧ Renderables q.2.aux) : Renderables p.2.aux := by
  cases ty with
  | base b =>
    simp only [withIdent, genBase] at h
    obtain ⟨i, h1, h⟩ := Out.bind_ok.mp h
    obtain ⟨t, h2, h1⟩ := Out.bind_ok.mp h1
    cases h; cases h1
    exact Renderables.push (g := g.next) hg (base_renderable h2 _ _)
  | reference r => cases h; exact hg
  | _ =>
    simp only [withIdent] at h
    obtain ⟨q, h1, h⟩ := Out.bind_ok.mp h
    cases h
    exact Renderables.push (hi q h1).2 (hi q h1).1

mutual

theorem means_renders {ty : RType} {t : Ty} (h : Means R ty t) {name : Text} {g : Gen} {p : Item × Gen}
    (hp : genItem sp name ty g = .ok p) (hg : Renderables g.aux) : Renderable p.1 ∧ Renderables p.2.aux := by
  match h with
  | .base hb =>
    simp only [genItem, genBase, hb, Out.bind] at hp
    cases hp
    exact ⟨base_renderable hb _ _, hg⟩
  | .reference _ _ =>
    rw [genItem] at hp
    cases hp
    exact ⟨⟨_, .alias⟩, hg⟩
  | .sequence hf =>
    rw [genItem] at hp
    obtain ⟨q, h1, hp⟩ := Out.bind_ok.mp hp
    cases hp
    exact ⟨⟨_, .struct⟩, meansFields_renders hf h1 hg⟩
  | .sequenceOf he =>
    rw [genItem] at hp
    obtain ⟨q, h1, hp⟩ := Out.bind_ok.mp hp
    cases hp
    exact ⟨⟨_, .vec .size⟩, withIdent_renders h1 hg fun _ hq => means_renders he hq hg⟩
  | .choice ha =>
    rw [genItem] at hp
    obtain ⟨q, h1, hp⟩ := Out.bind_ok.mp hp
    split at hp
    · cases hp
    · cases hp
      exact ⟨⟨_, .choice⟩, meansAlts_renders ha h1 hg⟩
  | .choiceExt hb ha =>
    rw [genItem] at hp
    obtain ⟨q, h1, hp⟩ := Out.bind_ok.mp hp
    obtain ⟨r, h2, hp⟩ := Out.bind_ok.mp hp
    split at hp
    · cases hp
    · cases hp
      exact ⟨⟨_, .choice⟩, meansAlts_renders hb h2 (meansAlts_renders ha h1 hg)⟩
  | .set ho =>
    rw [genItem] at hp
    cases hp
    obtain ⟨l, hl⟩ := open_renderable ho
    exact ⟨⟨_, .openEnum hl⟩, hg⟩
termination_by structural h

theorem meansFields_renders {i : Nat} {cs : List RSeqComponent} {n : Nat} {fs : Fields}
    (h : MeansFields R i cs n fs) {name : Text} {j : Nat} {g : Gen} {p : (List FieldItem × Nat) × Gen}
    (hp : genFields sp name j cs g = .ok p) (hg : Renderables g.aux) : Renderables p.2.aux := by
  match h with
  | .nil => rw [genFields] at hp; cases hp; exact hg
  | .required hm hr =>
    rw [genFields] at hp
    obtain ⟨q, h1, hp⟩ := Out.bind_ok.mp hp
    obtain ⟨r, h2, hp⟩ := Out.bind_ok.mp hp
    have := meansFields_renders hr h2 (withIdent_renders h1 hg fun _ hq => means_renders hm hq hg)
    cases hp
    exact this
  | .optional hm hr =>
    rw [genFields] at hp
    obtain ⟨q, h1, hp⟩ := Out.bind_ok.mp hp
    obtain ⟨r, h2, hp⟩ := Out.bind_ok.mp hp
    have := meansFields_renders hr h2 (withIdent_renders h1 hg fun _ hq => means_renders hm hq hg)
    cases hp
    exact this
termination_by structural h

theorem meansAlts_renders {x : Bool} {i : Nat} {cs : List RComponent} {rest as : Alts}
    (h : MeansAlts R x i cs rest as) {name : Text} {y : Bool} {j : Nat} {g : Gen} {p : List VariantItem × Gen}
    (hp : genVariants sp name y j cs g = .ok p) (hg : Renderables g.aux) : Renderables p.2.aux := by
  match h with
  | .nil => rw [genVariants] at hp; cases hp; exact hg
  | .cons hm hr =>
    rw [genVariants] at hp
    obtain ⟨q, h1, hp⟩ := Out.bind_ok.mp hp
    obtain ⟨r, h2, hp⟩ := Out.bind_ok.mp hp
    have := meansAlts_renders hr h2 (withIdent_renders h1 hg fun _ hq => means_renders hm hq hg)
    cases hp
    exact this
termination_by structural h

end

theorem genAll_renders {ts : List (Text × RType)} (h : ∀ e ∈ ts, ∃ t, Means R e.2 t) {g : Gen}
    {p : List Item × Gen} (hp : genAll sp ts g = .ok p) (hg : Renderables g.aux) :
    Renderables p.1 ∧ Renderables p.2.aux := by
  induction ts generalizing g p with
  | nil => cases hp; exact ⟨fun _ h => (by cases h), hg⟩
  | cons e ts ih =>
    rw [genAll] at hp
    obtain ⟨q, h1, hp⟩ := Out.bind_ok.mp hp
    obtain ⟨r, h2, hp⟩ := Out.bind_ok.mp hp
    obtain ⟨t, ht⟩ := h e List.mem_cons_self
    have a := means_renders ht h1 hg
    have b := ih (fun e he => h e (List.mem_cons_of_mem _ he)) h2 a.2
    cases hp
    refine ⟨fun i hi => ?_, b.2⟩
    rcases List.mem_cons.mp hi with rfl | hi
    · exact a.1
    · exact b.1 i hi

theorem renderables_file {l : List Item} (h : Renderables l) : ∃ file, All2 Renders l file := by
  induction l with
  | nil => exact ⟨[], .nil⟩
  | cons i l ih =>
    obtain ⟨r, hr⟩ := h i List.mem_cons_self
    obtain ⟨file, hf⟩ := ih fun i hi => h i (List.mem_cons_of_mem _ hi)
    exact ⟨r :: file, .cons hr hf⟩

/-- Rust is written for all items of a resolver in which every type has a meaning. -/
theorem generate_renders (h : ∀ e ∈ resolvedTypes R.resolved, ∃ t, Means R e.2 t) {items : List Item}
    (hi : generate sp R = .ok items) : ∃ file, All2 Renders items file := by
  rw [generate] at hi
  obtain ⟨p, hp, hi⟩ := Out.bind_ok.mp hi
  cases hi
  obtain ⟨h1, h2⟩ := genAll_renders h hp (fun _ h => by cases h)
  refine renderables_file fun i hi => ?_
  rcases List.mem_append.mp hi with hi | hi
  · exact h1 i hi
  · exact h2 i hi

theorem renders_ident {i : Item} {r : RustItem} (h : Renders i r) : r.ident = i.ident := by
  cases h <;> rfl

theorem renders_idents {l : List Item} {file : List RustItem} (h : All2 Renders l file) :
    file.map RustItem.ident = l.map Item.ident := by
  induction h with
  | nil => rfl
  | cons h _ ih => rw [List.map_cons, List.map_cons, renders_ident h, ih]

end

end Hampi.Compiler
