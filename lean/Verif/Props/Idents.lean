import Verif.Lemmas.IdentsGenerate
import Verif.Props.Main
/-!
# C145: the names in generated code are identifiers

`Ident::new`, with which the generator makes all names, panics on a text that is not an identifier, and
`capitalize_first` on a first character of more than one octet. The model of the generator (Compiler/Items.lean) leaves
these panics out. By the theorem here they do not happen.
-/
namespace Hampi.Compiler.Props
open _root_.Hampi.Compiler.Spec

/-- **C145.** Whatever files the program generates code from, in whatever order it takes modules and definitions: all
names in the code are identifiers of Rust. (`Sane`: the crate heck makes identifiers of names.) -/
theorem C145_identifiers {u : Unicode} {sp : Spelling} (hsp : Spelling.Sane sp) {n : Nat} {args : List Arg} {items : List Item}
    (h : Runs u sp n args (.ok items)) : ∀ i ∈ items, Item.Identifiers i := by
  unfold Runs at h
  cases hr : readArgs u n [] args with
  | ok ms =>
    rw [hr] at h
    obtain ⟨s, hs, h⟩ := h
    have hread := readArgs_names (fun _ h => (by cases h)) hr
    cases s with
    | ok R =>
      have hg : generate sp R = .ok items := by
        have h : Out.ok items = (generate sp R).orCompile := h
        cases hx : generate sp R with
        | ok t => rw [hx] at h; cases h; rfl
        | _ => rw [hx] at h; cases h
      exact generate_idents hsp (resolvesModules_named (fun ty ht => appears_deep hread ht)
        (fun M hM k d hd => definition_name (hread M hM) hd) hs) hg
    | _ => cases h
  | _ => rw [hr] at h; cases h

/-- **C145.** What the generator is given are names, even if it does not end with code: those of the definitions, and
in types all those of components, alternatives, values and of the types they refer to. -/
theorem C145_names {u : Unicode} {n : Nat} {args : List Arg} {ms : List Module} {R : Resolver}
    (h : readArgs u n [] args = .ok ms) (hr : ResolvesModules n {} ms (.ok R)) :
    ∀ p ∈ resolvedTypes R.resolved, Name p.1 ∧ p.2.Named := by
  rintro ⟨k, t⟩ hp
  unfold resolvedTypes at hp
  obtain ⟨⟨k', x⟩, hx, he⟩ := List.mem_filterMap.mp hp
  have hread := readArgs_names (fun _ h => (by cases h)) h
  have := resolvesModules_named (fun ty ht => appears_deep hread ht)
    (fun M hM k d hd => definition_name (hread M hM) hd) hr _ hx
  cases x with
  | type t' => cases he; exact this
  | _ => cases he

/-- A stand-in for the crate heck: hyphens become underscores. -/
def hyphenless : Spelling where
  snake t := t.map fun c => if c = '-' then '_' else c
  shouty t := t.map fun c => if c = '-' then '_' else c

theorem hyphenless_sane : Spelling.Sane hyphenless := by
  have key : ∀ x : Text, Name x → Identifier (x.map fun c => if c = '-' then '_' else c) := by
    rintro x ⟨c, cs, rfl, hc, h⟩
    refine ⟨c, cs.map fun c => if c = '-' then '_' else c, ?_, hc, fun d hd => ?_⟩
    · rw [List.map_cons, if_neg]
      rintro rfl
      revert hc
      decide
    · obtain ⟨e, he, rfl⟩ := List.mem_map.mp hd
      by_cases hm : e = '-'
      · rw [if_pos hm]; exact .inr rfl
      · rw [if_neg hm]; exact (h e he).elim .inl fun h => absurd h hm
  exact ⟨key, key⟩

theorem not_stands_nil {x : Text} {t : Ty} (h : Stands [] x t) : False := by
  cases h <;> exact absurd ‹_ ∈ []› List.not_mem_nil

/-- The two files of `Props/Main.lean`: code is generated from them, and there are items in it. -/
example : ∃ n items, Runs ascii hyphenless n [.text file1, .text file2] (.ok items) ∧ items ≠ [] ∧
    ∀ i ∈ items, Item.Identifiers i := by
  obtain ⟨n₀, h⟩ := C97_text_to_rust ascii hyphenless exampleFiles
    (by
      intro f hf
      rcases List.mem_cons.mp hf with rfl | hf
      · exact file1_spells
      · cases List.eq_of_mem_singleton hf
        exact file2_spells)
    0 _ example_read example_proper
  obtain ⟨⟨r, hr⟩, h2⟩ := h n₀ (Nat.le_refl _)
  obtain ⟨items, rfl, h3⟩ := h2 r hr
  refine ⟨n₀, items, hr, ?_, C145_identifiers hyphenless_sane hr⟩
  rintro rfl
  obtain ⟨h4, -⟩ := h3 (parsed2.toModule ascii 0) (List.mem_cons_of_mem _ List.mem_cons_self) "S".toList _ false _
    List.mem_cons_self s_described
  exact not_stands_nil h4

/-- A name with a hyphen and one with an underscore. -/
example : Name "local-Id".toList ∧ ¬ Name "local_Id".toList ∧ Identifier "Local_Id".toList ∧ ¬ Identifier "2nd".toList := by
  refine ⟨⟨'l', "ocal-Id".toList, rfl, by decide, by decide⟩, ?_, ⟨'L', "ocal_Id".toList, rfl, by decide, by decide⟩, ?_⟩
  · rintro ⟨c, cs, e, hc, h⟩
    cases e
    revert h
    decide
  · rintro ⟨c, cs, e, hc, h⟩
    cases e
    revert hc
    decide

end Hampi.Compiler.Props
