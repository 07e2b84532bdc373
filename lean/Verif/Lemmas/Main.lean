import Verif.Compiler.Main
import Verif.Spec.Text
import Verif.Props.TokenizerBack
import Verif.Props.Parser
import Verif.Lemmas.Plain5
/-! # Lemmas about the program as a whole -/
namespace Hampi.Compiler
open Hampi.Compiler.Spec

/-! ## From the text to the modules -/

theorem modulesNote_last {ms ts} (h : ModulesNote ms ts) : ∃ t, ts.getLast? = some t ∧ Spec.Word "END" t := by
  induction h with
  | one h =>
    cases h with
    | mk _ _ _ _ _ _ _ _ he =>
      rename_i e _ _ _ _ _ _
      exact ⟨_, by simp [List.getLast?_cons, List.getLast?_append], he⟩
  | more h h' ih =>
    obtain ⟨t, ht, hw⟩ := ih
    refine ⟨t, ?_, hw⟩
    rw [List.getLast?_append, ht]
    rfl

theorem tiles_comment {u : Unicode} {at_ : List Char → LineColumn → Prop} {before text : List Char} {ts : List Token}
    (h : Hampi.Spec.Tiles u at_ before text ts) : ∀ t ∈ ts, t.type = .comment → ∃ b, t.text = '-' :: '-' :: b := by
  induction h with
  | done => intro t ht; cases ht
  | @token before gap raw rest t ts _ _ hs hk _ _ ih =>
    intro t' ht hc
    rcases List.mem_cons.mp ht with rfl | ht
    · rw [hc] at hs hk
      obtain ⟨b, hb, -⟩ := hs
      exact ⟨b, Eq.trans hk hb⟩
    · exact ih t' ht hc

theorem all2_same_refl (ts : List Token) : All2 Hampi.Spec.Same ts ts := by
  induction ts with
  | nil => exact .nil
  | cons t ts ih =>
    refine .cons ⟨rfl, ?_⟩ ih
    split
    · exact .inl rfl
    · rfl
    · rfl

/-- The tokenizer and the parser read what a text spells. -/
theorem spells_read {u : Unicode} {text : List Char} {ms : List ParsedModule} (h : Spells u text ms) :
    ∃ n₀, ∀ n, n₀ ≤ n → readArg u n (.text text) = .ok ms := by
  obtain ⟨ts, ht, hm⟩ := h
  obtain ⟨z, hz, hw⟩ := modulesNote_last (hm ts (all2_same_refl ts))
  have hne : text ≠ [] := by
    rintro rfl
    generalize htext : ([] : List Char) = text at ht
    cases ht with
    | done => cases hz
    | token _ hr => simp at htext; exact hr htext.2.1
  have hlast : ∀ t, ts.getLast? = some t → t.text ∉ [['['], [']'], ['-'], ['@']] := by
    intro t hl
    by_cases hc : t.type = .comment
    · obtain ⟨b, hb⟩ := tiles_comment ht t (List.mem_of_getLast? hl) hc
      rw [hb]
      simp
    · have : (ts.filter fun t => !t.is .comment).getLast? = some t := by
        obtain ⟨l, rfl⟩ := List.getLast?_eq_some_iff.mp hl
        rw [List.filter_append]
        simp [Token.is, hc]
      rw [hz] at this
      cases this
      rw [hw.2]
      decide
  obtain ⟨ts', he, hs⟩ := C94_accepted_partial ht hne (.inr hlast)
  obtain ⟨-, n₀, hn⟩ := Props.C85_written_is_read (hm ts' hs)
  refine ⟨n₀, fun n hle => ?_⟩
  rw [readArg, he]
  simp only [Out.orTokenize, Out.bind, hn n hle, Out.orCompile]

/-! ## The modules of the program -/

theorem addModule_new {ms : List Module} {M : Module} (h : M.name ∉ ms.map Module.name) :
    (addModule ms M).1 = M :: ms := by
  simp only [addModule]
  congr 1
  rw [List.filter_eq_self]
  intro N hN
  simp only [bne_iff_ne, ne_eq]
  exact fun e => h (List.mem_map.mpr ⟨N, hN, e⟩)

theorem foldl_addModule {ms : List Module} {l : List Module}
    (h : (l.map Module.name ++ ms.map Module.name).Nodup) :
    l.foldl (fun ms M => (addModule ms M).1) ms = l.reverse ++ ms := by
  induction l generalizing ms with
  | nil => rfl
  | cons M l ih =>
    rw [List.map_cons, List.cons_append, List.nodup_cons, List.mem_append, not_or] at h
    rw [List.foldl_cons, addModule_new h.1.2, ih, List.reverse_cons, List.append_assoc]
    · rfl
    · rw [List.map_cons]
      have := (List.nodup_cons (a := M.name) (l := l.map Module.name ++ ms.map Module.name)).mpr
        ⟨by rw [List.mem_append, not_or]; exact h.1, h.2⟩
      exact (List.perm_middle (a := M.name)).symm.nodup_iff.mp this |> fun h => by simpa using h

theorem toModule_name (u : Unicode) (n : Nat) (M : ParsedModule) : (M.toModule u n).name = M.name := rfl

theorem addModules_eq {u : Unicode} {n : Nat} {ms : List Module} {pms : List ParsedModule}
    (h : (pms.map ParsedModule.name ++ ms.map Module.name).Nodup) :
    addModules u n ms pms = pms.map (·.toModule u n) ++ ms := by
  have h1 : addModules u n ms pms = (pms.map (·.toModule u n)).reverse.foldl (fun ms M => (addModule ms M).1) ms := by
    rw [addModules, ← List.map_reverse, List.foldl_map]
  rw [h1, foldl_addModule, List.reverse_reverse]
  rw [List.map_reverse, List.map_map]
  have h2 : (Module.name ∘ fun x : ParsedModule => x.toModule u n) = ParsedModule.name := rfl
  rw [h2]
  exact ((List.reverse_perm _).append_right _).nodup_iff.mpr h

/-- The modules of all files. -/
theorem readArgs_reads {u : Unicode} {files : List (List Char × List ParsedModule)}
    (hf : ∀ f ∈ files, Spells u f.1 f.2) :
    ∃ n₀, ∀ n, n₀ ≤ n → ∀ ms : List Module,
      ((files.flatMap (·.2)).map ParsedModule.name ++ ms.map Module.name).Nodup →
      ∃ ms', readArgs u n ms (files.map fun f => .text f.1) = .ok ms' ∧
        ms'.Perm ((files.flatMap (·.2)).map (·.toModule u n) ++ ms) := by
  induction files with
  | nil => exact ⟨0, fun n _ ms _ => ⟨ms, rfl, List.Perm.refl _⟩⟩
  | cons f files ih =>
    obtain ⟨n1, h1⟩ := spells_read (hf f List.mem_cons_self)
    obtain ⟨n2, h2⟩ := ih fun g hg => hf g (List.mem_cons_of_mem _ hg)
    refine ⟨max n1 n2, fun n hn ms hnd => ?_⟩
    rw [List.flatMap_cons, List.map_append, List.append_assoc] at hnd
    have hnd1 : (f.2.map ParsedModule.name ++ ms.map Module.name).Nodup := by
      rw [List.nodup_append] at hnd ⊢
      obtain ⟨g1, g2, g3⟩ := hnd
      exact ⟨g1, (List.nodup_append.mp g2).2.1, fun a ha b hb => g3 a ha b (List.mem_append_right _ hb)⟩
    obtain ⟨ms', h3, h4⟩ := h2 n (by omega) (f.2.map (·.toModule u n) ++ ms) (by
      rw [List.map_append, List.map_map]
      have h2 : (Module.name ∘ fun x : ParsedModule => x.toModule u n) = ParsedModule.name := rfl
      rw [h2]
      refine (List.Perm.nodup_iff ?_).mp hnd
      rw [← List.append_assoc, ← List.append_assoc]
      exact (List.perm_append_comm).append_right _)
    refine ⟨ms', ?_, h4.trans ?_⟩
    · rw [List.map_cons, readArgs, h1 n (by omega)]
      simp only [Out.bind]
      rw [addModules_eq hnd1]
      exact h3
    · rw [List.flatMap_cons, List.map_append, ← List.append_assoc]
      exact (List.perm_append_comm).append_right _

end Hampi.Compiler
