import Verif.Props.Order
import Verif.Compiler.Modules
import Verif.Compiler.ParserDefs
/-!
# Information object classes across modules (C103)
-/
namespace Hampi.Compiler.Props
open _root_.Hampi.Compiler.Spec

/-- The module defines the class `k` with these fields. -/
def DefinesClass (M : Module) (k : Text) (fs : List (Text × ClassField)) : Prop :=
  ∃ d, (k, d) ∈ M.definitions ∧ d.kind = .class fs

/-- Classes of the same name, in different modules or not, are the same. -/
def ClassesAgree (ms : List Module) : Prop :=
  ∀ M ∈ ms, ∀ N ∈ ms, ∀ k fs gs, DefinesClass M k fs → DefinesClass N k gs → fs = gs

/-- All classes of the module are known. -/
def ClassesKnown (R : Resolver) (M : Module) : Prop := ∀ k fs, DefinesClass M k fs → get R.classes k = some fs

theorem addClasses_get (P : Text → List (Text × ClassField) → Prop) (R : Resolver)
    (defs : List (Text × Definition)) (hP : ∀ k d fs, (k, d) ∈ defs → d.kind = .class fs → P k fs)
    (hu : ∀ k fs gs, P k fs → P k gs → fs = gs) (k : Text) (fs : List (Text × ClassField)) (h : P k fs) :
    (get R.classes k = some fs → get (addClasses R defs).classes k = some fs) ∧
      ((∃ d, (k, d) ∈ defs ∧ d.kind = .class fs) → get (addClasses R defs).classes k = some fs) := by
  unfold addClasses
  dsimp only
  generalize R.classes = m
  induction defs generalizing m with
  | nil => exact ⟨id, fun ⟨_, h, _⟩ => nomatch h⟩
  | cons d defs ih =>
    rw [List.foldl_cons]
    obtain ⟨j, d⟩ := d
    have hP' := fun k d fs hk => hP k d fs (List.mem_cons_of_mem _ hk)
    have key : ∀ gs, d.kind = .class gs → get (put m j gs) k = if j = k then some fs else get m k := by
      intro gs hg
      rw [get_put]
      split
      · next e =>
        subst e
        rw [hu j gs fs (hP j d gs List.mem_cons_self hg) h]
      · rfl
    refine ⟨fun hm => (ih hP' _).1 ?_, fun ⟨e, he, hk⟩ => ?_⟩
    · dsimp only
      split
      · next gs hg =>
        rw [key gs hg]
        by_cases e : j = k
        · rw [if_pos e]
        · rw [if_neg e]; exact hm
      · exact hm
    · rcases List.mem_cons.mp he with he | he
      · cases he
        refine (ih hP' _).1 ?_
        dsimp only
        rw [hk]
        dsimp only
        rw [get_put, if_pos rfl]
      · exact (ih hP' _).2 ⟨e, he, hk⟩

theorem readDefinition_class {R : Resolver} {M : Module} {x y : Text × Definition} (h : readDefinition R M x = .ok y)
    {fs : List (Text × ClassField)} (hy : y.2.kind = .class fs) : y = x := by
  unfold readDefinition at h
  split at h
  · split at h
    · cases h
    · obtain ⟨v, _, h⟩ := Out.bind_ok.mp h
      cases h; cases hy
  · split at h
    · cases h; rfl
    · cases h
  · split at h
    · cases h
    · obtain ⟨v, _, h⟩ := Out.bind_ok.mp h
      cases h; cases hy
  · cases h; rfl

theorem resolveInOrder_classes {n : Nat} {defs : List (Text × Definition)} {k : Text} {fs : List (Text × ClassField)}
    (hd : ∀ d gs, (k, d) ∈ defs → d.kind = .class gs → gs = fs) : ∀ {order : List Text} {R R' : Resolver},
    resolveInOrder n defs R order = .ok R' → get R.classes k = some fs → get R'.classes k = some fs
  | [], R, R', h, hk => by cases h; exact hk
  | j :: js, R, R', h, hk => by
      rw [resolveInOrder, Out.bind_ok] at h
      obtain ⟨R1, h1, h⟩ := h
      refine resolveInOrder_classes hd h ?_
      unfold resolveOne at h1
      split at h1
      · cases h1; exact hk
      next d hg =>
      split at h1
      · cases h1; exact hk
      · split at h1
        · next gs hgs =>
          cases h1
          rw [get_put]
          split
          · next e =>
            subst e
            rw [hd d gs (get_mem hg) hgs]
          · exact hk
        · obtain ⟨x, _, h1⟩ := Out.bind_ok.mp h1
          cases h1; exact hk

/-- A module that is resolved makes its classes known and leaves those of others known. -/
theorem resolvesModule_classes {ms : List Module} (ha : ClassesAgree ms) {n : Nat} {R R' : Resolver} {M : Module}
    (hM : M ∈ ms) (h : ResolvesModule n R M (.ok R')) :
    (∀ N ∈ ms, ClassesKnown R N → ClassesKnown R' N) ∧ ClassesKnown R' M := by
  obtain ⟨defs, order, h1, _, h3⟩ := resolvesModule_ok h
  have hread := mapOut_ok h1
  have hclass : ∀ k d fs, (k, d) ∈ defs → d.kind = .class fs → DefinesClass M k fs := by
    intro k d fs hk hf
    obtain ⟨x, hx, hr⟩ := hread.mem_right _ hk
    have := readDefinition_class hr hf
    subst this
    exact ⟨d, hx, hf⟩
  have hadd := addClasses_get (fun k fs => ∃ N ∈ ms, DefinesClass N k fs) R M.definitions
    (fun k d fs hk hf => ⟨M, hM, d, hk, hf⟩) (fun k fs gs ⟨A, hA, a⟩ ⟨B, hB, b⟩ => ha A hA B hB k fs gs a b)
  refine ⟨fun N hN hkn k fs hdef => ?_, fun k fs hdef => ?_⟩
  · exact resolveInOrder_classes (fun d gs hd hg => ha M hM N hN k gs fs (hclass k d gs hd hg) hdef) h3
      ((hadd k fs ⟨N, hN, hdef⟩).1 (hkn k fs hdef))
  · exact resolveInOrder_classes (fun d gs hd hg => ha M hM M hM k gs fs (hclass k d gs hd hg) hdef) h3
      ((hadd k fs ⟨M, hM, hdef⟩).2 hdef)

/-- When the turn of a module comes, the modules before it have made their classes known. -/
theorem resolvesOrder_classes {ms : List Module} (ha : ClassesAgree ms) {n : Nat} :
    ∀ {order : List Text} {R R' : Resolver} {a b : List Text} {x : Text}, ResolvesOrder n ms order R (.ok R') →
      order = a ++ x :: b → (done : List Module) → (∀ N ∈ done, N ∈ ms ∧ ClassesKnown R N) →
      ∃ R1 R2 M, getModule ms x = some M ∧ ResolvesModule n R1 M (.ok R2) ∧ (∀ N ∈ done, ClassesKnown R1 N) ∧
        ∀ y ∈ a, ∃ N, getModule ms y = some N ∧ ClassesKnown R1 N
  | [], _, _, a, _, _, _, e, _, _ => by cases a <;> cases e
  | k :: ks, R, R', a, b, x, h, e, done, hdone => by
      rw [ResolvesOrder] at h
      split at h
      · cases h
      next M hM =>
      obtain ⟨r1, h1, h2⟩ := h
      cases r1 with
      | ok R1 =>
        cases a with
        | nil =>
          cases e
          exact ⟨R, R1, M, hM, h1, fun N hN => (hdone N hN).2, nofun⟩
        | cons k' a =>
          cases e
          have hmem : M ∈ ms := List.mem_of_find?_eq_some hM
          obtain ⟨g1, g2⟩ := resolvesModule_classes ha hmem h1
          obtain ⟨R2, R3, L, q1, q2, q3, q4⟩ := resolvesOrder_classes ha (a := a) (b := b) (x := x) h2 rfl (M :: done)
            (by
              intro N hN
              rcases List.mem_cons.mp hN with rfl | hN
              · exact ⟨hmem, g2⟩
              · exact ⟨(hdone N hN).1, g1 N (hdone N hN).1 (hdone N hN).2⟩)
          refine ⟨R2, R3, L, q1, q2, fun N hN => q3 N (List.mem_cons_of_mem _ hN), fun y hy => ?_⟩
          rcases List.mem_cons.mp hy with rfl | hy
          · exact ⟨M, hM, q3 M List.mem_cons_self⟩
          · exact q4 y hy
      | err => cases h2
      | panic => cases h2
      | diverge => cases h2

theorem getModule_of_mem {ms : List Module} (hn : (ms.map Module.name).Nodup) {M : Module} (hM : M ∈ ms) :
    getModule ms M.name = some M := by
  unfold getModule
  induction ms with
  | nil => cases hM
  | cons N ms ih =>
    rw [List.map_cons, List.nodup_cons] at hn
    rw [List.find?_cons]
    rcases List.mem_cons.mp hM with rfl | hM
    · simp
    · have : N.name ≠ M.name := fun e => hn.1 (e ▸ List.mem_map.mpr ⟨M, hM, rfl⟩)
      rw [show (N.name == M.name) = false by simpa using this]
      exact ih hn.2 hM

/-- **C103**, in part: when all modules have been resolved, every object of a module that is not part of an import
cycle, whose class is defined in the same module or imported from the module that defines it, has been read
according to that class; the same for object sets. (Missing: different classes of the same name in different
modules.) -/
theorem C103_objects_read_partial (n : Nat) (ms : List Module) (R : Resolver) (hn : (ms.map Module.name).Nodup)
    (ha : ClassesAgree ms) (h : ResolvesModules n {} ms (.ok R)) (M N : Module) (hM : M ∈ ms) (hN : N ∈ ms)
    (hc : ¬ Cyclic (moduleNeeds ms) M.name) (cls : Text) (fs : List (Text × ClassField))
    (hcls : DefinesClass N cls fs) (hi : N = M ∨ (cls, N.name) ∈ M.imports) (k : Text) (d : Definition)
    (hd : (k, d) ∈ M.definitions) :
    (∀ s, d.kind = .object cls (.input s) → ∃ v, M.readObject s fs = .ok v) ∧
      (∀ root add, d.kind = .objectSet cls root add → ∃ v, M.readSet (root, add) fs = .ok v) := by
  unfold ResolvesModules at h
  split at h
  rotate_left
  · cases h
  obtain ⟨order, hs, ho⟩ := h
  have hmem : M.name ∈ order :=
    (hs.mem_iff (.inl ⟨_, List.mem_map.mpr ⟨M, hM, rfl⟩⟩)).mpr hc
  have hsplit : ∃ a b, order = a ++ M.name :: b ∧ (N = M ∨ N.name ∈ a) := by
    rcases hi with rfl | hi
    · obtain ⟨a, b, e⟩ := List.append_of_mem hmem
      exact ⟨a, b, e, .inl rfl⟩
    · have hneeds : Needs (moduleNeeds ms) M.name N.name :=
        ⟨_, List.mem_map.mpr ⟨M, hM, rfl⟩, List.mem_map.mpr ⟨_, hi, rfl⟩⟩
      obtain ⟨p, q, r, e⟩ := hs.before hmem hneeds
      exact ⟨p ++ N.name :: q, r, by rw [e, List.append_assoc, List.cons_append], .inr (by simp)⟩
  obtain ⟨a, b, e, hN'⟩ := hsplit
  obtain ⟨R1, R2, M', h1, h2, _, h4⟩ := resolvesOrder_classes ha ho e [] nofun
  rw [getModule_of_mem hn hM] at h1
  cases h1
  have hknown : get (addClasses R1 M.definitions).classes cls = some fs := by
    have hadd := addClasses_get (fun k fs => ∃ N ∈ ms, DefinesClass N k fs) R1 M.definitions
      (fun k d fs hk hf => ⟨M, hM, d, hk, hf⟩) (fun k fs gs ⟨A, hA, a⟩ ⟨B, hB, b⟩ => ha A hA B hB k fs gs a b)
      cls fs ⟨N, hN, hcls⟩
    rcases hN' with rfl | hN'
    · exact hadd.2 hcls
    · obtain ⟨N', g1, g2⟩ := h4 _ hN'
      rw [getModule_of_mem hn hN] at g1
      cases g1
      exact hadd.1 (g2 cls fs hcls)
  obtain ⟨defs, _, h5, _, _⟩ := resolvesModule_ok h2
  obtain ⟨y, _, hy⟩ := (mapOut_ok h5).mem_left _ hd
  unfold readDefinition at hy
  refine ⟨fun s hk => ?_, fun root add hk => ?_⟩
  · rw [hk] at hy
    dsimp only at hy
    rw [hknown] at hy
    obtain ⟨v, hv, _⟩ := Out.bind_ok.mp hy
    exact ⟨v, hv⟩
  · rw [hk] at hy
    dsimp only at hy
    rw [hknown] at hy
    obtain ⟨v, hv, _⟩ := Out.bind_ok.mp hy
    exact ⟨v, hv⟩

/-! An example: the module `B` imports a class from the module `A` and defines an object of it. -/

/-- `&x BOOLEAN`, written after the word. -/
def fieldOf (word : String) : List (Text × ClassField) :=
  [("&x".toList, .fixedTypeValue "&x".toList (.mk .boolean none) false false none (some word.toList))]

/-- A module that reads objects only of the class whose field is written after the word. -/
def readerOf (word : String) (name : Text) (imports : List (Text × Text)) (defs : List (Text × Assignment)) : Module where
  name := name
  imports := imports
  definitions := defs.map fun d => (d.1, ⟨d.2, none⟩)
  readObject := fun _ fs => if (fs.map fun f => f.2.syntaxWords) = [some word.toList] then .ok (.fields []) else .err .parse
  readSet := fun _ _ => .err .parse

/-- `A`, with the class `C`. -/
def classModule (name : String) (word : String) : Module :=
  readerOf word name.toList [] [("C".toList, .class (fieldOf word))]

/-- `B`, with the object `o` of the class `C` from `A`. -/
def objectModule (word : String) (others : List (Text × Text)) : Module :=
  readerOf word "B".toList (("C".toList, "A".toList) :: others) [("o".toList, .object "C".toList (.input "{X y}".toList))]

def classExample : List Module := [classModule "A" "X", objectModule "X" []]

theorem classExample_resolved : ResolvesModules 5 {} classExample
    (.ok { resolved := [("o".toList, .object ⟨[]⟩)], classes := [("C".toList, fieldOf "X")] }) := by
  unfold ResolvesModules
  rw [if_pos (by decide)]
  refine ⟨["A".toList, "B".toList],
    .round (popped := ["A".toList]) (rest := ["B".toList]) (by decide) (by decide)
      (.round (popped := ["B".toList]) (rest := []) (by decide) (by decide) (.done (by decide))), ?_⟩
  refine ⟨.ok { classes := [("C".toList, fieldOf "X")] },
    ⟨["C".toList], .round (popped := ["C".toList]) (rest := []) (by decide) (by decide) (.done (by decide)), rfl⟩, ?_⟩
  exact ⟨.ok _, ⟨["o".toList], .round (popped := ["o".toList]) (rest := []) (by decide) (by decide)
    (.done (by decide)), rfl⟩, rfl⟩

/-- The object has been read, with the class of `A`. -/
example : ∃ v, (objectModule "X" []).readObject "{X y}".toList (fieldOf "X") = .ok v := by
  have ha : ClassesAgree classExample := by
    have key : ∀ M ∈ classExample, ∀ k fs, DefinesClass M k fs → fs = fieldOf "X" := by
      rintro M hM k fs ⟨d, hd, hk⟩
      simp only [classExample, List.mem_cons, List.not_mem_nil, or_false] at hM
      rcases hM with rfl | rfl
      · simp only [classModule, readerOf, List.map_cons, List.map_nil, List.mem_cons, List.not_mem_nil, or_false] at hd
        cases hd
        cases hk
        rfl
      · simp only [objectModule, readerOf, List.map_cons, List.map_nil, List.mem_cons, List.not_mem_nil, or_false] at hd
        cases hd
        cases hk
    intro M hM N hN k fs gs h1 h2
    rw [key M hM k fs h1, key N hN k gs h2]
  have hc : ¬ Cyclic (moduleNeeds classExample) "B".toList := by
    have hs : Sorted (moduleNeeds classExample) ["A".toList, "B".toList] :=
      .round (popped := ["A".toList]) (rest := ["B".toList]) (by decide) (by decide)
        (.round (popped := ["B".toList]) (rest := []) (by decide) (by decide) (.done (by decide)))
    exact (hs.mem_iff (.inl ⟨["A".toList], by decide⟩)).mp (by decide)
  exact (C103_objects_read_partial 5 classExample _ (by decide) ha classExample_resolved (objectModule "X" []) (classModule "A" "X")
    (List.mem_cons_of_mem _ List.mem_cons_self) List.mem_cons_self hc "C".toList (fieldOf "X")
    ⟨⟨.class (fieldOf "X"), none⟩, List.mem_cons_self, rfl⟩ (.inr List.mem_cons_self) "o".toList
    ⟨.object "C".toList (.input "{X y}".toList), none⟩ List.mem_cons_self).1 _ rfl

/-- `B` imports the class `C` from `A`, and something else from `D`, which has a class `C`, too. -/
def confusedExample : List Module :=
  [classModule "A" "X", classModule "D" "Y", objectModule "Y" [("d".toList, "D".toList)]]

/-- **C103, violated**: classes are known by their names alone. Here the object of the class `C` of `A` is read
with the fields of the class `C` of `D`; with those of `A` it cannot be read. -/
theorem C103_same_name_violated :
    (∃ R, ResolvesModules 5 {} confusedExample (.ok R)) ∧
    ∃ M ∈ confusedExample, ∃ N ∈ confusedExample, ∃ fs, DefinesClass N "C".toList fs ∧
      ("C".toList, N.name) ∈ M.imports ∧ ("o".toList, ⟨.object "C".toList (.input "{X y}".toList), none⟩) ∈ M.definitions ∧
      ∀ v, M.readObject "{X y}".toList fs ≠ .ok v := by
  refine ⟨⟨{ resolved := [("o".toList, .object ⟨[]⟩)], classes := [("C".toList, fieldOf "Y")] }, ?_⟩,
    objectModule "Y" [("d".toList, "D".toList)], by simp [confusedExample], classModule "A" "X", by simp [confusedExample], fieldOf "X",
    ⟨⟨.class (fieldOf "X"), none⟩, List.mem_cons_self, rfl⟩, List.mem_cons_self, List.mem_cons_self, fun v h => ?_⟩
  · unfold ResolvesModules
    rw [if_pos (by decide)]
    refine ⟨["A".toList, "D".toList, "B".toList],
      .round (popped := ["A".toList, "D".toList]) (rest := ["B".toList]) (by decide) (by decide)
        (.round (popped := ["B".toList]) (rest := []) (by decide) (by decide) (.done (by decide))), ?_⟩
    refine ⟨.ok { classes := [("C".toList, fieldOf "X")] },
      ⟨["C".toList], .round (popped := ["C".toList]) (rest := []) (by decide) (by decide) (.done (by decide)), rfl⟩, ?_⟩
    refine ⟨.ok { classes := [("C".toList, fieldOf "Y")] },
      ⟨["C".toList], .round (popped := ["C".toList]) (rest := []) (by decide) (by decide) (.done (by decide)), rfl⟩, ?_⟩
    exact ⟨.ok _, ⟨["o".toList], .round (popped := ["o".toList]) (rest := []) (by decide) (by decide)
      (.done (by decide)), rfl⟩, rfl⟩
  · have : (objectModule "Y" [("d".toList, "D".toList)]).readObject "{X y}".toList (fieldOf "X") = .err .parse := rfl
    rw [this] at h
    cases h

end Hampi.Compiler.Props
