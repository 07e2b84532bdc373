import Verif.Props.NewerSchema
import Verif.Props.ObjectExample
/-!
# An example for C122: an object set that grows

The schema of `ObjectExample`, with an object set of two objects, is a newer version of the same schema with one
object, and of the one with none.
-/
namespace Hampi.Compiler.Props
namespace NewerExample
open _root_.Hampi.Compiler.Spec
open ObjectExample (constsParsed typesParsed classParsed msgsParsed msgsRead typeA typeId iesFields fieldType fieldTokens objectOf consts types classes
  objectSchema idOf num ies_unique type_of field_expanded object_schema_proper)

/-- The module with the messages, with these elements in the set. -/
def msgsWith (es : List SetElement) : Module :=
  { msgsParsed.toModule ascii 30 with
    definitions := [("Field".toList, ⟨.type (fieldType "S".toList), some (applyParams 30 ["S".toList] fieldTokens)⟩),
     ("Msg".toList, ⟨.type (.mk (.parameterized "Field".toList [.set "Set".toList]) (some [])), none⟩),
     ("Set".toList, ⟨.objectSet "IES".toList es [], none⟩)] }

@[inherit_doc msgsWith]
def schemaWith (es : List SetElement) : List Module := [consts, types, classes, msgsWith es]

/-- `{ { ID id-B TYPE B } }`. -/
def oneObject : List SetElement := [.object (.fields (objectOf "id-B".toList "B".toList))]

/-- The same as it is written. -/
def oneInput : List SetElement := [.object (.input "{ ID id-B TYPE B }".toList)]

theorem set_read : parseObjectsOfSet ascii 30 (oneInput, []) iesFields = .ok (oneObject, []) := by
  with_unfolding_all rfl

theorem none_read : parseObjectsOfSet ascii 30 ([], []) iesFields = .ok ([], []) := by
  with_unfolding_all rfl

theorem read_with {es fs : List SetElement} (h : parseObjectsOfSet ascii 30 (es, []) iesFields = .ok (fs, [])) :
    ReadAs (schemaWith es) (schemaWith fs) := by
  refine .cons ⟨rfl, rfl, ?_⟩ (.cons ⟨rfl, rfl, ?_⟩ (.cons ⟨rfl, rfl, ?_⟩ (.cons ⟨rfl, rfl, ?_⟩ .nil)))
  · exact .cons (.other (fun _ _ h => nomatch h) (fun _ _ _ h => nomatch h))
      (.cons (.other (fun _ _ h => nomatch h) (fun _ _ _ h => nomatch h)) .nil)
  · exact .cons (.other (fun _ _ h => nomatch h) (fun _ _ _ h => nomatch h))
      (.cons (.other (fun _ _ h => nomatch h) (fun _ _ _ h => nomatch h)) .nil)
  · exact .cons (.other (fun _ _ h => nomatch h) (fun _ _ _ h => nomatch h)) .nil
  · refine .cons (.other (fun _ _ h => nomatch h) (fun _ _ _ h => nomatch h))
      (.cons (.other (fun _ _ h => nomatch h) (fun _ _ _ h => nomatch h))
        (.cons (.objectSet (K := classes) (cf := iesFields) (.imported ⟨?_, ?_, ?_⟩) h) .nil))
    · simp [msgsWith, ParsedModule.toModule, msgsParsed, classParsed]
    · simp [schemaWith]
    · simp [ParsedModule.toModule, classParsed]

variable {es : List SetElement}

theorem id_described {lax : Bool} {σ : Scope} :
    Describes lax (schemaWith es) σ typeId (.integer .u8 (some 0) (some 255) false) :=
  .boundedInteger (ns := noNames) (fun _ _ h => nomatch h) (bounded_range noNames_proper
    (.inl (num ⟨by decide, by decide⟩ (by decide))) (.inl (num ⟨by decide, by decide⟩ (by decide)))
    (by decide) (by decide) (by decide)) (.unsigned (by decide) (by decide) rfl (by decide) (.inl rfl))

theorem a_described {lax : Bool} {σ : Scope} :
    Describes lax (schemaWith es) σ typeA (.integer .u8 (some 0) (some 7) false) :=
  .boundedInteger (ns := noNames) (fun _ _ h => nomatch h) (bounded_range noNames_proper
    (.inl (num ⟨by decide, by decide⟩ (by decide))) (.inl (num ⟨by decide, by decide⟩ (by decide)))
    (by decide) (by decide) (by decide)) (.unsigned (by decide) (by decide) rfl (by decide) (.inl rfl))

theorem sees_b : Sees (schemaWith es) (msgsWith es) "B".toList types ⟨.type (.mk .boolean (some [])), none⟩ :=
  .imported ⟨.tail _ (.head _), .tail _ (.head _), .tail _ (.head _)⟩

theorem sees_class : Sees (schemaWith es) (msgsWith es) "IES".toList classes ⟨.class iesFields, none⟩ :=
  .imported ⟨.tail _ (.tail _ (.head _)), .tail _ (.tail _ (.head _)), .head _⟩

theorem refB_described {lax : Bool} : Describes lax (schemaWith es) (.module (msgsWith es))
    (.mk (.reference "B".toList) (some [])) .boolean := .reference (.inl (.inr rfl)) sees_b (.boolean (.inr rfl))

theorem imports_idB : Imports (schemaWith es) (msgsWith es) "id-B".toList consts ⟨idOf "7", none⟩ :=
  ⟨.tail _ (.tail _ (.tail _ (.tail _ (.head _)))), .head _, .tail _ (.head _)⟩

theorem idA_number : DefinesNumber (schemaWith es) consts (idOf "1") 1 :=
  ⟨_, _, none, rfl, .here nofun, num ⟨by decide, by decide⟩ (by decide), by decide⟩

theorem idB_number : DefinesNumber (schemaWith es) consts (idOf "7") 7 :=
  ⟨_, _, none, rfl, .here nofun, num ⟨by decide, by decide⟩ (by decide), by decide⟩

theorem keyB : KeyOf (schemaWith es) (msgsWith es, objectOf "id-B".toList "B".toList) "&id".toList "id-B".toList 7 :=
  ⟨_, _, _, .tail _ (.head _), imports_idB, idB_number⟩

theorem keyB_of {n : Text} {k : Int}
    (h : KeyOf (schemaWith es) (msgsWith es, objectOf "id-B".toList "B".toList) "&id".toList n k) :
    n = "id-B".toList ∧ k = 7 := by
  obtain ⟨ty', N, a, hm, ⟨h1, h2, h3⟩, ty'', num', named, rfl, -, h5, -⟩ := h
  have hn : n = "id-B".toList := by
    rcases List.mem_cons.mp hm with h | h
    · cases h
    · cases List.mem_singleton.mp h; rfl
  subst hn
  have hN : N.name = "Consts".toList :=
    (by decide : ∀ p ∈ msgsParsed.imports, p.1 = "id-B".toList → p.2 = "Consts".toList) _ h1 rfl
  have : N = consts := by
    rcases List.mem_cons.mp h2 with rfl | h2
    · rfl
    rcases List.mem_cons.mp h2 with rfl | h2
    · exact absurd hN (by decide)
    rcases List.mem_cons.mp h2 with rfl | h2
    · exact absurd hN (by decide)
    cases List.mem_singleton.mp h2
    exact absurd (show msgsParsed.name = "Consts".toList from hN) (by decide)
  subst this
  rcases List.mem_cons.mp h3 with h | h
  · exact absurd (show "id-B".toList = "id-A".toList from congrArg Prod.fst h) (by decide)
  · have hk := congrArg (fun d : Text × Definition => d.2.kind) (List.mem_singleton.mp h)
    cases hk
    exact ⟨rfl, Hampi.Spec.Numeral.unique h5 (num ⟨by decide, by decide⟩ (by decide))⟩

/-- The scope of the instance `Field {{Set}}`. -/
abbrev inField (es : List SetElement) : Scope := .inst ["Set".toList] (.module (msgsWith es)) (msgsWith es)

/-! ## One object -/

/-- The table of the set. -/
def oneTable : ObjectTable :=
  ⟨"Set".toList, "IES".toList, classes, iesFields, "&id".toList,
    [(msgsWith oneObject, objectOf "id-B".toList "B".toList)], "id".toList⟩

theorem table_in : TableIn (schemaWith oneObject) (inField oneObject) oneTable where
  seen := ⟨msgsWith oneObject, _, _, .inl ⟨.head _, .own (.tail _ (.tail _ (.head _)))⟩, sees_class, .object .nil⟩
  unique := ies_unique
  objects := nofun
  differ := by
    intro o ho p hp n m k h1 h2
    cases List.mem_singleton.mp ho
    cases List.mem_singleton.mp hp
    rfl

/-- The alternatives of the open type. -/
def oneType : List (Text × Int × Module × AsnType) :=
  [("id-B".toList, 7, msgsWith oneObject, .mk (.reference "B".toList) (some []))]

theorem the_types : Alternatives (schemaWith oneObject) oneTable "&Value".toList oneType where
  sorted := .cons nofun .nil
  all := by
    intro name k N ty
    constructor
    · intro h
      cases List.mem_singleton.mp h
      exact ⟨_, .head _, keyB, .head _⟩
    · rintro ⟨fs, h1, h2, h3⟩
      cases List.mem_singleton.mp h1
      obtain ⟨rfl, rfl⟩ := keyB_of h2
      rw [type_of h3]
      exact .head _
  references := by
    intro name k N ty h
    cases List.mem_singleton.mp h; exact ⟨_, _, rfl, .inr rfl⟩

/-- What `Msg` is with one object. -/
def oneTy : Ty :=
  .sequence false 0 (.required true (.integer .u8 (some 0) (some 255) false)
    (.required false (.openType (.cons 7 false .boolean .nil)) .nil))

theorem one_described {lax : Bool} : Describes lax (schemaWith oneObject) (.module (msgsWith oneObject))
    (.mk (.parameterized "Field".toList [.set "Set".toList]) (some [])) oneTy := by
  refine .parameterized (.inr rfl) (.own (.head _)) field_expanded (by decide) ?_
  refine .table (T := oneTable) (.inr rfl) nofun table_in ?_
  refine .key (T := oneTable) (.simple (S := "Set".toList)) (.tail _ (.head _)) id_described ?_
  exact .openType (T := oneTable) (l := oneType) (.relation (S := "Set".toList)) (.head _) the_types
    (.cons (k := 7) refB_described .nil) .nil

/-! ## No object -/

theorem none_described : Describes true (schemaWith []) (.module (msgsWith []))
    (.mk (.parameterized "Field".toList [.set "Set".toList]) (some [])) (.sequence false 0 .nil) := by
  refine .parameterized (.inr rfl) (.own (.head _)) field_expanded (by decide) ?_
  exact .emptyTable rfl (.inr rfl) (.simple (S := "Set".toList))
    (.inl ⟨.head _, .own (.tail _ (.tail _ (.head _)))⟩) .nil

/-! ## The schemas -/

theorem ids_proper {d : Text × Definition} (hd : d ∈ consts.definitions) : ProperDefinition (schemaWith es) consts d.1 d.2 := by
  rcases List.mem_cons.mp hd with rfl | hd
  · exact .value ⟨_, _, rfl, by decide⟩ (.integer (.inr rfl)) idA_number
  · cases List.mem_singleton.mp hd
    exact .value ⟨_, _, rfl, by decide⟩ (.integer (.inr rfl)) idB_number

theorem types_proper {d : Text × Definition} (hd : d ∈ types.definitions) : ProperDefinition (schemaWith es) types d.1 d.2 := by
  rcases List.mem_cons.mp hd with rfl | hd
  · exact .type a_described
  · cases List.mem_singleton.mp hd
    exact .type (.boolean (.inr rfl))

theorem class_proper {d : Text × Definition} (hd : d ∈ classes.definitions) :
    ProperDefinition (schemaWith es) classes d.1 d.2 := by
  cases List.mem_singleton.mp hd
  refine .class (by decide) fun f id ty u opt d w h => ?_
  rcases List.mem_cons.mp h with h | h
  · cases h
  · cases List.mem_singleton.mp h
    exact ⟨_, id_described⟩

theorem object_proper :
    ProperObject (schemaWith es) (msgsWith es) classes iesFields (objectOf "id-B".toList "B".toList) := by
  refine ⟨by simp only [objectOf, List.map]; decide, fun f hf => ?_⟩
  rcases List.mem_cons.mp hf with rfl | hf
  · exact .type (.head _) refB_described
  · cases List.mem_singleton.mp hf
    exact .value (.tail _ (.head _)) (.named imports_idB)

theorem msgs_proper {t : Ty} (ht : Describes true (schemaWith es) (.module (msgsWith es))
      (.mk (.parameterized "Field".toList [.set "Set".toList]) (some [])) t)
    (hes : ∀ e ∈ es, e ∈ oneObject) {d : Text × Definition} (hd : d ∈ (msgsWith es).definitions) :
    ProperDefinition (schemaWith es) (msgsWith es) d.1 d.2 := by
  rcases List.mem_cons.mp hd with rfl | hd
  · exact .parameterized
  rcases List.mem_cons.mp hd with rfl | hd
  · exact .type ht
  cases List.mem_singleton.mp hd
  refine .objectSet sees_class fun e he => ?_
  rw [List.append_nil] at he
  cases List.mem_singleton.mp (hes e he)
  exact .object object_proper (.inr ⟨_, _, _, ies_unique, keyB⟩)

theorem in_schema {M : Module} (h : M ∈ schemaWith es) : M = consts ∨ M = types ∨ M = classes ∨ M = msgsWith es := by
  simpa [schemaWith] using h

theorem proper_with {t : Ty} (ht : Describes true (schemaWith es) (.module (msgsWith es))
      (.mk (.parameterized "Field".toList [.set "Set".toList]) (some [])) t)
    (hes : ∀ e ∈ es, e ∈ oneObject)
    (hac : ∃ rank : Text → Nat, ∀ d ∈ (msgsWith es).definitions, ∀ e ∈ (msgsWith es).definitions, e.1 ∈ d.2.kind.refs →
      rank e.1 < rank d.1) : ProperSchema (schemaWith es) where
  modules := by
    have := object_schema_proper.modules
    exact this
  definitions := by
    intro M hM
    rcases in_schema hM with rfl | rfl | rfl | rfl
    · decide
    · decide
    · decide
    · exact object_schema_proper.definitions msgsRead (by simp [objectSchema])
  distinct := by
    intro M hM N hN k d e h1 h2
    have g1 : k ∈ M.definitions.map (·.1) := List.mem_map.mpr ⟨_, h1, rfl⟩
    have g2 : k ∈ N.definitions.map (·.1) := List.mem_map.mpr ⟨_, h2, rfl⟩
    clear h1 h2
    have names : (msgsWith es).definitions.map (·.1) = msgsRead.definitions.map (·.1) := rfl
    rcases in_schema hM with rfl | rfl | rfl | rfl <;> rcases in_schema hN with rfl | rfl | rfl | rfl <;>
      first | rfl | (exfalso; (try rw [names] at g1); (try rw [names] at g2); clear names; revert k; decide)
  names := by
    intro M hM
    rcases in_schema hM with rfl | rfl | rfl | rfl <;> exact word_names (by first | decide | rfl)
  imports := by
    intro M hM i hi
    rcases in_schema hM with rfl | rfl | rfl | rfl
    · exact nomatch hi
    · exact nomatch hi
    · exact nomatch hi
    · obtain ⟨⟨N, hN, hn⟩, h2⟩ := object_schema_proper.imports msgsRead (by simp [objectSchema]) i hi
      refine ⟨?_, fun d hd => ?_⟩
      · rcases ObjectExample.in_schema hN with rfl | rfl | rfl | rfl
        · exact ⟨_, .head _, hn⟩
        · exact ⟨_, .tail _ (.head _), hn⟩
        · exact ⟨_, .tail _ (.tail _ (.head _)), hn⟩
        · exact ⟨msgsWith es, .tail _ (.tail _ (.tail _ (.head _))), hn⟩
      · have : d.1 ∈ msgsRead.definitions.map (·.1) := (List.mem_map.mpr ⟨d, hd, rfl⟩ : d.1 ∈ (msgsWith es).definitions.map (·.1))
        obtain ⟨d', hd', e⟩ := List.mem_map.mp this
        rw [← e]
        exact h2 d' hd'
  order := by
    obtain ⟨rank, hr⟩ := object_schema_proper.order
    refine ⟨rank, fun M hM => ?_⟩
    rcases in_schema hM with rfl | rfl | rfl | rfl
    · exact hr consts (by simp [objectSchema])
    · exact hr types (by simp [objectSchema])
    · exact hr classes (by simp [objectSchema])
    · exact hr msgsRead (by simp [objectSchema])
  acyclic := by
    intro M hM
    rcases in_schema hM with rfl | rfl | rfl | rfl
    · exact object_schema_proper.acyclic consts (by simp [objectSchema])
    · exact object_schema_proper.acyclic types (by simp [objectSchema])
    · exact object_schema_proper.acyclic classes (by simp [objectSchema])
    · exact hac
  proper := by
    intro M hM d hd
    rcases in_schema hM with rfl | rfl | rfl | rfl
    · exact ids_proper hd
    · exact types_proper hd
    · exact class_proper hd
    · exact msgs_proper ht hes hd

theorem one_proper : ProperSchema (schemaWith oneObject) :=
  proper_with one_described (fun _ h => h) ⟨fun x => if x = "Msg".toList then 1 else 0, by decide⟩

theorem none_proper : ProperSchema (schemaWith []) :=
  proper_with none_described nofun ⟨fun x => if x = "Msg".toList then 1 else 0, by decide⟩

/-! ## Their versions -/

theorem NewerModule.refl (M : Module) : NewerModule M M := ⟨rfl, fun _ h => h, fun _ d h => ⟨d, h, .same d⟩⟩

theorem newer_with {es' : List SetElement} (h : ∀ e ∈ es, e ∈ es') : NewerModule (msgsWith es) (msgsWith es') := by
  refine ⟨rfl, fun _ h => h, fun x d hd => ?_⟩
  rcases List.mem_cons.mp hd with hd | hd
  · cases hd; exact ⟨_, .head _, .same _⟩
  rcases List.mem_cons.mp hd with hd | hd
  · cases hd; exact ⟨_, .tail _ (.head _), .same _⟩
  cases List.mem_singleton.mp hd
  exact ⟨_, .tail _ (.tail _ (.head _)), .objectSet (by simpa using h)⟩

theorem newer_schema {es' : List SetElement} (h : ∀ e ∈ es, e ∈ es') : NewerSchema (schemaWith es) (schemaWith es') := by
  intro M hM
  rcases in_schema hM with rfl | rfl | rfl | rfl
  · exact ⟨_, .head _, NewerModule.refl _⟩
  · exact ⟨_, .tail _ (.head _), NewerModule.refl _⟩
  · exact ⟨_, .tail _ (.tail _ (.head _)), NewerModule.refl _⟩
  · exact ⟨_, .tail _ (.tail _ (.tail _ (.head _))), newer_with h⟩

/-- The set of `ObjectExample`. -/
def twoObjects : List SetElement :=
  [.object (.fields (objectOf "id-B".toList "B".toList)), .object (.fields (objectOf "id-A".toList "A".toList))]

theorem objectSchema_with : objectSchema = schemaWith twoObjects := rfl

theorem still_empty : StillEmpty (schemaWith oneObject) objectSchema := by
  intro M hM M' hM' S cls root add root' add' h1 _ h3
  rcases in_schema hM with rfl | rfl | rfl | rfl
  · rcases List.mem_cons.mp h1 with h | h
    · cases h
    · cases List.mem_singleton.mp h
  · rcases List.mem_cons.mp h1 with h | h
    · cases h
    · cases List.mem_singleton.mp h
  · cases List.mem_singleton.mp h1
  · rcases List.mem_cons.mp h1 with h | h1
    · cases h
    rcases List.mem_cons.mp h1 with h | h1
    · cases h
    cases List.mem_singleton.mp h1
    cases h3

/-- The theorem applies to the schemas with one and with two objects. -/
example := C122_schema_partial _ _ _ _ (read_with set_read) ObjectExample.objects_read one_proper object_schema_proper
  (newer_schema (es' := twoObjects) fun e he => by cases List.mem_singleton.mp he; exact .head _) still_empty

end NewerExample

open _root_.Hampi.Compiler.Spec

/-- **C122 (violated).** The first object of a set. There is a schema, and a newer version of it in which an empty
object set has got an object, such that the message of no octets is one of the older version for the type `x`, and the
newer one refuses it: without objects the components that are looked up in the set are dropped (C77). -/
theorem C122_first_object_violated :
    ∃ (older newer older' newer' : List Module) (M : Module) (x : Text) (ty : AsnType),
      ReadAs older older' ∧ ReadAs newer newer' ∧ ProperSchema older' ∧ ProperSchema newer' ∧ NewerSchema older' newer' ∧
      M ∈ older' ∧ (x, ⟨.type ty, none⟩) ∈ M.definitions ∧
      ∃ n₀, ∀ n, n₀ ≤ n → ∀ r r', ResolvesModules n {} older r → ResolvesModules n {} newer r' →
        ∃ R R', r = .ok R ∧ r' = .ok R' ∧ ∀ sp sp', ∃ items items', generate sp R = .ok items ∧
          generate sp' R' = .ok items' ∧ ∃ t u, Stands items (typeIdent x) t ∧ Stands items' (typeIdent x) u ∧
            (∃ v s', t.decode (.fromSlice []) = .ok v s') ∧ ∃ s', u.decode (.fromSlice []) = .err s' := by
  refine ⟨_, _, _, _, NewerExample.msgsWith [], "Msg".toList, _, NewerExample.read_with NewerExample.none_read,
    NewerExample.read_with NewerExample.set_read, NewerExample.none_proper, NewerExample.one_proper,
    NewerExample.newer_schema nofun, .tail _ (.tail _ (.tail _ (.head _))), .tail _ (.head _), ?_⟩
  obtain ⟨n1, h1⟩ := C95_schema_compiles _ _ (NewerExample.read_with NewerExample.none_read) NewerExample.none_proper
  obtain ⟨n2, h2⟩ := C95_schema_compiles _ _ (NewerExample.read_with NewerExample.set_read) NewerExample.one_proper
  refine ⟨max n1 n2, fun n hn r r' hr hr' => ?_⟩
  obtain ⟨R, rfl, -, hR⟩ := (h1 n (by omega)).2 r hr
  obtain ⟨R', rfl, -, hR'⟩ := (h2 n (by omega)).2 r' hr'
  refine ⟨R, R', rfl, rfl, fun sp sp' => ?_⟩
  obtain ⟨items, hi, hs⟩ := hR sp
  obtain ⟨items', hi', hs'⟩ := hR' sp'
  exact ⟨items, items', hi, hi', _, _,
    (hs _ (.tail _ (.tail _ (.tail _ (.head _)))) _ _ true _ (.tail _ (.head _)) NewerExample.none_described).1,
    (hs' _ (.tail _ (.tail _ (.tail _ (.head _)))) _ _ true _ (.tail _ (.head _)) NewerExample.one_described).1,
    ⟨_, _, rfl⟩, ⟨_, rfl⟩⟩

end Hampi.Compiler.Props
