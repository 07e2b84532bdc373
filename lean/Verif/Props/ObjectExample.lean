import Verif.Props.Macro
import Verif.Props.Parser
/-!
# An example for C95, C96, C97 and C100: objects and parameterized types

The way the protocols of 3GPP are written: identifiers in one module, types in another, a class, and messages
whose fields are looked up in an object set, through a parameterized type.
-/
namespace Hampi.Compiler.Props.ObjectExample
open _root_.Hampi.Compiler.Spec

/-- Identifiers. -/
def constsText : List Char := "Consts DEFINITIONS ::= BEGIN id-A INTEGER ::= 1 id-B INTEGER ::= 7 END\n".toList

/-- Types. -/
def typesText : List Char := "Types DEFINITIONS ::= BEGIN A ::= INTEGER (0..7) B ::= BOOLEAN END\n".toList

/-- A class. -/
def classText : List Char :=
  "Class DEFINITIONS ::= BEGIN IES ::= CLASS { &id INTEGER (0..255) UNIQUE, &Value } WITH SYNTAX { ID &id TYPE &Value } END\n".toList

/-- Messages. -/
def msgsText : List Char :=
  "Msgs DEFINITIONS ::= BEGIN IMPORTS id-A, id-B FROM Consts A, B FROM Types IES FROM Class;
  Set IES ::= { { ID id-A TYPE A } | { ID id-B TYPE B } , ... }
  Field {IES : S} ::= SEQUENCE { id IES.&id ({S}), value IES.&Value ({S}{@id}) }
  Msg ::= Field {{Set}}
END\n".toList

@[inherit_doc constsText]
def constsParsed : ParsedModule :=
  ⟨"Consts".toList, [],
    [("id-A".toList, ⟨"id-A".toList, .value (.mk (.integer none) (some [])) "1".toList, none⟩),
     ("id-B".toList, ⟨"id-B".toList, .value (.mk (.integer none) (some [])) "7".toList, none⟩)]⟩

/-- `INTEGER (0..7)`. -/
def typeA : AsnType := .mk (.integer none) (some [.subtype (.mk [[.range "0".toList true "7".toList true]] none)])

/-- `INTEGER (0..255)`. -/
def typeId : AsnType := .mk (.integer none) (some [.subtype (.mk [[.range "0".toList true "255".toList true]] none)])

@[inherit_doc typesText]
def typesParsed : ParsedModule :=
  ⟨"Types".toList, [],
    [("A".toList, ⟨"A".toList, .type typeA, none⟩), ("B".toList, ⟨"B".toList, .type (.mk .boolean (some [])), none⟩)]⟩

/-- The fields of the class. -/
def iesFields : List (Text × ClassField) :=
  [("&Value".toList, .type "&Value".toList false none (some "TYPE".toList)),
   ("&id".toList, .fixedTypeValue "&id".toList typeId true false none (some "ID".toList))]

@[inherit_doc classText]
def classParsed : ParsedModule :=
  ⟨"Class".toList, [], [("IES".toList, ⟨"IES".toList, .class iesFields, none⟩)]⟩

/-- The type of `Field`, with the set `S` in it. -/
def fieldType (S : Text) : AsnType :=
  .mk (.sequence
    [.mk "id".toList (.mk (.classField "IES".toList "&id".toList)
        (some [.subtype (.mk [[.single ('{' :: ' ' :: (S ++ [' ', '}']))]] none)])) false none,
     .mk "value".toList (.mk (.classField "IES".toList "&Value".toList)
        (some [.tableRelation S "@id".toList])) false none] [] false) (some [])

/-- The tokens of the type of `Field`. -/
def fieldTokens : List Token :=
  [kw "SEQUENCE", tk .curlyBegin "{", nm "id", nm "IES", tk .dot ".", tk .andIdentifier "&id", tk .roundBegin "(",
    tk .curlyBegin "{", nm "S", tk .curlyEnd "}", tk .roundEnd ")", tk .comma ",", nm "value", nm "IES", tk .dot ".",
    tk .andIdentifier "&Value", tk .roundBegin "(", tk .curlyBegin "{", nm "S", tk .curlyEnd "}", tk .curlyBegin "{",
    tk .atComponentIdList "@id", tk .curlyEnd "}", tk .roundEnd ")", tk .curlyEnd "}"].map Token.unplaced

@[inherit_doc msgsText]
def msgsParsed : ParsedModule :=
  ⟨"Msgs".toList,
    [("A".toList, "Types".toList), ("B".toList, "Types".toList), ("IES".toList, "Class".toList),
     ("id-A".toList, "Consts".toList), ("id-B".toList, "Consts".toList)],
    [("Field".toList, ⟨"Field".toList, .type (fieldType "S".toList), some (["S".toList], fieldTokens)⟩),
     ("Msg".toList, ⟨"Msg".toList, .type (.mk (.parameterized "Field".toList [.set "Set".toList]) (some [])), none⟩),
     ("Set".toList, ⟨"Set".toList, .objectSet "IES".toList
        [.object (.input "{ ID id-A TYPE A }".toList), .object (.input "{ ID id-B TYPE B }".toList)] [], none⟩)]⟩

/-- The four files. -/
def objectFiles : List (List Char × List ParsedModule) :=
  [(constsText, [constsParsed]), (typesText, [typesParsed]), (classText, [classParsed]), (msgsText, [msgsParsed])]

/-! ## The objects -/

/-- `{ ID id-A TYPE A }`, and so on. -/
def objectOf (id ty : Text) : List (Text × ObjectField) :=
  [("&Value".toList, .type (some (.mk (.reference ty) (some [])))), ("&id".toList, .fixedTypeValue typeId (some id))]

/-- The module with the messages, with its objects read. -/
def msgsRead : Module :=
  { msgsParsed.toModule ascii 30 with
    definitions := [("Field".toList, ⟨.type (fieldType "S".toList), some (applyParams 30 ["S".toList] fieldTokens)⟩),
     ("Msg".toList, ⟨.type (.mk (.parameterized "Field".toList [.set "Set".toList]) (some [])), none⟩),
     ("Set".toList, ⟨.objectSet "IES".toList
        [.object (.fields (objectOf "id-B".toList "B".toList)), .object (.fields (objectOf "id-A".toList "A".toList))] [],
        none⟩)] }

@[inherit_doc msgsRead]
abbrev consts : Module := constsParsed.toModule ascii 30
@[inherit_doc msgsRead]
abbrev types : Module := typesParsed.toModule ascii 30
@[inherit_doc msgsRead]
abbrev classes : Module := classParsed.toModule ascii 30

@[inherit_doc msgsRead]
def objectSchema : List Module := [consts, types, classes, msgsRead]

theorem set_read : parseObjectsOfSet ascii 30
    ([.object (.input "{ ID id-A TYPE A }".toList), .object (.input "{ ID id-B TYPE B }".toList)], []) iesFields =
    .ok ([.object (.fields (objectOf "id-B".toList "B".toList)), .object (.fields (objectOf "id-A".toList "A".toList))],
      []) := by
  with_unfolding_all rfl

theorem objects_read : ReadAs (spelled ascii 30 objectFiles) objectSchema := by
  refine .cons ⟨rfl, rfl, ?_⟩ (.cons ⟨rfl, rfl, ?_⟩ (.cons ⟨rfl, rfl, ?_⟩ (.cons ⟨rfl, rfl, ?_⟩ .nil)))
  · exact .cons (.other (fun _ _ h => nomatch h) (fun _ _ _ h => nomatch h))
      (.cons (.other (fun _ _ h => nomatch h) (fun _ _ _ h => nomatch h)) .nil)
  · exact .cons (.other (fun _ _ h => nomatch h) (fun _ _ _ h => nomatch h))
      (.cons (.other (fun _ _ h => nomatch h) (fun _ _ _ h => nomatch h)) .nil)
  · exact .cons (.other (fun _ _ h => nomatch h) (fun _ _ _ h => nomatch h)) .nil
  · refine .cons (.other (fun _ _ h => nomatch h) (fun _ _ _ h => nomatch h))
      (.cons (.other (fun _ _ h => nomatch h) (fun _ _ _ h => nomatch h))
        (.cons (.objectSet (K := classes) (cf := iesFields) (.imported ⟨?_, ?_, ?_⟩) set_read) .nil))
    · simp [ParsedModule.toModule, msgsParsed, classParsed]
    · simp [spelled, objectFiles]
    · simp [ParsedModule.toModule, classParsed]

/-! ## What the types mean -/

theorem num {t : Text} {v : Int} (h : Hampi.Spec.Digits t) (hv : v = Hampi.Spec.decimal t) : Hampi.Spec.Numeral t v :=
  .inl ⟨h, hv⟩

theorem a_described {lax : Bool} {σ : Scope} :
    Describes lax objectSchema σ typeA (.integer .u8 (some 0) (some 7) false) :=
  .boundedInteger (ns := noNames) (fun _ _ h => nomatch h) (bounded_range noNames_proper
    (.inl (num ⟨by decide, by decide⟩ (by decide))) (.inl (num ⟨by decide, by decide⟩ (by decide)))
    (by decide) (by decide) (by decide)) (.unsigned (by decide) (by decide) rfl (by decide) (.inl rfl))

theorem id_described {lax : Bool} {σ : Scope} :
    Describes lax objectSchema σ typeId (.integer .u8 (some 0) (some 255) false) :=
  .boundedInteger (ns := noNames) (fun _ _ h => nomatch h) (bounded_range noNames_proper
    (.inl (num ⟨by decide, by decide⟩ (by decide))) (.inl (num ⟨by decide, by decide⟩ (by decide)))
    (by decide) (by decide) (by decide)) (.unsigned (by decide) (by decide) rfl (by decide) (.inl rfl))

theorem sees_a : Sees objectSchema msgsRead "A".toList types ⟨.type typeA, none⟩ :=
  .imported ⟨.head _, .tail _ (.head _), .head _⟩

theorem sees_b : Sees objectSchema msgsRead "B".toList types ⟨.type (.mk .boolean (some [])), none⟩ :=
  .imported ⟨.tail _ (.head _), .tail _ (.head _), .tail _ (.head _)⟩

theorem sees_class : Sees objectSchema msgsRead "IES".toList classes ⟨.class iesFields, none⟩ :=
  .imported ⟨.tail _ (.tail _ (.head _)), .tail _ (.tail _ (.head _)), .head _⟩

theorem refA_described {lax : Bool} : Describes lax objectSchema (.module msgsRead) (.mk (.reference "A".toList) (some []))
    (.integer .u8 (some 0) (some 7) false) := .reference (.inl (.inr rfl)) sees_a a_described

theorem refB_described {lax : Bool} : Describes lax objectSchema (.module msgsRead) (.mk (.reference "B".toList) (some []))
    .boolean := .reference (.inl (.inr rfl)) sees_b (.boolean (.inr rfl))

/-- `id-A` and `id-B`. -/
def idOf (num : String) : Assignment := .value (.mk (.integer none) (some [])) num.toList

theorem imports_idA : Imports objectSchema msgsRead "id-A".toList consts ⟨idOf "1", none⟩ :=
  ⟨.tail _ (.tail _ (.tail _ (.head _))), .head _, .head _⟩

theorem imports_idB : Imports objectSchema msgsRead "id-B".toList consts ⟨idOf "7", none⟩ :=
  ⟨.tail _ (.tail _ (.tail _ (.tail _ (.head _)))), .head _, .tail _ (.head _)⟩

theorem idA_number : DefinesNumber objectSchema consts (idOf "1") 1 :=
  ⟨_, _, none, rfl, .here nofun, num ⟨by decide, by decide⟩ (by decide), by decide⟩

theorem idB_number : DefinesNumber objectSchema consts (idOf "7") 7 :=
  ⟨_, _, none, rfl, .here nofun, num ⟨by decide, by decide⟩ (by decide), by decide⟩

theorem ies_unique : UniqueField iesFields "&id".toList := by
  refine ⟨⟨_, _, _, _, _, .tail _ (.head _)⟩, fun f id ty opt d w h => ?_⟩
  rcases List.mem_cons.mp h with h | h
  · cases h
  · cases List.mem_singleton.mp h; rfl

/-- The objects of the set. -/
def written : List Written :=
  [(msgsRead, objectOf "id-B".toList "B".toList), (msgsRead, objectOf "id-A".toList "A".toList)]

theorem keyA : KeyOf objectSchema (msgsRead, objectOf "id-A".toList "A".toList) "&id".toList "id-A".toList 1 :=
  ⟨_, _, _, .tail _ (.head _), imports_idA, idA_number⟩

theorem keyB : KeyOf objectSchema (msgsRead, objectOf "id-B".toList "B".toList) "&id".toList "id-B".toList 7 :=
  ⟨_, _, _, .tail _ (.head _), imports_idB, idB_number⟩

theorem key_of {id ty n num : Text} {k v : Int}
    (h : KeyOf objectSchema (msgsRead, objectOf id ty) "&id".toList n k)
    (hi : ∀ p ∈ msgsParsed.imports, p.1 = id → p.2 = "Consts".toList)
    (hd : ∀ p ∈ constsParsed.definitions, p.1 = id → p.2.kind = .value (.mk (.integer none) (some [])) num)
    (hv : Hampi.Spec.Numeral num v) : n = id ∧ k = v := by
  obtain ⟨ty', N, a, hm, ⟨h1, h2, h3⟩, ty'', num', named, rfl, -, h5, -⟩ := h
  have hn : n = id := by
    rcases List.mem_cons.mp hm with h | h
    · cases h
    · cases List.mem_singleton.mp h; rfl
  subst hn
  have hN : N.name = "Consts".toList := hi _ h1 rfl
  have : N = consts := by
    rcases List.mem_cons.mp h2 with rfl | h2
    · rfl
    rcases List.mem_cons.mp h2 with rfl | h2
    · exact absurd hN (by decide)
    rcases List.mem_cons.mp h2 with rfl | h2
    · exact absurd hN (by decide)
    cases List.mem_singleton.mp h2
    exact absurd hN (by decide)
  subst this
  obtain ⟨p, hp, e⟩ := List.mem_map.mp h3
  have := hd p hp (congrArg Prod.fst e)
  have hk := congrArg (fun d : Text × Definition => d.2.kind) e
  have hk' : p.2.kind = .value ty'' num' := hk
  rw [this] at hk'
  cases hk'
  exact ⟨rfl, Hampi.Spec.Numeral.unique h5 hv⟩

theorem keyA_of {n : Text} {k : Int}
    (h : KeyOf objectSchema (msgsRead, objectOf "id-A".toList "A".toList) "&id".toList n k) :
    n = "id-A".toList ∧ k = 1 :=
  key_of h (by decide) (by
    intro p hp e
    rcases List.mem_cons.mp hp with rfl | hp
    · rfl
    · cases List.mem_singleton.mp hp; exact absurd e (by decide)) (num ⟨by decide, by decide⟩ (by decide))

theorem keyB_of {n : Text} {k : Int}
    (h : KeyOf objectSchema (msgsRead, objectOf "id-B".toList "B".toList) "&id".toList n k) :
    n = "id-B".toList ∧ k = 7 :=
  key_of h (by decide) (by
    intro p hp e
    rcases List.mem_cons.mp hp with rfl | hp
    · exact absurd e (by decide)
    · cases List.mem_singleton.mp hp; rfl) (num ⟨by decide, by decide⟩ (by decide))

theorem mem_written {o : Written} (ho : o ∈ written) :
    o = (msgsRead, objectOf "id-B".toList "B".toList) ∨ o = (msgsRead, objectOf "id-A".toList "A".toList) := by
  rcases List.mem_cons.mp ho with h | ho
  · exact .inl h
  · exact .inr (List.mem_singleton.mp ho)

/-- The table of the set. -/
def theTable : ObjectTable :=
  ⟨"Set".toList, "IES".toList, classes, iesFields, "&id".toList, written, "id".toList⟩

/-- The scope of the instance `Field {{Set}}`. -/
abbrev inField : Scope := .inst ["Set".toList] (.module msgsRead) msgsRead

theorem table_in : TableIn objectSchema inField theTable where
  seen := ⟨msgsRead, _, _, .inl ⟨.head _, .own (.tail _ (.tail _ (.head _)))⟩, sees_class,
    .object (.object .nil)⟩
  unique := ies_unique
  objects := nofun
  differ := by
    intro o ho p hp n m k h1 h2
    rcases mem_written ho with rfl | rfl <;> rcases mem_written hp with rfl | rfl
    · rfl
    · exact absurd ((keyB_of h1).2.symm.trans (keyA_of h2).2) (by decide)
    · exact absurd ((keyA_of h1).2.symm.trans (keyB_of h2).2) (by decide)
    · rfl

theorem type_of {id ty : Text} {t : AsnType} (h : ("&Value".toList, ObjectField.type (some t)) ∈ objectOf id ty) :
    t = .mk (.reference ty) (some []) := by
  rcases List.mem_cons.mp h with h | h
  · cases h; rfl
  · cases List.mem_singleton.mp h

/-- The alternatives of the open type. -/
def theTypes : List (Text × Int × Module × AsnType) :=
  [("id-A".toList, 1, msgsRead, .mk (.reference "A".toList) (some [])),
    ("id-B".toList, 7, msgsRead, .mk (.reference "B".toList) (some []))]

theorem the_types : Alternatives objectSchema theTable "&Value".toList theTypes where
  sorted := .cons (fun a h => by cases List.mem_singleton.mp h; decide) (.cons nofun .nil)
  all := by
    intro name k N ty
    constructor
    · intro h
      rcases List.mem_cons.mp h with h | h
      · cases h
        exact ⟨_, .tail _ (.head _), keyA, .head _⟩
      · cases List.mem_singleton.mp h
        exact ⟨_, .head _, keyB, .head _⟩
    · rintro ⟨fs, h1, h2, h3⟩
      rcases mem_written h1 with h | h
      · cases h
        obtain ⟨rfl, rfl⟩ := keyB_of h2
        rw [type_of h3]
        exact .tail _ (.head _)
      · cases h
        obtain ⟨rfl, rfl⟩ := keyA_of h2
        rw [type_of h3]
        exact .head _
  references := by
    intro name k N ty h
    rcases List.mem_cons.mp h with h | h
    · cases h; exact ⟨_, _, rfl, .inr rfl⟩
    · cases List.mem_singleton.mp h; exact ⟨_, _, rfl, .inr rfl⟩

theorem field_described {lax : Bool} : Describes lax objectSchema inField (fieldType "Set".toList)
    (.sequence false 0 (.required true (.integer .u8 (some 0) (some 255) false)
      (.required false (.openType (.cons 1 false (.integer .u8 (some 0) (some 7) false) (.cons 7 false .boolean .nil)))
        .nil))) := by
  refine .table (T := theTable) (.inr rfl) nofun table_in ?_
  refine .key (T := theTable) (.simple (S := "Set".toList)) (.tail _ (.head _)) id_described ?_
  exact .openType (T := theTable) (l := theTypes) (.relation (S := "Set".toList)) (.head _) the_types
    (.cons (k := 1) refA_described (.cons (k := 7) refB_described .nil)) .nil

theorem field_expanded : applyParams 30 ["S".toList] fieldTokens [.set "Set".toList] = .ok (fieldType "Set".toList) := by
  with_unfolding_all rfl

theorem msg_described {lax : Bool} : Describes lax objectSchema (.module msgsRead)
    (.mk (.parameterized "Field".toList [.set "Set".toList]) (some []))
    (.sequence false 0 (.required true (.integer .u8 (some 0) (some 255) false)
      (.required false (.openType (.cons 1 false (.integer .u8 (some 0) (some 7) false) (.cons 7 false .boolean .nil)))
        .nil))) :=
  .parameterized (.inr rfl) (.own (.head _)) field_expanded (by decide) field_described

/-! ## The schema -/

theorem ids_proper {d : Text × Definition} (hd : d ∈ consts.definitions) : ProperDefinition objectSchema consts d.1 d.2 := by
  rcases List.mem_cons.mp hd with rfl | hd
  · exact .value ⟨_, _, rfl, by decide⟩ (.integer (.inr rfl)) idA_number
  · cases List.mem_singleton.mp hd
    exact .value ⟨_, _, rfl, by decide⟩ (.integer (.inr rfl)) idB_number

theorem types_proper {d : Text × Definition} (hd : d ∈ types.definitions) : ProperDefinition objectSchema types d.1 d.2 := by
  rcases List.mem_cons.mp hd with rfl | hd
  · exact .type a_described
  · cases List.mem_singleton.mp hd
    exact .type (.boolean (.inr rfl))

theorem class_proper {d : Text × Definition} (hd : d ∈ classes.definitions) :
    ProperDefinition objectSchema classes d.1 d.2 := by
  cases List.mem_singleton.mp hd
  refine .class (by decide) fun f id ty u opt d w h => ?_
  rcases List.mem_cons.mp h with h | h
  · cases h
  · cases List.mem_singleton.mp h
    exact ⟨_, id_described⟩

theorem object_proper {id ty : Text} {t : Ty} {N : Module} {vty : AsnType} {v : Text}
    (hi : Imports objectSchema msgsRead id N ⟨.value vty v, none⟩)
    (ht : Describes true objectSchema (.module msgsRead) (.mk (.reference ty) (some [])) t) :
    ProperObject objectSchema msgsRead classes iesFields (objectOf id ty) := by
  refine ⟨by simp only [objectOf, List.map]; decide, fun f hf => ?_⟩
  rcases List.mem_cons.mp hf with rfl | hf
  · exact .type (.head _) ht
  · cases List.mem_singleton.mp hf
    exact .value (.tail _ (.head _)) (.named hi)

theorem msgs_proper {d : Text × Definition} (hd : d ∈ msgsRead.definitions) :
    ProperDefinition objectSchema msgsRead d.1 d.2 := by
  rcases List.mem_cons.mp hd with rfl | hd
  · exact .parameterized
  rcases List.mem_cons.mp hd with rfl | hd
  · exact .type msg_described
  cases List.mem_singleton.mp hd
  refine .objectSet sees_class fun e he => ?_
  rcases List.mem_cons.mp he with rfl | he
  · exact .object (object_proper imports_idB refB_described) (.inr ⟨_, _, _, ies_unique, keyB⟩)
  · cases List.mem_singleton.mp he
    exact .object (object_proper imports_idA refA_described) (.inr ⟨_, _, _, ies_unique, keyA⟩)

theorem in_schema {M : Module} (h : M ∈ objectSchema) : M = consts ∨ M = types ∨ M = classes ∨ M = msgsRead := by
  simpa [objectSchema] using h

theorem object_schema_proper : ProperSchema objectSchema where
  modules := by decide
  definitions := by
    intro M hM
    rcases in_schema hM with rfl | rfl | rfl | rfl <;> decide
  distinct := by
    intro M hM N hN k d e h1 h2
    have key : ∀ (M : Module), (k, d) ∈ M.definitions → k ∈ M.definitions.map (·.1) := fun M h =>
      List.mem_map.mpr ⟨_, h, rfl⟩
    have key' : ∀ (M : Module), (k, e) ∈ M.definitions → k ∈ M.definitions.map (·.1) := fun M h =>
      List.mem_map.mpr ⟨_, h, rfl⟩
    have g1 := key M h1
    have g2 := key' N h2
    clear h1 h2 key key'
    rcases in_schema hM with rfl | rfl | rfl | rfl <;> rcases in_schema hN with rfl | rfl | rfl | rfl <;>
      first | rfl | (exfalso; revert k; decide)
  names := by
    intro M hM
    rcases in_schema hM with rfl | rfl | rfl | rfl <;> exact word_names (by decide)
  imports := by
    intro M hM i hi
    rcases in_schema hM with rfl | rfl | rfl | rfl
    · exact nomatch hi
    · exact nomatch hi
    · exact nomatch hi
    · refine ⟨?_, by revert i; decide⟩
      have : ∀ i ∈ msgsRead.imports, i.2 = consts.name ∨ i.2 = types.name ∨ i.2 = classes.name := by decide
      rcases this i hi with h | h | h
      · exact ⟨consts, .head _, h.symm⟩
      · exact ⟨types, .tail _ (.head _), h.symm⟩
      · exact ⟨classes, .tail _ (.tail _ (.head _)), h.symm⟩
  order := ⟨fun x => if x = "Msgs".toList then 1 else 0, by
    intro M hM
    rcases in_schema hM with rfl | rfl | rfl | rfl
    · exact fun i hi => nomatch hi
    · exact fun i hi => nomatch hi
    · exact fun i hi => nomatch hi
    · decide⟩
  acyclic := by
    intro M hM
    refine ⟨fun x => if x = "Msg".toList then 1 else 0, ?_⟩
    rcases in_schema hM with rfl | rfl | rfl | rfl <;> decide
  proper := by
    intro M hM d hd
    rcases in_schema hM with rfl | rfl | rfl | rfl
    · exact ids_proper hd
    · exact types_proper hd
    · exact class_proper hd
    · exact msgs_proper hd

/-! ## The texts -/

set_option maxRecDepth 20000 in
theorem consts_spelled : Spells ascii constsText [constsParsed] := by
  refine spells_of (l := [
    (.identifier, "Consts".toList), (.keyword, "DEFINITIONS".toList), (.assignment, "::=".toList),
    (.keyword, "BEGIN".toList), (.identifier, "id-A".toList), (.keyword, "INTEGER".toList),
    (.assignment, "::=".toList), (.numberInt, "1".toList), (.identifier, "id-B".toList),
    (.keyword, "INTEGER".toList), (.assignment, "::=".toList), (.numberInt, "7".toList), (.keyword, "END".toList)]) (by decide +kernel) (by decide) fun ts h => ?_
  obtain ⟨t1, ts, rfl, a1, b1, h⟩ := bare_cons h
  obtain ⟨t2, ts, rfl, a2, b2, h⟩ := bare_cons h
  obtain ⟨t3, ts, rfl, a3, b3, h⟩ := bare_cons h
  obtain ⟨t4, ts, rfl, a4, b4, h⟩ := bare_cons h
  obtain ⟨t5, ts, rfl, a5, b5, h⟩ := bare_cons h
  obtain ⟨t6, ts, rfl, a6, b6, h⟩ := bare_cons h
  obtain ⟨t7, ts, rfl, a7, b7, h⟩ := bare_cons h
  obtain ⟨t8, ts, rfl, a8, b8, h⟩ := bare_cons h
  obtain ⟨t9, ts, rfl, a9, b9, h⟩ := bare_cons h
  obtain ⟨t10, ts, rfl, a10, b10, h⟩ := bare_cons h
  obtain ⟨t11, ts, rfl, a11, b11, h⟩ := bare_cons h
  obtain ⟨t12, ts, rfl, a12, b12, h⟩ := bare_cons h
  obtain ⟨t13, ts, rfl, a13, b13, h⟩ := bare_cons h
  rw [List.map_eq_nil_iff] at h
  subst h
  exact .one (.mk (os := []) (gs := []) (is := []) (l := []) (ts := [t5, t6, t7, t8, t9, t10, t11, t12])
    (ds := [⟨"id-A".toList, .value _ _, none⟩, ⟨"id-B".toList, .value _ _, none⟩])
    (upper a1 b1 ⟨_, _, rfl, rfl⟩ (by decide)) .none ⟨a2, b2⟩ .none a3 ⟨a4, b4⟩ .none
    (.cons (ts := [t5, t6, t7, t8]) (us := [t9, t10, t11, t12])
      (.value (ts := [t6]) ⟨a5, b5, _, _, rfl, rfl⟩ (.type (ts := [t6]) (us := []) (.simple (.integer ⟨a6, b6⟩)) .nil) a7
        ⟨b8, .inr (.inl a8)⟩)
      (.cons (ts := [t9, t10, t11, t12]) (us := [])
        (.value (ts := [t10]) ⟨a9, b9, _, _, rfl, rfl⟩ (.type (ts := [t10]) (us := []) (.simple (.integer ⟨a10, b10⟩)) .nil) a11
          ⟨b12, .inr (.inl a12)⟩) .nil)) ⟨a13, b13⟩
    ⟨.refl _, .nil⟩ ⟨.refl _, .cons (fun a h => by cases List.mem_singleton.mp h; decide) (.cons nofun .nil)⟩)

set_option maxRecDepth 20000 in
theorem types_spelled : Spells ascii typesText [typesParsed] := by
  refine spells_of (l := [
    (.identifier, "Types".toList), (.keyword, "DEFINITIONS".toList), (.assignment, "::=".toList),
    (.keyword, "BEGIN".toList), (.identifier, "A".toList), (.assignment, "::=".toList),
    (.keyword, "INTEGER".toList), (.roundBegin, "(".toList), (.numberInt, "0".toList),
    (.rangeSeparator, "..".toList), (.numberInt, "7".toList), (.roundEnd, ")".toList), (.identifier, "B".toList),
    (.assignment, "::=".toList), (.keyword, "BOOLEAN".toList), (.keyword, "END".toList)]) (by decide +kernel) (by decide) fun ts h => ?_
  obtain ⟨t1, ts, rfl, a1, b1, h⟩ := bare_cons h
  obtain ⟨t2, ts, rfl, a2, b2, h⟩ := bare_cons h
  obtain ⟨t3, ts, rfl, a3, b3, h⟩ := bare_cons h
  obtain ⟨t4, ts, rfl, a4, b4, h⟩ := bare_cons h
  obtain ⟨t5, ts, rfl, a5, b5, h⟩ := bare_cons h
  obtain ⟨t6, ts, rfl, a6, b6, h⟩ := bare_cons h
  obtain ⟨t7, ts, rfl, a7, b7, h⟩ := bare_cons h
  obtain ⟨t8, ts, rfl, a8, b8, h⟩ := bare_cons h
  obtain ⟨t9, ts, rfl, a9, b9, h⟩ := bare_cons h
  obtain ⟨t10, ts, rfl, a10, b10, h⟩ := bare_cons h
  obtain ⟨t11, ts, rfl, a11, b11, h⟩ := bare_cons h
  obtain ⟨t12, ts, rfl, a12, b12, h⟩ := bare_cons h
  obtain ⟨t13, ts, rfl, a13, b13, h⟩ := bare_cons h
  obtain ⟨t14, ts, rfl, a14, b14, h⟩ := bare_cons h
  obtain ⟨t15, ts, rfl, a15, b15, h⟩ := bare_cons h
  obtain ⟨t16, ts, rfl, a16, b16, h⟩ := bare_cons h
  rw [List.map_eq_nil_iff] at h
  subst h
  have range : ConstraintNote (.subtype (.mk [[.range "0".toList true "7".toList true]] none)) [t8, t9, t10, t11, t12] :=
    .subtype (.closed (ts := [t9, t10, t11]) a8
      (.one (.one (.range (ts := [_]) (us := []) (vs := []) (ws := [_]) (.value ⟨b9, .inr (.inl a9)⟩) .closed a10
        .closed (.value ⟨b11, .inr (.inl a11)⟩)))) a12)
  exact .one (.mk (os := []) (gs := []) (is := []) (l := []) (ts := [t5, t6, t7, t8, t9, t10, t11, t12, t13, t14, t15])
    (ds := [⟨"A".toList, .type _, none⟩, ⟨"B".toList, .type _, none⟩])
    (upper a1 b1 ⟨_, _, rfl, rfl⟩ (by decide)) .none ⟨a2, b2⟩ .none a3 ⟨a4, b4⟩ .none
    (.cons (ts := [t5, t6, t7, t8, t9, t10, t11, t12]) (us := [t13, t14, t15])
      (.type (upper a5 b5 ⟨_, _, rfl, rfl⟩ (by decide)) a6 (.type (ts := [t7]) (.simple (.integer ⟨a7, b7⟩)) (.cons (us := []) range .nil)))
      (.cons (ts := [t13, t14, t15]) (us := [])
        (.type (upper a13 b13 ⟨_, _, rfl, rfl⟩ (by decide)) a14 (.type (ts := [t15]) (us := []) (.simple (.boolean ⟨a15, b15⟩)) .nil)) .nil)) ⟨a16, b16⟩
    ⟨.refl _, .nil⟩ ⟨.refl _, .cons (fun a h => by cases List.mem_singleton.mp h; decide) (.cons nofun .nil)⟩)

set_option maxRecDepth 20000 in
theorem class_spelled : Spells ascii classText [classParsed] := by
  refine spells_of (l := [
    (.identifier, "Class".toList), (.keyword, "DEFINITIONS".toList), (.assignment, "::=".toList),
    (.keyword, "BEGIN".toList), (.identifier, "IES".toList), (.assignment, "::=".toList),
    (.keyword, "CLASS".toList), (.curlyBegin, "{".toList), (.andIdentifier, "&id".toList),
    (.keyword, "INTEGER".toList), (.roundBegin, "(".toList), (.numberInt, "0".toList),
    (.rangeSeparator, "..".toList), (.numberInt, "255".toList), (.roundEnd, ")".toList),
    (.keyword, "UNIQUE".toList), (.comma, ",".toList), (.andIdentifier, "&Value".toList), (.curlyEnd, "}".toList),
    (.keyword, "WITH".toList), (.keyword, "SYNTAX".toList), (.curlyBegin, "{".toList), (.identifier, "ID".toList),
    (.andIdentifier, "&id".toList), (.identifier, "TYPE".toList), (.andIdentifier, "&Value".toList),
    (.curlyEnd, "}".toList), (.keyword, "END".toList)]) (by decide +kernel) (by decide) fun ts h => ?_
  obtain ⟨t1, ts, rfl, a1, b1, h⟩ := bare_cons h
  obtain ⟨t2, ts, rfl, a2, b2, h⟩ := bare_cons h
  obtain ⟨t3, ts, rfl, a3, b3, h⟩ := bare_cons h
  obtain ⟨t4, ts, rfl, a4, b4, h⟩ := bare_cons h
  obtain ⟨t5, ts, rfl, a5, b5, h⟩ := bare_cons h
  obtain ⟨t6, ts, rfl, a6, b6, h⟩ := bare_cons h
  obtain ⟨t7, ts, rfl, a7, b7, h⟩ := bare_cons h
  obtain ⟨t8, ts, rfl, a8, b8, h⟩ := bare_cons h
  obtain ⟨t9, ts, rfl, a9, b9, h⟩ := bare_cons h
  obtain ⟨t10, ts, rfl, a10, b10, h⟩ := bare_cons h
  obtain ⟨t11, ts, rfl, a11, b11, h⟩ := bare_cons h
  obtain ⟨t12, ts, rfl, a12, b12, h⟩ := bare_cons h
  obtain ⟨t13, ts, rfl, a13, b13, h⟩ := bare_cons h
  obtain ⟨t14, ts, rfl, a14, b14, h⟩ := bare_cons h
  obtain ⟨t15, ts, rfl, a15, b15, h⟩ := bare_cons h
  obtain ⟨t16, ts, rfl, a16, b16, h⟩ := bare_cons h
  obtain ⟨t17, ts, rfl, a17, b17, h⟩ := bare_cons h
  obtain ⟨t18, ts, rfl, a18, b18, h⟩ := bare_cons h
  obtain ⟨t19, ts, rfl, a19, b19, h⟩ := bare_cons h
  obtain ⟨t20, ts, rfl, a20, b20, h⟩ := bare_cons h
  obtain ⟨t21, ts, rfl, a21, b21, h⟩ := bare_cons h
  obtain ⟨t22, ts, rfl, a22, b22, h⟩ := bare_cons h
  obtain ⟨t23, ts, rfl, a23, b23, h⟩ := bare_cons h
  obtain ⟨t24, ts, rfl, a24, b24, h⟩ := bare_cons h
  obtain ⟨t25, ts, rfl, a25, b25, h⟩ := bare_cons h
  obtain ⟨t26, ts, rfl, a26, b26, h⟩ := bare_cons h
  obtain ⟨t27, ts, rfl, a27, b27, h⟩ := bare_cons h
  obtain ⟨t28, ts, rfl, a28, b28, h⟩ := bare_cons h
  rw [List.map_eq_nil_iff] at h
  subst h
  have range : ConstraintNote (.subtype (.mk [[.range "0".toList true "255".toList true]] none)) [t11, t12, t13, t14, t15] :=
    .subtype (.closed (ts := [t12, t13, t14]) a11
      (.one (.one (.range (ts := [_]) (us := []) (vs := []) (ws := [_]) (.value ⟨b12, .inr (.inl a12)⟩) .closed a13
        .closed (.value ⟨b14, .inr (.inl a14)⟩)))) a15)
  have fields : Listed FieldNote [("&id".toList, .fixedTypeValue "&id".toList typeId true false none none),
      ("&Value".toList, .type "&Value".toList false none none)] [t9, t10, t11, t12, t13, t14, t15, t16, t17, t18] :=
    .more (ts := [t9, t10, t11, t12, t13, t14, t15, t16]) (us := [t18])
      (.value (ts := [t10, t11, t12, t13, t14, t15]) (us := [t16]) (vs := []) ⟨a9, b9, _, _, rfl, rfl⟩
        (.type (ts := [t10]) (.simple (.integer ⟨a10, b10⟩)) (.cons (us := []) range .nil)) (.unique ⟨a16, b16⟩) .none (fun _ => rfl))
      a17 (.one (.type ⟨a18, b18, _, _, rfl, rfl⟩ .none))
  have words : SyntaxNote false [("&id".toList, spaced [t23], false), ("&Value".toList, spaced [t25], false)] [t23, t24, t25, t26] :=
    .field (opens := false) (closes := false) (a := []) (ws := [t23]) (z := []) (us := [t25, t26]) (by decide) nofun .none
      (fun t h => by rw [List.mem_singleton.mp h]; exact ⟨.inl a23, by rw [b23]; decide⟩) a24 b24 .none
      (.last (opens := false) (closes := false) (a := []) (ws := [t25]) (z := []) (by decide) rfl .none
        (fun t h => by rw [List.mem_singleton.mp h]; exact ⟨.inl a25, by rw [b25]; decide⟩) a26 b26 .none)
  have e1 : spaced [t23] = "ID".toList := by simp [spaced, b23, List.intercalate]
  have e2 : spaced [t25] = "TYPE".toList := by simp [spaced, b25, List.intercalate]
  rw [e1, e2] at words
  exact .one (.mk (os := []) (gs := []) (is := []) (l := []) (ts := [t5, t6, t7, t8, t9, t10, t11, t12, t13, t14, t15, t16, t17, t18, t19, t20, t21, t22, t23, t24, t25, t26, t27])
    (ds := [⟨"IES".toList, .class iesFields, none⟩])
    (upper a1 b1 ⟨_, _, rfl, rfl⟩ (by decide)) .none ⟨a2, b2⟩ .none a3 ⟨a4, b4⟩ .none
    (.cons (ts := [t5, t6, t7, t8, t9, t10, t11, t12, t13, t14, t15, t16, t17, t18, t19, t20, t21, t22, t23, t24, t25, t26, t27]) (us := [])
      (.classWithSyntax (ts := [t9, t10, t11, t12, t13, t14, t15, t16, t17, t18]) (us := [t23, t24, t25, t26]) ⟨upper a5 b5 ⟨_, _, rfl, rfl⟩ (by decide), by decide⟩ a6 ⟨a7, b7⟩ a8 fields a19 ⟨a20, b20⟩ ⟨a21, b21⟩ a22 words a27
        (by decide)
        (fun y hy => by
          rcases List.mem_cons.mp hy with rfl | hy
          · exact ⟨_, .head _, nofun⟩
          · cases List.mem_singleton.mp hy
            exact ⟨_, .tail _ (.head _), nofun⟩)
        ⟨.swap _ _ _, .cons (fun a h => by cases List.mem_singleton.mp h; decide) (.cons nofun .nil)⟩) .nil) ⟨a28, b28⟩
    ⟨.refl _, .nil⟩ ⟨.refl _, .cons nofun .nil⟩)

theorem rotated {α : Type} (a b c : α) : [b, c, a].Perm [a, b, c] :=
  List.perm_append_comm (l₁ := [b, c]) (l₂ := [a])

theorem imports_table : Table msgsParsed.imports [("id-A".toList, "Consts".toList), ("id-B".toList, "Consts".toList),
    ("A".toList, "Types".toList), ("B".toList, "Types".toList), ("IES".toList, "Class".toList)] :=
  ⟨by decide +kernel, by decide +kernel⟩

theorem sorted_three {α : Type} (x y z : α) :
    [("Field".toList, x), ("Msg".toList, y), ("Set".toList, z)].Pairwise fun a b => a.1 < b.1 := by
  refine .cons ?_ (.cons ?_ (.cons nofun .nil))
  · intro p hp
    rcases List.mem_cons.mp hp with rfl | hp
    · exact (by decide : "Field".toList < "Msg".toList)
    · cases List.mem_singleton.mp hp
      exact (by decide : "Field".toList < "Set".toList)
  · intro p hp
    cases List.mem_singleton.mp hp
    exact (by decide : "Msg".toList < "Set".toList)

/-- The definitions of the module with the messages. -/
def setDef : ParsedDef := ⟨"Set".toList, .objectSet "IES".toList
  [.object (.input "{ ID id-A TYPE A }".toList), .object (.input "{ ID id-B TYPE B }".toList)] [], none⟩
@[inherit_doc setDef]
def fieldDef : ParsedDef := ⟨"Field".toList, .type (fieldType "S".toList), some (["S".toList], fieldTokens)⟩
@[inherit_doc setDef]
def msgDef : ParsedDef := ⟨"Msg".toList, .type (.mk (.parameterized "Field".toList [.set "Set".toList]) (some [])), none⟩

theorem defs_table : Table msgsParsed.definitions ([setDef, fieldDef, msgDef].map fun d => (d.id, d)) :=
  ⟨rotated _ _ _, sorted_three _ _ _⟩

set_option maxRecDepth 20000 in
theorem msgs_spelled : Spells ascii msgsText [msgsParsed] := by
  refine spells_of (l := [
    (.identifier, "Msgs".toList), (.keyword, "DEFINITIONS".toList), (.assignment, "::=".toList),
    (.keyword, "BEGIN".toList), (.keyword, "IMPORTS".toList), (.identifier, "id-A".toList), (.comma, ",".toList),
    (.identifier, "id-B".toList), (.keyword, "FROM".toList), (.identifier, "Consts".toList),
    (.identifier, "A".toList), (.comma, ",".toList), (.identifier, "B".toList), (.keyword, "FROM".toList),
    (.identifier, "Types".toList), (.identifier, "IES".toList), (.keyword, "FROM".toList),
    (.identifier, "Class".toList), (.semiColon, ";".toList), (.identifier, "Set".toList),
    (.identifier, "IES".toList), (.assignment, "::=".toList), (.curlyBegin, "{".toList), (.curlyBegin, "{".toList),
    (.identifier, "ID".toList), (.identifier, "id-A".toList), (.identifier, "TYPE".toList),
    (.identifier, "A".toList), (.curlyEnd, "}".toList), (.setUnionToken, "|".toList), (.curlyBegin, "{".toList),
    (.identifier, "ID".toList), (.identifier, "id-B".toList), (.identifier, "TYPE".toList),
    (.identifier, "B".toList), (.curlyEnd, "}".toList), (.comma, ",".toList), (.extension, "...".toList),
    (.curlyEnd, "}".toList), (.identifier, "Field".toList), (.curlyBegin, "{".toList), (.identifier, "IES".toList),
    (.colon, ":".toList), (.identifier, "S".toList), (.curlyEnd, "}".toList), (.assignment, "::=".toList),
    (.keyword, "SEQUENCE".toList), (.curlyBegin, "{".toList), (.identifier, "id".toList),
    (.identifier, "IES".toList), (.dot, ".".toList), (.andIdentifier, "&id".toList), (.roundBegin, "(".toList),
    (.curlyBegin, "{".toList), (.identifier, "S".toList), (.curlyEnd, "}".toList), (.roundEnd, ")".toList),
    (.comma, ",".toList), (.identifier, "value".toList), (.identifier, "IES".toList), (.dot, ".".toList),
    (.andIdentifier, "&Value".toList), (.roundBegin, "(".toList), (.curlyBegin, "{".toList),
    (.identifier, "S".toList), (.curlyEnd, "}".toList), (.curlyBegin, "{".toList),
    (.atComponentIdList, "@id".toList), (.curlyEnd, "}".toList), (.roundEnd, ")".toList), (.curlyEnd, "}".toList),
    (.identifier, "Msg".toList), (.assignment, "::=".toList), (.identifier, "Field".toList),
    (.curlyBegin, "{".toList), (.curlyBegin, "{".toList), (.identifier, "Set".toList), (.curlyEnd, "}".toList),
    (.curlyEnd, "}".toList), (.keyword, "END".toList)]) (by decide +kernel) (by decide) fun ts h => ?_
  obtain ⟨t1, ts, rfl, a1, b1, h⟩ := bare_cons h
  obtain ⟨t2, ts, rfl, a2, b2, h⟩ := bare_cons h
  obtain ⟨t3, ts, rfl, a3, b3, h⟩ := bare_cons h
  obtain ⟨t4, ts, rfl, a4, b4, h⟩ := bare_cons h
  obtain ⟨t5, ts, rfl, a5, b5, h⟩ := bare_cons h
  obtain ⟨t6, ts, rfl, a6, b6, h⟩ := bare_cons h
  obtain ⟨t7, ts, rfl, a7, b7, h⟩ := bare_cons h
  obtain ⟨t8, ts, rfl, a8, b8, h⟩ := bare_cons h
  obtain ⟨t9, ts, rfl, a9, b9, h⟩ := bare_cons h
  obtain ⟨t10, ts, rfl, a10, b10, h⟩ := bare_cons h
  obtain ⟨t11, ts, rfl, a11, b11, h⟩ := bare_cons h
  obtain ⟨t12, ts, rfl, a12, b12, h⟩ := bare_cons h
  obtain ⟨t13, ts, rfl, a13, b13, h⟩ := bare_cons h
  obtain ⟨t14, ts, rfl, a14, b14, h⟩ := bare_cons h
  obtain ⟨t15, ts, rfl, a15, b15, h⟩ := bare_cons h
  obtain ⟨t16, ts, rfl, a16, b16, h⟩ := bare_cons h
  obtain ⟨t17, ts, rfl, a17, b17, h⟩ := bare_cons h
  obtain ⟨t18, ts, rfl, a18, b18, h⟩ := bare_cons h
  obtain ⟨t19, ts, rfl, a19, b19, h⟩ := bare_cons h
  obtain ⟨t20, ts, rfl, a20, b20, h⟩ := bare_cons h
  obtain ⟨t21, ts, rfl, a21, b21, h⟩ := bare_cons h
  obtain ⟨t22, ts, rfl, a22, b22, h⟩ := bare_cons h
  obtain ⟨t23, ts, rfl, a23, b23, h⟩ := bare_cons h
  obtain ⟨t24, ts, rfl, a24, b24, h⟩ := bare_cons h
  obtain ⟨t25, ts, rfl, a25, b25, h⟩ := bare_cons h
  obtain ⟨t26, ts, rfl, a26, b26, h⟩ := bare_cons h
  obtain ⟨t27, ts, rfl, a27, b27, h⟩ := bare_cons h
  obtain ⟨t28, ts, rfl, a28, b28, h⟩ := bare_cons h
  obtain ⟨t29, ts, rfl, a29, b29, h⟩ := bare_cons h
  obtain ⟨t30, ts, rfl, a30, b30, h⟩ := bare_cons h
  obtain ⟨t31, ts, rfl, a31, b31, h⟩ := bare_cons h
  obtain ⟨t32, ts, rfl, a32, b32, h⟩ := bare_cons h
  obtain ⟨t33, ts, rfl, a33, b33, h⟩ := bare_cons h
  obtain ⟨t34, ts, rfl, a34, b34, h⟩ := bare_cons h
  obtain ⟨t35, ts, rfl, a35, b35, h⟩ := bare_cons h
  obtain ⟨t36, ts, rfl, a36, b36, h⟩ := bare_cons h
  obtain ⟨t37, ts, rfl, a37, b37, h⟩ := bare_cons h
  obtain ⟨t38, ts, rfl, a38, b38, h⟩ := bare_cons h
  obtain ⟨t39, ts, rfl, a39, b39, h⟩ := bare_cons h
  obtain ⟨t40, ts, rfl, a40, b40, h⟩ := bare_cons h
  obtain ⟨t41, ts, rfl, a41, b41, h⟩ := bare_cons h
  obtain ⟨t42, ts, rfl, a42, b42, h⟩ := bare_cons h
  obtain ⟨t43, ts, rfl, a43, b43, h⟩ := bare_cons h
  obtain ⟨t44, ts, rfl, a44, b44, h⟩ := bare_cons h
  obtain ⟨t45, ts, rfl, a45, b45, h⟩ := bare_cons h
  obtain ⟨t46, ts, rfl, a46, b46, h⟩ := bare_cons h
  obtain ⟨t47, ts, rfl, a47, b47, h⟩ := bare_cons h
  obtain ⟨t48, ts, rfl, a48, b48, h⟩ := bare_cons h
  obtain ⟨t49, ts, rfl, a49, b49, h⟩ := bare_cons h
  obtain ⟨t50, ts, rfl, a50, b50, h⟩ := bare_cons h
  obtain ⟨t51, ts, rfl, a51, b51, h⟩ := bare_cons h
  obtain ⟨t52, ts, rfl, a52, b52, h⟩ := bare_cons h
  obtain ⟨t53, ts, rfl, a53, b53, h⟩ := bare_cons h
  obtain ⟨t54, ts, rfl, a54, b54, h⟩ := bare_cons h
  obtain ⟨t55, ts, rfl, a55, b55, h⟩ := bare_cons h
  obtain ⟨t56, ts, rfl, a56, b56, h⟩ := bare_cons h
  obtain ⟨t57, ts, rfl, a57, b57, h⟩ := bare_cons h
  obtain ⟨t58, ts, rfl, a58, b58, h⟩ := bare_cons h
  obtain ⟨t59, ts, rfl, a59, b59, h⟩ := bare_cons h
  obtain ⟨t60, ts, rfl, a60, b60, h⟩ := bare_cons h
  obtain ⟨t61, ts, rfl, a61, b61, h⟩ := bare_cons h
  obtain ⟨t62, ts, rfl, a62, b62, h⟩ := bare_cons h
  obtain ⟨t63, ts, rfl, a63, b63, h⟩ := bare_cons h
  obtain ⟨t64, ts, rfl, a64, b64, h⟩ := bare_cons h
  obtain ⟨t65, ts, rfl, a65, b65, h⟩ := bare_cons h
  obtain ⟨t66, ts, rfl, a66, b66, h⟩ := bare_cons h
  obtain ⟨t67, ts, rfl, a67, b67, h⟩ := bare_cons h
  obtain ⟨t68, ts, rfl, a68, b68, h⟩ := bare_cons h
  obtain ⟨t69, ts, rfl, a69, b69, h⟩ := bare_cons h
  obtain ⟨t70, ts, rfl, a70, b70, h⟩ := bare_cons h
  obtain ⟨t71, ts, rfl, a71, b71, h⟩ := bare_cons h
  obtain ⟨t72, ts, rfl, a72, b72, h⟩ := bare_cons h
  obtain ⟨t73, ts, rfl, a73, b73, h⟩ := bare_cons h
  obtain ⟨t74, ts, rfl, a74, b74, h⟩ := bare_cons h
  obtain ⟨t75, ts, rfl, a75, b75, h⟩ := bare_cons h
  obtain ⟨t76, ts, rfl, a76, b76, h⟩ := bare_cons h
  obtain ⟨t77, ts, rfl, a77, b77, h⟩ := bare_cons h
  obtain ⟨t78, ts, rfl, a78, b78, h⟩ := bare_cons h
  obtain ⟨t79, ts, rfl, a79, b79, h⟩ := bare_cons h
  obtain ⟨t80, ts, rfl, a80, b80, h⟩ := bare_cons h
  rw [List.map_eq_nil_iff] at h
  subst h
  have object1 : SetElementNote (.object (.input "{ ID id-A TYPE A }".toList)) [t24, t25, t26, t27, t28, t29] := by
    have e : "{ ID id-A TYPE A }".toList = spaced (t24 :: ([t25, t26, t27, t28] ++ [t29])) := by
      simp [spaced, b24, b25, b26, b27, b28, b29, List.intercalate]
    rw [e]
    exact .object (.mk a24 (.other (by simp [a25]) (by simp [a25]) (.other (by simp [a26]) (by simp [a26])
      (.other (by simp [a27]) (by simp [a27]) (.other (by simp [a28]) (by simp [a28]) .nil)))) a29)
  have object2 : SetElementNote (.object (.input "{ ID id-B TYPE B }".toList)) [t31, t32, t33, t34, t35, t36] := by
    have e : "{ ID id-B TYPE B }".toList = spaced (t31 :: ([t32, t33, t34, t35] ++ [t36])) := by
      simp [spaced, b31, b32, b33, b34, b35, b36, List.intercalate]
    rw [e]
    exact .object (.mk a31 (.other (by simp [a32]) (by simp [a32]) (.other (by simp [a33]) (by simp [a33])
      (.other (by simp [a34]) (by simp [a34]) (.other (by simp [a35]) (by simp [a35]) .nil)))) a36)
  have imports : ImportsNote [("id-A".toList, "Consts".toList), ("id-B".toList, "Consts".toList),
      ("A".toList, "Types".toList), ("B".toList, "Types".toList), ("IES".toList, "Class".toList)] [t5, t6, t7, t8, t9, t10, t11, t12, t13, t14, t15, t16, t17, t18, t19] :=
    .some (ts := [t6, t7, t8, t9, t10, t11, t12, t13, t14, t15, t16, t17, t18]) ⟨a5, b5⟩
      (.more (l := [("id-A".toList, "Consts".toList), ("id-B".toList, "Consts".toList)]) (ts := [t6, t7, t8, t9, t10]) (us := [t11, t12, t13, t14, t15, t16, t17, t18])
        (.mk (ns := ["id-A".toList, "id-B".toList]) (ts := [t6, t7, t8]) (os := [])
          (.more (ts := [t6]) ⟨_, rfl, a6, b6⟩ a7 (.one ⟨_, rfl, a8, b8⟩)) ⟨a9, b9⟩ (upper a10 b10 ⟨_, _, rfl, rfl⟩ (by decide)) .none)
        (.more (l := [("A".toList, "Types".toList), ("B".toList, "Types".toList)]) (ts := [t11, t12, t13, t14, t15]) (us := [t16, t17, t18])
          (.mk (ns := ["A".toList, "B".toList]) (ts := [t11, t12, t13]) (os := [])
            (.more (ts := [t11]) ⟨_, rfl, a11, b11⟩ a12 (.one ⟨_, rfl, a13, b13⟩)) ⟨a14, b14⟩ (upper a15 b15 ⟨_, _, rfl, rfl⟩ (by decide)) .none)
          (.one (.mk (ns := ["IES".toList]) (ts := [t16]) (os := []) (.one ⟨_, rfl, a16, b16⟩) ⟨a17, b17⟩ (upper a18 b18 ⟨_, _, rfl, rfl⟩ (by decide)) .none)))) a19
  have set : DefNote setDef [t20, t21, t22, t23, t24, t25, t26, t27, t28, t29, t30, t31, t32, t33, t34, t35, t36, t37, t38, t39] :=
    .objectSet (ts := [t24, t25, t26, t27, t28, t29, t30, t31, t32, t33, t34, t35, t36, t37, t38]) (upper a20 b20 ⟨_, _, rfl, rfl⟩ (by decide)) ⟨upper a21 b21 ⟨_, _, rfl, rfl⟩ (by decide), by decide⟩ a22 a23
      (.extensible (ts := [t24, t25, t26, t27, t28, t29, t30, t31, t32, t33, t34, t35, t36]) (.more (ts := [t24, t25, t26, t27, t28, t29]) (us := [t31, t32, t33, t34, t35, t36]) object1 (.inl a30) (.one object2)) a37 a38)
      a39
  have table : ConstraintNote (.subtype (.mk [[.single ('{' :: ' ' :: ("S".toList ++ [' ', '}']))]] none)) [t53, t54, t55, t56, t57] := by
    have e : '{' :: ' ' :: ("S".toList ++ [' ', '}']) = spaced (t54 :: ([t55] ++ [t56])) := by
      simp [spaced, b54, b55, b56, List.intercalate]
    rw [e]
    exact .subtype (.closed (ts := [t54, t55, t56]) a53 (.one (.one (.single (.braces
      (.mk a54 (.other (by simp [a55]) (by simp [a55]) .nil) a56))))) a57)
  have relation : ConstraintNote (.tableRelation "S".toList "@id".toList) [t63, t64, t65, t66, t67, t68, t69, t70] := by
    have e : "@id".toList = t68.text := b68.symm
    rw [e]
    exact .relation a63 a64 (upper a65 b65 ⟨_, _, rfl, rfl⟩ (by decide)) a66 a67 a68 a69 a70
  have field : TypeNote (fieldType "S".toList) [t47, t48, t49, t50, t51, t52, t53, t54, t55, t56, t57, t58, t59, t60, t61, t62, t63, t64, t65, t66, t67, t68, t69, t70, t71] :=
    .type (ts := [t47, t48, t49, t50, t51, t52, t53, t54, t55, t56, t57, t58, t59, t60, t61, t62, t63, t64, t65, t66, t67, t68, t69, t70, t71]) (us := []) (.sequence (j := 0) (ts := [t49, t50, t51, t52, t53, t54, t55, t56, t57, t58, t59, t60, t61, t62, t63, t64, t65, t66, t67, t68, t69, t70]) ⟨a47, b47⟩ a48
      (.component (ts := [t49, t50, t51, t52, t53, t54, t55, t56, t57]) (us := [t58, t59, t60, t61, t62, t63, t64, t65, t66, t67, t68, t69, t70]) (by decide)
        (.required ⟨a49, b49, _, _, rfl, rfl⟩ (.type (ts := [t50, t51, t52]) (us := [t53, t54, t55, t56, t57])
          (.simple (.classField ⟨upper a50 b50 ⟨_, _, rfl, rfl⟩ (by decide), by decide⟩ a51 ⟨a52, b52, _, _, rfl, .inr rfl⟩)) (.cons (us := []) table .nil)))
        (.more a58 (.component (ts := [t59, t60, t61, t62, t63, t64, t65, t66, t67, t68, t69, t70]) (us := []) (by decide)
          (.required ⟨a59, b59, _, _, rfl, rfl⟩ (.type (ts := [t60, t61, t62]) (us := [t63, t64, t65, t66, t67, t68, t69, t70])
            (.simple (.classField ⟨upper a60 b60 ⟨_, _, rfl, rfl⟩ (by decide), by decide⟩ a61 ⟨a62, b62, _, _, rfl, .inl rfl⟩)) (.cons (us := []) relation .nil)))
          .done))) a71) .nil
  have tokens : fieldTokens = [t47, t48, t49, t50, t51, t52, t53, t54, t55, t56, t57, t58, t59, t60, t61, t62, t63, t64, t65, t66, t67, t68, t69, t70, t71].map Token.unplaced := by
    simp [fieldTokens, Token.unplaced, kw, nm, tk, a47, b47, a48, b48, a49, b49, a50, b50, a51, b51, a52, b52, a53, b53, a54, b54, a55, b55, a56, b56, a57, b57, a58, b58, a59, b59, a60, b60, a61, b61, a62, b62, a63, b63, a64, b64, a65, b65, a66, b66, a67, b67, a68, b68, a69, b69, a70, b70, a71, b71]
  have hfield : DefNote fieldDef [t40, t41, t42, t43, t44, t45, t46, t47, t48, t49, t50, t51, t52, t53, t54, t55, t56, t57, t58, t59, t60, t61, t62, t63, t64, t65, t66, t67, t68, t69, t70, t71] := by
    rw [fieldDef, tokens]
    exact .parameterized (ws := [t42, t43, t44]) (ts := [t47, t48, t49, t50, t51, t52, t53, t54, t55, t56, t57, t58, t59, t60, t61, t62, t63, t64, t65, t66, t67, t68, t69, t70, t71]) (upper a40 b40 ⟨_, _, rfl, rfl⟩ (by decide)) a41
      (.one (.governed (.inl ⟨_, (upper a42 b42 ⟨_, _, rfl, rfl⟩ (by decide))⟩) a43 (.inr (upper a44 b44 ⟨_, _, rfl, rfl⟩ (by decide))))) a45 a46 field
  have msg : DefNote msgDef [t72, t73, t74, t75, t76, t77, t78, t79] := by
    have e : "Set".toList = t77.text := b77.symm
    rw [msgDef, e]
    exact .type (upper a72 b72 ⟨_, _, rfl, rfl⟩ (by decide)) a73 (.type (ts := [t74, t75, t76, t77, t78, t79]) (us := []) (.simple (.parameterized (ts := [t76, t77, t78]) (upper a74 b74 ⟨_, _, rfl, rfl⟩ (by decide)) a75
      (.one (.set a76 (.inr a77) a78)) a79)) .nil)
  have defs : DefsNote [setDef, fieldDef, msgDef] [t20, t21, t22, t23, t24, t25, t26, t27, t28, t29, t30, t31, t32, t33, t34, t35, t36, t37, t38, t39, t40, t41, t42, t43, t44, t45, t46, t47, t48, t49, t50, t51, t52, t53, t54, t55, t56, t57, t58, t59, t60, t61, t62, t63, t64, t65, t66, t67, t68, t69, t70, t71, t72, t73, t74, t75, t76, t77, t78, t79] :=
    .cons (ts := [t20, t21, t22, t23, t24, t25, t26, t27, t28, t29, t30, t31, t32, t33, t34, t35, t36, t37, t38, t39]) (us := [t40, t41, t42, t43, t44, t45, t46, t47, t48, t49, t50, t51, t52, t53, t54, t55, t56, t57, t58, t59, t60, t61, t62, t63, t64, t65, t66, t67, t68, t69, t70, t71, t72, t73, t74, t75, t76, t77, t78, t79]) set
      (.cons (ts := [t40, t41, t42, t43, t44, t45, t46, t47, t48, t49, t50, t51, t52, t53, t54, t55, t56, t57, t58, t59, t60, t61, t62, t63, t64, t65, t66, t67, t68, t69, t70, t71]) (us := [t72, t73, t74, t75, t76, t77, t78, t79]) hfield
        (.cons (ts := [t72, t73, t74, t75, t76, t77, t78, t79]) (us := []) msg .nil))
  have all : ModuleNote msgsParsed (t1 :: ([] ++ t2 :: ([] ++ t3 :: t4 :: ([t5, t6, t7, t8, t9, t10, t11, t12, t13, t14, t15, t16, t17, t18, t19] ++ ([t20, t21, t22, t23, t24, t25, t26, t27, t28, t29, t30, t31, t32, t33, t34, t35, t36, t37, t38, t39, t40, t41, t42, t43, t44, t45, t46, t47, t48, t49, t50, t51, t52, t53, t54, t55, t56, t57, t58, t59, t60, t61, t62, t63, t64, t65, t66, t67, t68, t69, t70, t71, t72, t73, t74, t75, t76, t77, t78, t79] ++ [t80]))))) :=
    .mk (upper a1 b1 ⟨_, _, rfl, rfl⟩ (by decide)) .none ⟨a2, b2⟩ .none a3 ⟨a4, b4⟩ imports defs ⟨a80, b80⟩
      imports_table defs_table
  exact .one all

theorem all_of_four {α : Type} {P : α → Prop} {a b c d : α} (ha : P a) (hb : P b) (hc : P c) (hd : P d) :
    ∀ f ∈ [a, b, c, d], P f := by
  intro f hf
  simp only [List.mem_cons, List.not_mem_nil, or_false] at hf
  rcases hf with rfl | rfl | rfl | rfl
  · exact ha
  · exact hb
  · exact hc
  · exact hd

set_option maxRecDepth 20000 in
theorem files_spelled : ∀ f ∈ objectFiles, Spells ascii f.1 f.2 :=
  all_of_four (α := List Char × List ParsedModule) (P := fun f => Spells ascii f.1 f.2) consts_spelled types_spelled class_spelled msgs_spelled

/-! ## The theorems apply -/

example := C95_schema_compiles _ _ objects_read object_schema_proper

example := C96_wire_partial _ _ objects_read object_schema_proper msgsRead (.tail _ (.tail _ (.tail _ (.head _))))
  "Msg".toList _ (.tail _ (.head _)) false _ msg_described

example := C97_text_to_rust ascii plainSpelling objectFiles files_spelled 30 _ objects_read object_schema_proper

example := C100_text_to_codec ascii plainSpelling objectFiles files_spelled 30 _ objects_read object_schema_proper

end Hampi.Compiler.Props.ObjectExample
