import Verif.Lemmas.Meaning
import Verif.Props.Resolve
import Verif.Props.Derived
import Verif.Props.Wire
/-!
# C60-C62, C79-C82 — the generated code
-/
namespace Hampi.Compiler.Props
open Spec

/-- A stand-in for the crate heck in examples: names are left alone but for the first letter. -/
def plainSpelling : Spelling where
  snake
    | [] => []
    | c :: cs => c.toLower :: cs
  shouty t := t.map Char.toUpper

/-! ## C60 -/

theorem genVariants_spec {sp : Spelling} {name : Text} {x : Bool} {cs : List RComponent} :
    ∀ {i : Nat} {g : Gen} {r : List VariantItem} {g' : Gen}, genVariants sp name x i cs g = .ok (r, g') →
    r.map (·.key) = List.range' i cs.length ∧ (∀ v ∈ r, v.extended = x) ∧
      r.map (·.ident) = cs.map fun | .mk id _ => typeIdent id := by
  induction cs with
  | nil => intro i g r g' h; rw [genVariants] at h; cases h; exact ⟨rfl, nofun, rfl⟩
  | cons c cs ih =>
    intro i g r g' h
    obtain ⟨id, ty⟩ := c
    rw [genVariants] at h
    obtain ⟨p, hp, h⟩ := Out.bind_ok.mp h
    obtain ⟨q, hq, h⟩ := Out.bind_ok.mp h
    cases h
    obtain ⟨h1, h2, h3⟩ := ih hq
    refine ⟨?_, ?_, ?_⟩
    · rw [List.map_cons, h1, List.length_cons, List.range'_succ]
    · intro v hv
      rcases List.mem_cons.mp hv with rfl | hv
      · rfl
      · exact h2 v hv
    · rw [List.map_cons, h3, List.map_cons]

/-- **C60.** The enum generated for a CHOICE has one variant for each alternative, in order: first the
root alternatives, with the keys 0, 1, .., then the additions, with keys from 0 again and marked as
extended. The lower bound is 0, the upper bound the last key of the root, and the type is extensible
exactly when there is a list of additions. -/
theorem C60_choice_keys (sp : Spelling) (name : Text) (root : List RComponent)
    (adds : Option (List RComponent)) (g : Gen) (item : Item) (g' : Gen)
    (h : genItem sp name (.choice root adds) g = .ok (item, g')) :
    root ≠ [] ∧ ∃ vs ws, item = .choice (typeIdent name) 0 ((root.length : Int) - 1) adds.isSome (vs ++ ws) ∧
      vs.map (·.key) = List.range root.length ∧ (∀ v ∈ vs, v.extended = false) ∧
      (vs.map (·.ident) = root.map fun | .mk id _ => typeIdent id) ∧
      ws.map (·.key) = List.range (adds.getD []).length ∧ (∀ w ∈ ws, w.extended = true) ∧
      (ws.map (·.ident) = (adds.getD []).map fun | .mk id _ => typeIdent id) := by
  have hl : ∀ {vs : List VariantItem}, vs.map (·.key) = List.range' 0 root.length → vs.length = root.length := by
    intro vs h
    have := congrArg List.length h
    rwa [List.length_map, List.length_range'] at this
  have hne : ∀ {vs : List VariantItem}, vs.length = root.length → ¬ vs.length = 0 → root ≠ [] := by
    rintro vs h1 h2 rfl
    exact h2 h1
  cases adds with
  | none =>
    rw [genItem] at h
    obtain ⟨p, hp, h⟩ := Out.bind_ok.mp h
    obtain ⟨h1, h2, h3⟩ := genVariants_spec hp
    have hlen := hl h1
    split at h
    · cases h
    · next hz =>
      cases h
      refine ⟨hne hlen hz, p.1, [], ?_, ?_, h2, h3, rfl, nofun, rfl⟩
      · rw [List.append_nil, hlen]
        congr 1
        omega
      · rw [List.range_eq_range']; exact h1
  | some adds =>
    rw [genItem] at h
    obtain ⟨p, hp, h⟩ := Out.bind_ok.mp h
    obtain ⟨q, hq, h⟩ := Out.bind_ok.mp h
    obtain ⟨h1, h2, h3⟩ := genVariants_spec hp
    obtain ⟨k1, k2, k3⟩ := genVariants_spec hq
    have hlen := hl h1
    split at h
    · cases h
    · next hz =>
      cases h
      refine ⟨hne hlen hz, p.1, q.1, ?_, ?_, h2, h3, ?_, k2, k3⟩
      · rw [hlen]
        have : ((root.length - 1 : Nat) : Int) = (root.length : Int) - 1 := by omega
        rw [this]; rfl
      · rw [List.range_eq_range']; exact h1
      · rw [List.range_eq_range']; exact k1

/-- `CHOICE { a BOOLEAN, b T, ..., c NULL }`. -/
def someChoice : RType :=
  .choice [.mk "a".toList (.base .boolean), .mk "b".toList (.reference "T".toList)]
    (some [.mk "c".toList (.base .null)])

example : ∃ g', genItem plainSpelling "C".toList someChoice .new =
    .ok (.choice "C".toList 0 1 true
      [⟨"A".toList, "BOOLEAN_2".toList, 0, false⟩, ⟨"B".toList, "T".toList, 1, false⟩,
       ⟨"C".toList, "NULL_3".toList, 0, true⟩], g') := ⟨_, rfl⟩

/-- **C60.** In the type a CHOICE stands for, the index of every root alternative is within the bounds
and leads back to that alternative. -/
theorem C60_root_alternatives (R : Resolver) (root : List RComponent) (adds : Option (List RComponent)) (t : Ty)
    (h : Means R (.choice root adds) t) :
    ∃ ub ext as, t = .choice 0 ub ext as ∧ ub = (root.length : Int) - 1 ∧
      ∀ v : as.Val, as.extendedOf v = false → 0 ≤ as.keyOf v ∧ as.keyOf v ≤ ub ∧ as.Selects (as.keyOf v) v := by
  have upper : ∀ {cs : List RComponent} {rest : Alts}, (∀ v : rest.Val, rest.extendedOf v = true) →
      ∀ {i : Nat} {as : Alts}, MeansAlts R false i cs rest as → ∀ v : as.Val, as.extendedOf v = false →
        as.keyOf v < i + cs.length := by
    intro cs rest hrest
    induction cs with
    | nil => intro i as h v hv; cases h; rw [hrest] at hv; cases hv
    | cons c cs ih =>
      intro i as h v hv
      cases h with
      | cons _ hr =>
        match v with
        | .inl _ => show (i : Int) < _; rw [List.length_cons]; omega
        | .inr v =>
            have : Alts.keyOf _ v < _ := ih hr v hv
            show Alts.keyOf _ v < _
            rw [List.length_cons]
            omega
  cases h with
  | choice ha =>
    rename_i c cs as
    refine ⟨_, _, as, rfl, by rw [List.length_cons]; omega, fun v hv => ?_⟩
    have h1 := meansAlts_selects (rest := .nil) (fun v => nomatch v) ha v hv
    have h2 := upper (rest := .nil) (fun v => nomatch v) ha v hv
    rw [List.length_cons] at h2
    exact ⟨by omega, by omega, h1.1⟩
  | choiceExt hb ha =>
    rename_i c cs adds bs as
    refine ⟨_, _, as, rfl, by rw [List.length_cons]; omega, fun v hv => ?_⟩
    have h1 := meansAlts_selects (meansAlts_extended hb) ha v hv
    have h2 := upper (meansAlts_extended hb) ha v hv
    rw [List.length_cons] at h2
    exact ⟨by omega, by omega, h1.1⟩

example : Means {} (.choice [.mk "a".toList (.base .boolean), .mk "b".toList (.base .null)]
      (some [.mk "c".toList (.base .null)]))
    (.choice 0 1 true (.cons 0 false .boolean (.cons 1 false .null (.cons 0 true .null .nil)))) :=
  .choiceExt (.cons (.base rfl) .nil) (.cons (.base rfl) (.cons (.base rfl) .nil))

/-- C83, violated for extensible types: as soon as there is an addition, its key is also the key of a
root alternative. (Derived decoders match on the key alone, see C39.) -/
theorem C83_addition_keys_violated (sp : Spelling) (name : Text) (root adds : List RComponent) (ha : adds ≠ [])
    (g : Gen) (x : Text) (lb ub : Int) (ext : Bool) (vs : List VariantItem) (g' : Gen)
    (h : genItem sp name (.choice root (some adds)) g = .ok (.choice x lb ub ext vs, g')) :
    ¬ (vs.map (·.key)).Nodup := by
  obtain ⟨hr, us, ws, e, h1, _, _, h2, _, _⟩ := C60_choice_keys sp name root (some adds) g _ g' h
  cases e
  rw [List.map_append, h1, h2]
  intro hn
  have hn := (List.nodup_append.mp hn).2.2
  have hz : ∀ {l : List RComponent}, l ≠ [] → 0 ∈ List.range l.length := fun {l} h =>
    List.mem_range.mpr (List.length_pos_iff.mpr h)
  exact hn 0 (hz hr) 0 (hz ha) rfl

example : ∃ x lb ub ext vs g', genItem plainSpelling "C".toList (.choice [.mk "a".toList (.base .boolean)]
    (some [.mk "b".toList (.base .null)])) .new = .ok (.choice x lb ub ext vs, g') := ⟨_, _, _, _, _, _, rfl⟩

/-- C83, partial: the alternatives of a CHOICE without additions have different keys. Missing, because false:
those of a CHOICE with additions. -/
theorem C83_root_keys_partial (sp : Spelling) (name : Text) (root : List RComponent) (g : Gen) (item : Item) (g' : Gen)
    (h : genItem sp name (.choice root none) g = .ok (item, g')) :
    ∃ x lb ub vs, item = .choice x lb ub false vs ∧ (vs.map (·.key)).Nodup ∧ vs.length = root.length := by
  obtain ⟨_, us, ws, e, h1, _, _, h2, _, _⟩ := C60_choice_keys sp name root none g item g' h
  obtain rfl : ws = [] := by simpa using h2
  have hl := congrArg List.length h1
  rw [List.length_map, List.length_range] at hl
  exact ⟨_, _, _, _, e, by simpa [h1] using List.nodup_range, by simpa using hl⟩

example : ∃ item g', genItem plainSpelling "C".toList (.choice [.mk "a".toList (.base .boolean),
    .mk "b".toList (.base .null)] none) .new = .ok (item, g') := ⟨_, _, rfl⟩

/-! ## C61 -/

/-- The fields in terms of the components. -/
theorem genFields_spec {sp : Spelling} {name : Text} {cs : List RSeqComponent} :
    ∀ {i : Nat} {g : Gen} {r : List FieldItem × Nat} {g' : Gen}, genFields sp name i cs g = .ok (r, g') →
    i ≤ r.2 ∧ r.1.filterMap (·.optionalIdx) = List.range' i (r.2 - i) ∧
      (r.1.map (fun f => (f.ident, f.optionalIdx.isSome, f.keyField)) =
        cs.map fun | .mk id _ opt key => (valueIdent sp id, opt, key)) := by
  induction cs with
  | nil =>
    intro i g r g' h
    rw [genFields] at h
    cases h
    exact ⟨Nat.le_refl _, by simp, rfl⟩
  | cons c cs ih =>
    intro i g r g' h
    obtain ⟨id, ty, opt, key⟩ := c
    rw [genFields] at h
    obtain ⟨p, hp, h⟩ := Out.bind_ok.mp h
    obtain ⟨q, hq, h⟩ := Out.bind_ok.mp h
    cases h
    obtain ⟨h1, h2, h3⟩ := ih hq
    cases opt with
    | true =>
      refine ⟨?_, ?_, ?_⟩
      · simp only [if_true] at h1; show i ≤ q.1.2; omega
      · simp only [if_true] at h1 h2
        show i :: List.filterMap _ q.1.1 = List.range' i (q.1.2 - i)
        rw [h2, show q.1.2 - i = (q.1.2 - (i + 1)) + 1 by omega, List.range'_succ]
      · rw [List.map_cons, h3, List.map_cons]; rfl
    | false =>
      refine ⟨h1, ?_, ?_⟩
      · exact h2
      · rw [List.map_cons, h3, List.map_cons]; rfl

/-- Is the component optional? -/
def isOptional : RSeqComponent → Bool
  | .mk _ _ opt _ => opt

/-- **C61.** The struct generated for a SEQUENCE has one field for each component, in order; it is an
`Option` with an index exactly when the component is optional, and a key field when the component is.
The indexes, read in the order of the fields, are 0, 1, .., k-1 where k is the number of optional
components, which is announced as `optional_fields` unless it is 0. -/
theorem C61_optional_indexes (sp : Spelling) (name : Text) (ext : Bool) (cs : List RSeqComponent) (g : Gen)
    (item : Item) (g' : Gen) (h : genItem sp name (.sequence ext cs) g = .ok (item, g')) :
    ∃ fs, item = .struct (typeIdent name) ext
        (if cs.countP isOptional = 0 then none else some (cs.countP isOptional)) fs ∧
      fs.filterMap (·.optionalIdx) = List.range (cs.countP isOptional) ∧
      (fs.map (fun f => (f.ident, f.optionalIdx.isSome, f.keyField)) =
        cs.map fun | .mk id _ opt key => (valueIdent sp id, opt, key)) := by
  rw [genItem] at h
  obtain ⟨p, hp, h⟩ := Out.bind_ok.mp h
  cases h
  obtain ⟨_, h2, h3⟩ := genFields_spec hp
  rw [Nat.sub_zero] at h2
  have hcount : p.1.2 = cs.countP isOptional := by
    have e1 : p.1.2 = (p.1.1.filterMap (·.optionalIdx)).length := by rw [h2, List.length_range']
    have e2 : ∀ fs : List FieldItem, (fs.filterMap (·.optionalIdx)).length =
        (fs.map fun f => (f.ident, f.optionalIdx.isSome, f.keyField)).countP (·.2.1) := by
      intro fs
      induction fs with
      | nil => rfl
      | cons f fs ih =>
        rw [List.map_cons, List.countP_cons, List.filterMap_cons, ← ih]
        cases f.optionalIdx <;> rfl
    rw [e1, e2, h3, List.countP_map]
    congr 1
    funext c
    obtain ⟨id, ty, o, k⟩ := c
    rfl
  refine ⟨p.1.1, ?_, by rw [h2, hcount, List.range_eq_range'], h3⟩
  unfold optionalAttr
  rw [hcount]
  by_cases hz : cs.countP isOptional = 0
  · rw [if_pos hz, if_neg (by omega)]
  · rw [if_neg hz, if_pos (by omega)]

/-- `SEQUENCE { a BOOLEAN OPTIONAL, b NULL, c T OPTIONAL }`. -/
def someSequence : RType :=
  .sequence true [.mk "a".toList (.base .boolean) true false, .mk "b".toList (.base .null) false false,
    .mk "c".toList (.reference "T".toList) true false]

example : ∃ g', genItem plainSpelling "S".toList someSequence .new =
    .ok (.struct "S".toList true (some 2)
      [⟨"a".toList, "BOOLEAN_2".toList, some 0, false⟩, ⟨"b".toList, "NULL_3".toList, none, false⟩,
       ⟨"c".toList, "T".toList, some 1, false⟩], g') := ⟨_, rfl⟩

/-! ## C62 -/

/-- **C62, names.** In the generated file the Rust type named after a definition stands for exactly the
type the definition means: the types split off for nested components, the aliases and the names given
to all of them lead to the right items. This holds for every set of resolved definitions in which no
name dangles (C73) and for which the file has no duplicate names (otherwise it does not compile). -/
theorem C62_generated_types (sp : Spelling) (R : Resolver) (hc : Closed R) (items : List Item)
    (h : generate sp R = .ok items) (hd : DistinctNames items) (k : Text) (ty : RType)
    (hk : get R.resolved k = some (.type ty)) (t : Ty) :
    Stands items (typeIdent k) t ↔ Means R ty t := by
  have htop : ∀ r ty, get R.resolved r = some (.type ty) → Gives sp items (typeIdent r) ty :=
    fun r ty hr => generate_gives h hr
  constructor
  · intro hs
    exact stands_means htop hc hd hs ty (fun r hr => hc k _ hk r hr) (htop k ty hk)
  · intro hm
    exact (means_stands htop hm).1 _ (htop k ty hk)

/-- **C62, existence.** When the modules define no name twice and the compiler resolves them without
error, every resolved type that is built from supported types stands for exactly one codec. -/
theorem C62_every_type_has_a_codec (n : Nat) (ms : List Module) (hm : DistinctDefinitions ms) (R : Resolver)
    (h : ResolvesModules n {} ms (.ok R))
    (hs : ∀ k ty, get R.resolved k = some (.type ty) → Supported ty) (k : Text) (ty : RType)
    (hk : get R.resolved k = some (.type ty)) : ∃ t, Means R ty t ∧ ∀ u, Means R ty u → u = t := by
  unfold ResolvesModules at h
  split at h
  · obtain ⟨order, ho, h⟩ := h
    obtain ⟨hC, hF⟩ := order_founded hm (done := []) h ho.nodup (fun _ _ => nofun)
      (fun _ _ hd => by cases hd) ⟨fun _ => 0, fun _ _ hd => by cases hd⟩ (fun _ _ hd => by cases hd)
    obtain ⟨t, ht⟩ := founded_means hC hF hs k ⟨ty, hk⟩
    cases ht with
    | reference hr ht =>
      rw [hk] at hr
      cases hr
      exact ⟨t, ht, fun u hu => means_unique hu ht⟩
  · cases h

/-- **C62, schema to wire (partial).** Full statement: for every type of a schema, the generated codec
round-trips every value the constraints permit. Proved: the generated Rust type stands for the codec the
resolved definition means, that codec accepts every permitted value, and decodes it again wherever it is
placed and whatever follows, provided the value is one of those that survive (`Carried`) and no open
type is followed by something that is not at an octet boundary (`Ty.Closed`). Missing, because false:
those provisos, see C04, C13, C36, C40; and what `Ty.Permitted` leaves out, see there. -/
theorem C62_schema_to_wire_partial (sp : Spelling) (R : Resolver) (items : List Item)
    (h : generate sp R = .ok items) (k : Text) (ty : RType) (hk : get R.resolved k = some (.type ty)) (t : Ty)
    (ht : Means R ty t) (hcl : t.Closed) (v : t.Val) (hp : t.Permitted v) (hv : Carried t v) :
    Stands items (typeIdent k) t ∧ ∀ s : Codec, ∃ w,
      t.encode v s = .ok () { s with bits := s.bits ++ w } ∧
      ∀ (before after : List Bool) (key : Option Int), before.length % 8 = s.bits.length % 8 →
        t.KeysOk v key →
        t.decode ⟨before ++ w ++ after, before.length, key⟩ =
          .ok v ⟨before ++ w ++ after, before.length + w.length, t.keyAfter v key⟩ := by
  refine ⟨(means_stands (fun r ty hr => generate_gives h hr) ht).1 _ (generate_gives h hk), fun s => ?_⟩
  obtain ⟨⟨⟩, s', hs⟩ := C36_permitted_accepted t v hp s
  obtain ⟨w, e, hw⟩ := C36_round_trip_partial t hcl v (means_wf ht v hp hv) s s' hs
  exact ⟨w, e ▸ hs, hw⟩

/-- In `M`: `T ::= INTEGER (0..5)`, `S ::= SEQUENCE { a T OPTIONAL, b SEQUENCE OF CHOICE { x T, y NULL } }`. -/
def wireModule : Module :=
  plainModule "M".toList []
    [("T".toList, .type (.mk (.integer none)
        (some [.subtype (.mk [[.range "0".toList true "5".toList true]] none)]))),
     ("S".toList, .type (.mk (.sequence
        [.mk "a".toList (.mk (.reference "T".toList) none) true none,
         .mk "b".toList (.mk (.sequenceOf none (.mk (.choice
           [.mk "x".toList (.mk (.reference "T".toList) none), .mk "y".toList (.mk .null none)] none) none)) none)
           false none] [] false) none))]

/-- What it is resolved to. -/
def wireResolved : Resolver :=
  { resolved :=
      [("S".toList, .type (.sequence false
        [.mk "a".toList (.reference "T".toList) true false,
         .mk "b".toList (.sequenceOf (.choice
           [.mk "x".toList (.reference "T".toList), .mk "y".toList (.base .null)] none) none) false false])),
       ("T".toList, .type (.base (.integer 8 false (some ⟨⟨[(0, 6)], []⟩, none⟩))))] }

theorem wire_resolves : ResolvesModules 9 {} [wireModule] (.ok wireResolved) := by
  refine ⟨["M".toList], .round (popped := ["M".toList]) (rest := []) (by decide) (by decide) (.done (by decide)),
    _, ⟨["T".toList, "S".toList], ?_, rfl⟩, rfl⟩
  exact .round (popped := ["T".toList]) (rest := ["S".toList]) (by decide) (by decide)
    (.round (popped := ["S".toList]) (rest := []) (by decide) (by decide) (.done (by decide)))

/-- The generated items. -/
def wireItems : List Item :=
  [.struct "S".toList false (some 1)
     [⟨"a".toList, "T".toList, some 0, false⟩, ⟨"b".toList, "SB".toList, none, false⟩],
   .newtype "T".toList (some (.integer .u8 (some 0) (some 5) false)) [],
   .newtype "NULL_2".toList (some .null) [],
   .choice "SB_Entry".toList 0 1 false
     [⟨"X".toList, "T".toList, 0, false⟩, ⟨"Y".toList, "NULL_2".toList, 1, false⟩],
   .vec "SB".toList none none false "SB_Entry".toList]

theorem wire_generates : generate plainSpelling wireResolved = .ok wireItems := rfl

example : DistinctNames wireItems := by unfold DistinctNames; decide

/-- The codec of `S`. -/
def wireTy : Ty :=
  .sequence false 1 (.optional 0 (.integer .u8 (some 0) (some 5) false)
    (.required false (.sequenceOf none none false (.choice 0 1 false
      (.cons 0 false (.integer .u8 (some 0) (some 5) false) (.cons 1 false .null .nil)))) .nil))

theorem wire_means : Means wireResolved (.sequence false
        [.mk "a".toList (.reference "T".toList) true false,
         .mk "b".toList (.sequenceOf (.choice
           [.mk "x".toList (.reference "T".toList), .mk "y".toList (.base .null)] none) none) false false]) wireTy :=
  .sequence (.optional (.reference rfl (.base rfl)) (.required (.sequenceOf (size := none)
    (.choice (.cons (.reference rfl (.base rfl)) (.cons (.base rfl) .nil)))) .nil))

/-- `{ a 3, b { x : 5, y : NULL } }`. -/
def wireVal : wireTy.Val :=
  show Option Int × List (Int ⊕ Unit ⊕ Empty) × Unit from (some 3, [.inl 5, .inr (.inl ())], ())

example : wireTy.Closed := by decide

theorem wire_carried : Carried wireTy wireVal := by
  refine ⟨⟨by decide, nofun⟩, ⟨nofun, ?_⟩, trivial⟩
  intro x hx
  have hx : x ∈ [(Sum.inl 5 : Int ⊕ Unit ⊕ Empty), .inr (.inl ())] := hx
  rcases List.mem_cons.mp hx with rfl | hx
  · exact ⟨by decide, nofun⟩
  · cases List.eq_of_mem_singleton hx; trivial

theorem wire_permitted : wireTy.Permitted wireVal := by
  refine ⟨by decide, ⟨by decide, by decide, by decide, .inl (by decide)⟩, ⟨?_, ?_⟩, trivial⟩
  · exact ⟨⟨nofun, nofun⟩, ⟨nofun, nofun⟩, .inr (by decide)⟩
  · intro x hx
    have hx : x ∈ [(Sum.inl 5 : Int ⊕ Unit ⊕ Empty), .inr (.inl ())] := hx
    rcases List.mem_cons.mp hx with rfl | hx
    · exact ⟨by decide, by decide, by decide, rfl, by decide, by decide, by decide, .inl (by decide)⟩
    · cases List.eq_of_mem_singleton hx
      exact ⟨by decide, by decide, by decide, rfl, trivial⟩

/-- The theorem applies to this schema and value. -/
example := C62_schema_to_wire_partial plainSpelling wireResolved wireItems wire_generates "S".toList _ rfl
  wireTy wire_means (by decide) wireVal wire_permitted wire_carried

example : DistinctDefinitions [wireModule] := by
  intro M hM N hN k d e _ _
  rw [List.eq_of_mem_singleton hM, List.eq_of_mem_singleton hN]

/-! ## C79 -/

/-- **C79 (partial).** No resolved type refers to itself, directly or through others, if no name is
defined in two modules. Missing, because false (below): several definitions of a name. -/
theorem C79_no_cycles_partial (n : Nat) (ms : List Module) (hm : DistinctDefinitions ms) (R : Resolver)
    (h : ResolvesModules n {} ms (.ok R)) : Founded R := by
  unfold ResolvesModules at h
  split at h
  · obtain ⟨order, ho, h⟩ := h
    exact (order_founded hm (done := []) h ho.nodup (fun _ _ => nofun)
      (fun _ _ hd => by cases hd) ⟨fun _ => 0, fun _ _ hd => by cases hd⟩ (fun _ _ hd => by cases hd)).2
  · cases h

example : Founded wireResolved := by
  refine C79_no_cycles_partial 9 [wireModule] ?_ _ wire_resolves
  intro M hM N hN k d e _ _
  rw [List.eq_of_mem_singleton hM, List.eq_of_mem_singleton hN]

/-- In `A`: `T ::= INTEGER`, `S ::= T`. In `B`, which imports `S` from `A`: `T ::= S`. -/
def circular : List Module :=
  [plainModule "A".toList []
     [("T".toList, .type (.mk (.integer none) none)), ("S".toList, .type (.mk (.reference "T".toList) none))],
   plainModule "B".toList [("S".toList, "A".toList)] [("T".toList, .type (.mk (.reference "S".toList) none))]]

theorem alias_cycle {R : Resolver} {a b : Text} (ha : get R.resolved a = some (.type (.reference b)))
    (hb : get R.resolved b = some (.type (.reference a))) :
    {ty : RType} → {t : Ty} → Means R ty t → ty ≠ .reference a ∧ ty ≠ .reference b
  | _, _, .reference hr h => by
      have ih := alias_cycle ha hb h
      constructor
      · intro e; cases e; rw [ha] at hr; cases hr; exact ih.2 rfl
      · intro e; cases e; rw [hb] at hr; cases hr; exact ih.1 rfl
  | _, _, .base _ | _, _, .sequence _ | _, _, .sequenceOf _ | _, _, .choice _ | _, _, .choiceExt _ _
  | _, _, .set _ => ⟨nofun, nofun⟩

/-- C79, violated: two modules without recursion that give types which refer to each other. In the
generated file these are the aliases `type S = T;` and `type T = S;`, which rustc refuses; no codec
stands behind either. -/
theorem C79_cycle_violated :
    ∃ R, ResolvesModules 5 {} circular (.ok R) ∧ ¬ Founded R ∧
      generate plainSpelling R = .ok [.alias "S".toList "T".toList, .alias "T".toList "S".toList] ∧
      ∀ t, ¬ Means R (.reference "T".toList) t := by
  have o1 : Sorted (moduleNeeds circular) ["A".toList, "B".toList] :=
    .round (popped := ["A".toList]) (rest := ["B".toList]) (by decide) (by decide)
      (.round (popped := ["B".toList]) (rest := []) (by decide) (by decide) (.done (by decide)))
  refine ⟨_, ⟨_, o1, _, ⟨["T".toList, "S".toList], ?_, rfl⟩, _, ⟨["T".toList], ?_, rfl⟩, rfl⟩, ?_, rfl, ?_⟩
  · exact .round (popped := ["T".toList]) (rest := ["S".toList]) (by decide) (by decide)
      (.round (popped := ["S".toList]) (rest := []) (by decide) (by decide) (.done (by decide)))
  · exact .round (popped := ["T".toList]) (rest := []) (by decide) (by decide) (.done (by decide))
  · rintro ⟨rank, h⟩
    have h1 := h "S".toList (.reference "T".toList) rfl "T".toList (by rw [RType.names]; exact List.mem_singleton.mpr rfl)
    have h2 := h "T".toList (.reference "S".toList) rfl "S".toList (by rw [RType.names]; exact List.mem_singleton.mpr rfl)
    omega
  · intro t ht
    exact (alias_cycle rfl rfl ht).1 rfl

/-! ## C80 -/

/-- Is a type of its own made for a component of this type, named after the path to it? -/
def IsNested : RType → Prop
  | .sequence .. | .sequenceOf .. | .choice .. | .set .. => True
  | _ => False

theorem genItem_ident {sp : Spelling} {name : Text} {ty : RType} {g : Gen} {i : Item} {g' : Gen}
    (h : genItem sp name ty g = .ok (i, g')) : i.ident = typeIdent name := by
  match ty with
  | .base b =>
    rw [genItem] at h
    obtain ⟨j, hj, h⟩ := Out.bind_ok.mp h
    obtain ⟨t, _, hj⟩ := Out.bind_ok.mp hj
    cases hj; cases h; rfl
  | .reference r => rw [genItem] at h; cases h; rfl
  | .set s types => rw [genItem] at h; cases h; rfl
  | .sequenceOf ty size =>
    rw [genItem] at h
    obtain ⟨p, _, h⟩ := Out.bind_ok.mp h
    cases h; rfl
  | .sequence ext cs =>
    rw [genItem] at h
    obtain ⟨p, _, h⟩ := Out.bind_ok.mp h
    cases h; rfl
  | .choice root none =>
    rw [genItem] at h
    obtain ⟨p, _, h⟩ := Out.bind_ok.mp h
    split at h
    · cases h
    · cases h; rfl
  | .choice root (some adds) =>
    rw [genItem] at h
    obtain ⟨p, _, h⟩ := Out.bind_ok.mp h
    obtain ⟨q, _, h⟩ := Out.bind_ok.mp h
    split at h
    · cases h
    · cases h; rfl

theorem withIdent_nested {sp : Spelling} {ty : RType} (hn : IsNested ty) {input : Text} {g : Gen} {y : Text}
    {g' : Gen} (h : withIdent sp ty input (fun nm => genItem sp nm ty) g = .ok (y, g')) :
    ∃ a ∈ g'.aux, a.ident = typeIdent input := by
  unfold withIdent at h
  split at h
  · exact hn.elim
  · exact hn.elim
  · obtain ⟨p, hp, h⟩ := Out.bind_ok.mp h
    cases h
    exact ⟨p.1, List.mem_append_right _ (List.mem_singleton.mpr rfl), genItem_ident hp⟩

theorem genFields_nested {sp : Spelling} {name id : Text} {ty : RType} (hn : IsNested ty) {opt key : Bool}
    {cs : List RSeqComponent} : ∀ {n : Nat} {g : Gen} {r : List FieldItem × Nat} {g' : Gen},
    genFields sp name n cs g = .ok (r, g') → .mk id ty opt key ∈ cs →
    ∃ a ∈ g'.aux, a.ident = typeIdent (name ++ typeIdent id) := by
  induction cs with
  | nil => intro n g r g' _ h; cases h
  | cons c cs ih =>
    intro n g r g' h hm
    obtain ⟨id', ty', opt', key'⟩ := c
    rw [genFields] at h
    obtain ⟨p, hp, h⟩ := Out.bind_ok.mp h
    obtain ⟨q, hq, h⟩ := Out.bind_ok.mp h
    cases h
    rcases List.mem_cons.mp hm with e | hm
    · cases e
      obtain ⟨a, ha, hi⟩ := withIdent_nested hn hp
      exact ⟨a, genFields_aux sp cs name _ _ _ _ hq a ha, hi⟩
    · exact ih hq hm

theorem genAll_spec {sp : Spelling} : ∀ {ts : List (Text × RType)} {g : Gen} {is : List Item} {g' : Gen},
    genAll sp ts g = .ok (is, g') → (is.map (·.ident) = ts.map fun p => typeIdent p.1) ∧ (∀ a ∈ g.aux, a ∈ g'.aux) ∧
    ∀ k ty, (k, ty) ∈ ts → ∃ h i h', genItem sp k ty h = .ok (i, h') ∧ ∀ a ∈ h'.aux, a ∈ g'.aux
  | [], g, is, g', h => by cases h; exact ⟨rfl, fun _ h => h, nofun⟩
  | (j, u) :: ts, g, is, g', h => by
      rw [genAll] at h
      obtain ⟨p, hp, h⟩ := Out.bind_ok.mp h
      obtain ⟨q, hq, h⟩ := Out.bind_ok.mp h
      cases h
      obtain ⟨h1, h2, h3⟩ := genAll_spec hq
      refine ⟨by rw [List.map_cons, h1, genItem_ident hp]; rfl,
        fun a ha => h2 a (genItem_aux sp u j g _ _ hp a ha), fun k ty hk => ?_⟩
      rcases List.mem_cons.mp hk with e | hk
      · cases e; exact ⟨g, p.1, p.2, hp, h2⟩
      · exact h3 k ty hk

/-- C80, violated: whenever a definition `k` has a component `id` of a constructed type and there is a
definition called `k` followed by `Id`, the generated file has two types of the same name. -/
theorem C80_nested_name_violated (sp : Spelling) (R : Resolver) (items : List Item)
    (h : generate sp R = .ok items) (k id : Text) (ext : Bool) (cs : List RSeqComponent) (ty : RType)
    (opt key : Bool) (hk : (k, .type (.sequence ext cs)) ∈ R.resolved) (hc : .mk id ty opt key ∈ cs)
    (hn : IsNested ty) (k' : Text) (ty' : RType) (hk' : (k', .type ty') ∈ R.resolved)
    (he : typeIdent k' = typeIdent (k ++ typeIdent id)) : ¬ DistinctNames items := by
  obtain ⟨p, hp, h⟩ := Out.bind_ok.mp h
  cases h
  obtain ⟨h1, _, h3⟩ := genAll_spec hp
  obtain ⟨g, i, g', hi, hsub⟩ := h3 k _ (resolvedTypes_mem.mpr hk)
  rw [genItem] at hi
  obtain ⟨q, hq, hi⟩ := Out.bind_ok.mp hi
  cases hi
  obtain ⟨a, ha, hai⟩ := genFields_nested hn hq hc
  have htop : typeIdent k' ∈ p.1.map (·.ident) := by
    rw [h1]
    exact List.mem_map.mpr ⟨(k', ty'), resolvedTypes_mem.mpr hk', rfl⟩
  intro hd
  unfold DistinctNames at hd
  rw [List.map_append] at hd
  exact (List.nodup_append.mp hd).2.2 _ htop _ (List.mem_map.mpr ⟨a, hsub a ha, rfl⟩) (by rw [hai, he])

/-- `A ::= SEQUENCE { b CHOICE { c NULL } }`, `AB ::= BOOLEAN`. -/
def pathClash : Resolver :=
  { resolved := [("A".toList, .type (.sequence false
      [.mk "b".toList (.choice [.mk "c".toList (.base .null)] none) false false])),
      ("AB".toList, .type (.base .boolean))] }

example : ∃ items, generate plainSpelling pathClash = .ok items ∧ ¬ DistinctNames items :=
  ⟨_, rfl, C80_nested_name_violated plainSpelling pathClash _ rfl "A".toList "b".toList false _
    (.choice [.mk "c".toList (.base .null)] none) false false
    List.mem_cons_self List.mem_cons_self trivial "AB".toList (.base .boolean)
    (List.mem_cons_of_mem _ List.mem_cons_self) (by decide)⟩

/-- A type reference of X.680 11.2: a capital letter, then letters, digits and hyphens. -/
def IsTypeReference (t : Text) : Prop :=
  ∃ c cs, t = c :: cs ∧ c.isUpper = true ∧ ∀ d ∈ c :: cs, d.isAlphanum = true ∨ d = '-'

theorem typeIdent_inj {a b : Text} (ha : IsTypeReference a) (hb : IsTypeReference b)
    (h : typeIdent a = typeIdent b) : a = b := by
  have cap : ∀ {t}, IsTypeReference t → capitalizeFirst t = t := by
    rintro t ⟨c, cs, rfl, hc, _⟩
    show c.toUpper :: cs = c :: cs
    rw [Char.toUpper, dif_neg]
    intro hl
    rw [Char.isUpper] at hc
    simp only [decide_eq_true_eq] at hc
    have h1 := UInt32.le_iff_toNat_le.mp hc.2
    have h2 := UInt32.le_iff_toNat_le.mp hl.1
    have e1 : 'Z'.val.toNat = 90 := rfl
    have e2 : 'a'.val.toNat = 97 := rfl
    omega
  have inj : ∀ {x y : Char}, (x.isAlphanum = true ∨ x = '-') → (y.isAlphanum = true ∨ y = '-') →
      (if x = '-' ∨ x = ' ' then '_' else x) = (if y = '-' ∨ y = ' ' then '_' else y) → x = y := by
    intro x y hx hy h
    have hs : ∀ {x : Char}, (x.isAlphanum = true ∨ x = '-') → x ≠ ' ' ∧ x ≠ '_' := by
      rintro x (h | rfl)
      · constructor <;> (rintro rfl; exact absurd h (by decide))
      · decide
    split at h <;> split at h
    · rename_i h1 h2
      rw [h1.resolve_right (hs hx).1, h2.resolve_right (hs hy).1]
    · exact absurd h.symm (hs hy).2
    · exact absurd h (hs hx).2
    · exact h
  unfold typeIdent at h
  rw [cap ha, cap hb] at h
  obtain ⟨c, cs, rfl, _, hc⟩ := ha
  obtain ⟨d, ds, rfl, _, hd⟩ := hb
  revert h
  generalize c :: cs = l at hc
  generalize d :: ds = m at hd
  intro h
  induction l generalizing m with
  | nil => cases m with
    | nil => rfl
    | cons => cases h
  | cons x l ih => cases m with
    | nil => cases h
    | cons y m =>
      rw [List.map_cons, List.map_cons] at h
      injection h with h1 h2
      rw [inj (hc x List.mem_cons_self) (hd y List.mem_cons_self) h1,
        ih (fun d hd => hc d (List.mem_cons_of_mem _ hd)) m (fun e he => hd e (List.mem_cons_of_mem _ he)) h2]

/-- **C80 (partial).** The items for the definitions come first, in order, and have different names if
the definitions have different names that are type references. Missing: the names of the items for
nested types, which may clash with these (above). -/
theorem C80_definitions_partial (sp : Spelling) (R : Resolver) (items : List Item)
    (h : generate sp R = .ok items) (hn : (R.resolved.map (·.1)).Nodup)
    (hr : ∀ k t, (k, .type t) ∈ R.resolved → IsTypeReference k) :
    ∃ aux is, items = is ++ aux ∧ DistinctNames is ∧
      is.map (·.ident) = (resolvedTypes R.resolved).map fun p => typeIdent p.1 := by
  obtain ⟨p, hp, h⟩ := Out.bind_ok.mp h
  cases h
  obtain ⟨h1, _, _⟩ := genAll_spec hp
  refine ⟨p.2.aux, p.1, rfl, ?_, h1⟩
  unfold DistinctNames
  rw [h1]
  have hsub : ((resolvedTypes R.resolved).map (·.1)).Nodup := by
    refine hn.sublist ?_
    unfold resolvedTypes
    generalize R.resolved = defs
    induction defs with
    | nil => exact .slnil
    | cons d defs ih =>
      rw [List.filterMap_cons]
      obtain ⟨k, d⟩ := d
      cases d with
      | type t => exact ih.cons_cons _
      | _ => exact ih.cons _
  have hall : ∀ q ∈ resolvedTypes R.resolved, IsTypeReference q.1 := fun q hq =>
    hr q.1 q.2 (resolvedTypes_mem.mp hq)
  revert hsub hall
  generalize resolvedTypes R.resolved = ts
  intro hsub hall
  induction ts with
  | nil => exact .nil
  | cons q ts ih =>
    rw [List.map_cons, List.nodup_cons] at hsub ⊢
    refine ⟨fun hm => hsub.1 ?_, ih hsub.2 fun r hr => hall r (List.mem_cons_of_mem _ hr)⟩
    obtain ⟨r, hr, e⟩ := List.mem_map.mp hm
    rw [← typeIdent_inj (hall r (List.mem_cons_of_mem _ hr)) (hall q List.mem_cons_self) e]
    exact List.mem_map.mpr ⟨r, hr, rfl⟩

example : IsTypeReference "Rrc-Setup".toList :=
  ⟨'R', "rc-Setup".toList, rfl, by decide, by decide⟩

/-! ## C81 -/

/-- The words rustc does not accept as the name of a field (strict and reserved keywords of the 2021
edition). -/
def rustKeywords : List Text :=
  ["as", "break", "const", "continue", "crate", "else", "enum", "extern", "false", "fn", "for", "if",
   "impl", "in", "let", "loop", "match", "mod", "move", "mut", "pub", "ref", "return", "self", "static",
   "struct", "super", "trait", "true", "type", "unsafe", "use", "where", "while", "async", "await", "dyn",
   "abstract", "become", "box", "do", "final", "macro", "override", "priv", "typeof", "unsized", "virtual",
   "yield", "try"].map String.toList

/-- C81, violated: a component named by a Rust keyword other than `type` becomes a field of that name.
`hsp` says of the crate heck that snake case of `In` is `in`, and so on. -/
theorem C81_keyword_violated (sp : Spelling) (w : Text) (hw : w ∈ rustKeywords) (ht : w ≠ "type".toList)
    (hsp : sp.snake (capitalizeFirst w) = w) (name : Text) (ext : Bool) (pre post : List RSeqComponent)
    (ty : RType) (opt key : Bool) (g : Gen) (x : Text) (e : Bool) (o : Option Nat) (fs : List FieldItem) (g' : Gen)
    (h : genItem sp name (.sequence ext (pre ++ .mk w ty opt key :: post)) g = .ok (.struct x e o fs, g')) :
    ∃ f ∈ fs, f.ident ∈ rustKeywords := by
  obtain ⟨fs', he, _, h3⟩ := C61_optional_indexes sp name ext _ g _ g' h
  cases he
  rw [List.map_append, List.map_cons] at h3
  have : (valueIdent sp w, opt, key) ∈ fs.map (fun f => (f.ident, f.optionalIdx.isSome, f.keyField)) := by
    rw [h3]
    exact List.mem_append_right _ List.mem_cons_self
  obtain ⟨f, hf, e⟩ := List.mem_map.mp this
  refine ⟨f, hf, ?_⟩
  have e1 : f.ident = valueIdent sp w := congrArg (·.1) e
  rw [e1]
  show (if sp.snake (capitalizeFirst w) = "type".toList then "typ".toList else sp.snake (capitalizeFirst w)) ∈ _
  rw [hsp, if_neg ht]
  exact hw

example : plainSpelling.snake (capitalizeFirst "in".toList) = "in".toList := by decide

/-- C81, violated: two components whose names differ only in how words are set off become two fields of
the same name, whatever `sp` makes of them. -/
theorem C81_same_field_violated (sp : Spelling) (a b : Text)
    (hsp : sp.snake (capitalizeFirst a) = sp.snake (capitalizeFirst b)) (name : Text) (ext : Bool)
    (ta tb : RType) (oa ka ob kb : Bool) (g : Gen) (x : Text) (e : Bool) (o : Option Nat) (fs : List FieldItem)
    (g' : Gen) (pre mid post : List RSeqComponent)
    (h : genItem sp name (.sequence ext (pre ++ .mk a ta oa ka :: (mid ++ .mk b tb ob kb :: post))) g =
      .ok (.struct x e o fs, g')) :
    ¬ (fs.map (·.ident)).Nodup := by
  obtain ⟨fs', he, _, h3⟩ := C61_optional_indexes sp name ext _ g _ g' h
  cases he
  have h4 := congrArg (List.map fun p : Text × Bool × Bool => p.1) h3
  rw [List.map_map, List.map_append, List.map_cons, List.map_append, List.map_cons] at h4
  have e : valueIdent sp a = valueIdent sp b := by unfold valueIdent; rw [hsp]
  intro hn
  have h5 : fs.map (·.ident) = _ := h4
  rw [h5, List.map_append, List.map_cons, List.map_append, List.map_cons] at hn
  have := (List.nodup_cons.mp (List.nodup_append.mp hn).2.1).1
  refine this (List.mem_append_right _ ?_)
  show valueIdent sp a ∈ valueIdent sp b :: _
  rw [e]
  exact List.mem_cons_self

/-- C81, violated: a CHOICE alternative called `self` becomes a variant called `Self`, which rustc
refuses as well. -/
theorem C81_self_violated : typeIdent "self".toList = "Self".toList := by decide

/-! ## C82 -/

theorem numbered_get (vs : List EnumValue) (i : Nat) (hi : i < vs.length) :
    (numbered vs)[i]? = some (vs[i].name, (i : Int)) := by
  unfold numbered
  rw [List.getElem?_map, List.getElem?_zipIdx, List.getElem?_eq_getElem hi]
  simp

/-- **C82 (partial).** The constant for the i-th value of an enumeration without explicit numbers is i
for the first 256 values. Missing, because false: more values, and explicit numbers. -/
theorem C82_constants_partial (sp : Spelling) (root : List EnumValue) (marker : Option Nat) (ext : List EnumValue)
    (hr : explicitNumbers root = .ok false) (b : RBase) (h : resolveEnumerated root marker ext = .ok b) (i : Nat)
    (hi : i < root.length) (hs : i < 256) :
    (b.consts sp)[i]? = some (sp.shouty root[i].name, (i : Int)) := by
  unfold resolveEnumerated at h
  obtain ⟨r, hr', h⟩ := Out.bind_ok.mp h
  rw [hr] at hr'
  cases hr'
  obtain ⟨e, _, h⟩ := Out.bind_ok.mp h
  cases h
  show (List.map _ (numbered root))[i]? = _
  rw [List.getElem?_map, numbered_get root i hi]
  show some (_, (i : Int) % 2 ^ 8) = _
  rw [Int.emod_eq_of_lt (by omega) (by omega)]

/-- C82, violated: the constants of the first and of the 257th value are the same. -/
theorem C82_many_values_violated (sp : Spelling) (root : List EnumValue) (marker : Option Nat)
    (ext : List EnumValue) (hr : explicitNumbers root = .ok false) (b : RBase)
    (h : resolveEnumerated root marker ext = .ok b) (hl : 256 < root.length) :
    ((b.consts sp)[0]?.map (·.2)) = some 0 ∧ ((b.consts sp)[256]?.map (·.2)) = some 0 := by
  unfold resolveEnumerated at h
  obtain ⟨r, hr', h⟩ := Out.bind_ok.mp h
  rw [hr] at hr'
  cases hr'
  obtain ⟨e, _, h⟩ := Out.bind_ok.mp h
  cases h
  show (List.map _ (numbered root))[0]?.map _ = _ ∧ (List.map _ (numbered root))[256]?.map _ = _
  rw [List.getElem?_map, numbered_get root 0 (by omega), List.getElem?_map, numbered_get root 256 hl]
  exact ⟨rfl, rfl⟩

/-- C82, violated: the generator panics on every definition of an enumeration whose root has explicit
numbers. -/
theorem C82_explicit_numbers_violated (sp : Spelling) (root : List EnumValue) (marker : Option Nat)
    (ext : List EnumValue) (hr : explicitNumbers root = .ok true) (b : RBase)
    (h : resolveEnumerated root marker ext = .ok b) (name : Text) (g : Gen) :
    genItem sp name (.base b) g = .panic := by
  unfold resolveEnumerated at h
  obtain ⟨r, hr', h⟩ := Out.bind_ok.mp h
  rw [hr] at hr'
  cases hr'
  obtain ⟨e, _, h⟩ := Out.bind_ok.mp h
  cases h
  rfl

example : explicitNumbers [⟨"a".toList, none⟩, ⟨"b".toList, none⟩] = .ok false ∧
    ∃ b, resolveEnumerated [⟨"a".toList, none⟩, ⟨"b".toList, none⟩] none [] = .ok b := ⟨rfl, _, rfl⟩

example : explicitNumbers [⟨"a".toList, some (.number "1".toList)⟩] = .ok true ∧
    ∃ b, resolveEnumerated [⟨"a".toList, some (.number "1".toList)⟩] none [] = .ok b := ⟨rfl, _, rfl⟩

end Hampi.Compiler.Props
