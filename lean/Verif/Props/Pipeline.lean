import Verif.Lemmas.Plain5
/-!
# From a schema to the wire (C95, C96)

`ProperSchema ms` (Spec/Plain.lean) says what the parsed modules `ms` must be, and `Describes lax ms (.module M) ty t`
what the type `ty` of the module `M` means, both without the resolver and the generator. `ResolvesModules` is the
resolver, which takes definitions and modules in an order that depends on hash tables; `n` is the depth of
recursion allowed. `Stands items x t`: the type `x` of the generated file has the codec `t`.
-/
namespace Hampi.Compiler.Props
open Hampi.Compiler.Spec

/-- The resolver has a result for every order. -/
theorem resolvesOrder_exists (n : Nat) (ms : List Module) :
    ∀ (order : List Text) (R : Resolver), ∃ r, ResolvesOrder n ms order R r := by
  intro order
  induction order with
  | nil => exact fun R => ⟨_, rfl⟩
  | cons k ks ih =>
    intro R
    unfold ResolvesOrder
    split
    · exact ⟨_, rfl⟩
    · rename_i M _
      have h1 : ∃ r1, ResolvesModule n R M r1 := by
        unfold ResolvesModule
        split
        · rename_i defs _
          obtain ⟨ord, ho⟩ := PopsAll.exists (graphOf (needsOf M.imports defs))
          exact ⟨_, ord, ho, rfl⟩
        · exact ⟨_, rfl⟩
        · exact ⟨_, rfl⟩
        · exact ⟨_, rfl⟩
      obtain ⟨r1, h1⟩ := h1
      cases r1 with
      | ok R1 =>
        obtain ⟨r, hr⟩ := ih R1
        exact ⟨r, _, h1, hr⟩
      | err e => exact ⟨_, _, h1, rfl⟩
      | panic => exact ⟨_, _, h1, rfl⟩
      | diverge => exact ⟨_, _, h1, rfl⟩

theorem resolvesModules_exists (n : Nat) (ms : List Module) (R : Resolver) : ∃ r, ResolvesModules n R ms r := by
  unfold ResolvesModules
  split
  · obtain ⟨order, ho⟩ := PopsAll.exists (graphOf (moduleNeeds ms))
    obtain ⟨r, hr⟩ := resolvesOrder_exists n ms order R
    exact ⟨r, order, ho, hr⟩
  · exact ⟨_, rfl⟩

theorem resolvesModules_closed {n : Nat} {ms : List Module} (hm : DistinctDefinitions ms) {R : Resolver}
    (h : ResolvesModules n {} ms (.ok R)) : Closed R := by
  unfold ResolvesModules at h
  split at h
  · obtain ⟨order, ho, h⟩ := h
    exact (order_founded hm (done := []) h ho.nodup (fun _ _ => nofun)
      (fun _ _ hd => by cases hd) ⟨fun _ => 0, fun _ _ hd => by cases hd⟩ (fun _ _ hd => by cases hd)).1
  · cases h

theorem readAs_distinct {ms ms' : List Module} (h : ReadAs ms ms') (hd : DistinctDefinitions ms') :
    DistinctDefinitions ms := by
  intro M hM N hN k d e h1 h2
  obtain ⟨M', hM', hr⟩ := h.mem_left M hM
  obtain ⟨N', hN', hr'⟩ := h.mem_left N hN
  obtain ⟨d', h1', h3⟩ := hr.definitions.mem_left _ h1
  obtain ⟨e', h2', h4⟩ := hr'.definitions.mem_left _ h2
  obtain ⟨k1, d'⟩ := d'
  obtain ⟨k2, e'⟩ := e'
  have hk1 : k1 = k := by cases h3 <;> rfl
  have hk2 : k2 = k := by cases h4 <;> rfl
  subst hk1 hk2
  rw [← hr.name, ← hr'.name]
  exact hd M' hM' N' hN' _ _ _ h1' h2'

/-- **C95.** A schema in which every definition has a meaning compiles, whatever the order of the hash
tables. `ms'` are the parsed modules `ms` with their objects read. The resolver and the generator succeed, the
generated file has for every type of every module a type whose codec is what the schema means by it (and, if the
file compiles, no other), and every integer value has the number it is defined by. -/
theorem C95_schema_compiles (ms ms' : List Module) (hread : ReadAs ms ms') (h : ProperSchema ms') :
    ∃ n₀, ∀ n, n₀ ≤ n → (∃ r, ResolvesModules n {} ms r) ∧
      ∀ r, ResolvesModules n {} ms r → ∃ R, r = .ok R ∧
        (∀ M ∈ ms', ∀ x a v, (x, ⟨a, none⟩) ∈ M.definitions → DefinesInteger a v →
          get R.resolved x = some (.value (.integer v))) ∧
        ∀ sp, ∃ items, generate sp R = .ok items ∧
          ∀ M ∈ ms', ∀ x ty lax t, (x, ⟨.type ty, none⟩) ∈ M.definitions → Describes lax ms' (.module M) ty t →
            Stands items (typeIdent x) t ∧
              (DistinctNames items → ∀ u, Stands items (typeIdent x) u → u = t) := by
  obtain ⟨n₀, hn₀⟩ := resolve_schema h hread
  refine ⟨n₀, fun n hn => ⟨resolvesModules_exists n ms {}, fun r hr => ?_⟩⟩
  obtain ⟨R, rfl, hready, hk⟩ := hn₀ n hn r hr
  refine ⟨R, rfl, fun M hM x a v hx hv => ?_, fun sp => ?_⟩
  · obtain ⟨named, cs, num, rfl, hr⟩ := hv
    obtain ⟨rv, hg, -, hv⟩ := hready M hM x _ hx
    rw [hg, hv v ⟨named, cs, num, rfl, hr⟩]
  obtain ⟨items, hi⟩ := generate_schema h hready hk sp
  refine ⟨items, hi, fun M hM x ty lax t hx ht => ?_⟩
  obtain ⟨rt, hg, hm, -⟩ := hready M hM x _ hx
  have hm := hm lax t ht
  refine ⟨(means_stands (fun r ty hr => generate_gives hi hr) hm).1 _ (generate_gives hi hg), fun hd u hu => ?_⟩
  exact means_unique ((C62_generated_types sp R (resolvesModules_closed (readAs_distinct hread h.distinct) hr) items hi hd x rt
    hg u).mp hu) hm

/-- The types of such a schema have a meaning for the generator. -/
theorem described_known {ms ms' : List Module} (hread : ReadAs ms ms') (h : ProperSchema ms') {M : Module} (hM : M ∈ ms')
    {x : Text} {ty : AsnType} (hx : (x, ⟨.type ty, none⟩) ∈ M.definitions) :
    ∃ R rt, ∀ lax t, Describes lax ms' (.module M) ty t → Means R rt t := by
  obtain ⟨n₀, hn₀⟩ := resolve_schema h hread
  obtain ⟨r, hr⟩ := resolvesModules_exists n₀ ms {}
  obtain ⟨R, rfl, hready, -⟩ := hn₀ n₀ (Nat.le_refl _) r hr
  obtain ⟨rt, -, hm, -⟩ := hready M hM x _ hx
  exact ⟨R, rt, hm⟩

/-- **C95, the meaning.** A type of such a schema has one meaning: the one that the standards give it, if they do,
and otherwise that of hampi. -/
theorem C95_one_meaning (ms ms' : List Module) (hread : ReadAs ms ms') (h : ProperSchema ms') (M : Module) (hM : M ∈ ms')
    (x : Text) (ty : AsnType) (hx : (x, ⟨.type ty, none⟩) ∈ M.definitions) (lax lax' : Bool) (t u : Ty)
    (ht : Describes lax ms' (.module M) ty t) (hu : Describes lax' ms' (.module M) ty u) : t = u := by
  obtain ⟨R, rt, hm⟩ := described_known hread h hM hx
  exact means_unique (hm _ _ ht) (hm _ _ hu)

/-- **C96 (partial).** With the codec that the generated file has for a type of such a schema, every
value that the type permits can be sent. What is sent is what X.691 says, if the value is regular, and decodes
to the value, wherever it stands, if it is one that a reader of it recovers; the reader is then at its end, up to
padding if it ends in an open type. Missing, because false: the values that are excluded by `Ty.Regular` and
`Carried`, and types in which something that is not padded follows an open type (C13, C36, C64). -/
theorem C96_wire_partial (ms ms' : List Module) (hread : ReadAs ms ms') (h : ProperSchema ms') (M : Module) (hM : M ∈ ms')
    (x : Text) (ty : AsnType) (hx : (x, ⟨.type ty, none⟩) ∈ M.definitions) (lax : Bool) (t : Ty)
    (ht : Describes lax ms' (.module M) ty t) (v : t.Val) (hp : t.Permitted v) (s : Codec) :
    ∃ w, t.encode v s = .ok () { s with bits := s.bits ++ w } ∧
      (t.Regular v → t.Layout v s.bits.length w) ∧
      (Carried t v → ∀ (before after : List Bool) (key : Option Int), before.length % 8 = s.bits.length % 8 →
        t.KeysOk v key →
        (t.Closed → t.decode ⟨before ++ w ++ after, before.length, key⟩ =
          .ok v ⟨before ++ w ++ after, before.length + w.length, t.keyAfter v key⟩) ∧
        (t.Framed → ∃ off, t.decode ⟨before ++ w ++ after, before.length, key⟩ =
            .ok v ⟨before ++ w ++ after, off, t.keyAfter v key⟩ ∧
          off ≤ before.length + w.length ∧ before.length + w.length < off + 8)) := by
  obtain ⟨R, rt, hm⟩ := described_known hread h hM hx
  have hm := hm _ _ ht
  obtain ⟨⟨⟩, s', hs⟩ := C36_permitted_accepted t v hp s
  have hw := (t.encode_writer v).frame s
  obtain ⟨w, h1, h2, h3⟩ := hw.1 () s' hs
  have hs' : s' = { s with bits := s.bits ++ w } := by
    cases s'
    dsimp only at h1 h2 h3
    subst h1 h2 h3
    rfl
  have same : ∀ w', s' = { s with bits := s.bits ++ w' } → w' = w := by
    intro w' he
    have : s.bits ++ w' = s.bits ++ w := by
      have := he.symm.trans hs'
      simpa using congrArg Codec.bits this
    exact List.append_cancel_left this
  refine ⟨w, hs' ▸ hs, fun hv => ?_, fun hv before after key hb hk => ⟨fun hc => ?_, fun hf => ?_⟩⟩
  · obtain ⟨w', hl, he⟩ := C64_layout_partial t v hv s s' hs
    exact same w' he ▸ hl
  · obtain ⟨w', he, hd⟩ := C36_round_trip_partial t hc v (means_wf hm v hp hv) s s' hs
    cases same w' he
    exact hd before after key hb hk
  · obtain ⟨w', he, hd⟩ := C36_round_trip_open_end_partial t hf v (means_wf hm v hp hv) s s' hs
    cases same w' he
    obtain ⟨off, h4, h5, h6, -⟩ := hd before after key hb hk
    exact ⟨off, h4, h5, h6⟩

/-! ## An example -/

/-- `Base`: `max INTEGER ::= 10`, `Id ::= INTEGER (0..max)`. `Main`, which imports both from `Base`:
`Kind ::= ENUMERATED { a, b }`, `Msg ::= SEQUENCE { id Id, kind Kind OPTIONAL, body Body }`,
`Body ::= CHOICE { raw OCTET STRING (SIZE (1..max)), list SEQUENCE SIZE (0..3) OF Id, ..., more NULL }`. -/
def baseModule : Module :=
  plainModule "Base".toList []
    [("max".toList, .value (.mk (.integer none) none) "10".toList),
     ("Id".toList, .type (.mk (.integer none)
        (some [.subtype (.mk [[.range "0".toList true "max".toList true]] none)])))]

@[inherit_doc baseModule]
def bodyType : AsnType :=
  .mk (.choice
    [.mk "raw".toList (.mk .octetString
       (some [.subtype (.mk [[.size (.mk [[.range "1".toList true "max".toList true]] none)]] none)])),
     .mk "list".toList (.mk (.sequenceOf
       (some (.subtype (.mk [[.size (.mk [[.range "0".toList true "3".toList true]] none)]] none)))
       (.mk (.reference "Id".toList) none)) none)]
    (some [.mk none [.mk "more".toList (.mk .null none)]])) none

@[inherit_doc baseModule]
def mainModule : Module :=
  plainModule "Main".toList [("max".toList, "Base".toList), ("Id".toList, "Base".toList)]
    [("Msg".toList, .type (.mk (.sequence
        [.mk "id".toList (.mk (.reference "Id".toList) none) false none,
         .mk "kind".toList (.mk (.reference "Kind".toList) none) true none,
         .mk "body".toList (.mk (.reference "Body".toList) none) false none] [] false) none)),
     ("Kind".toList, .type (.mk (.enumerated [⟨"a".toList, none⟩, ⟨"b".toList, none⟩] none []) none)),
     ("Body".toList, .type bodyType)]

@[inherit_doc baseModule]
def schema : List Module := [mainModule, baseModule]

/-- `max` is 10. -/
def maxNames : Hampi.Spec.Names := ⟨fun x => if x = "max".toList then some 10 else none, fun _ _ => False⟩

theorem max_defined : DefinesInteger (.value (.mk (.integer none) none) "10".toList) 10 :=
  ⟨none, none, _, rfl, .inl rfl, .inl ⟨⟨by decide, by decide⟩, by decide⟩, by unfold fits128; decide⟩

theorem max_number : DefinesNumber schema baseModule (.value (.mk (.integer none) none) "10".toList) 10 :=
  ⟨_, _, none, rfl, .here nofun, .inl ⟨⟨by decide, by decide⟩, by decide⟩, by unfold fits128; decide⟩

theorem maxNames_int {x : Text} {v : Int} (h : maxNames.int x = some v) : x = "max".toList ∧ v = 10 := by
  simp only [maxNames] at h
  split at h
  · rename_i hx; exact ⟨hx, by cases h; rfl⟩
  · cases h

theorem max_in_base : InScope (Sees schema baseModule) maxNames := by
  intro x v h
  obtain ⟨rfl, rfl⟩ := maxNames_int h
  exact ⟨_, _, .own List.mem_cons_self, max_defined⟩

theorem max_in_main : InScope (Sees schema mainModule) maxNames := by
  intro x v h
  obtain ⟨rfl, rfl⟩ := maxNames_int h
  exact ⟨baseModule, _, .imported ⟨List.mem_cons_self, by simp [schema], List.mem_cons_self⟩, max_defined⟩

theorem maxNames_proper : maxNames.Proper := by
  intro x v h
  obtain ⟨rfl, rfl⟩ := maxNames_int h
  exact ⟨not_numeral_word (w := "max".toList) rfl (by decide) (by decide) (by decide), by decide, by decide⟩

/-- The codec of `Id`. -/
def idTy : Ty := .integer .u8 (some 0) (some 10) false

/-- The codec of `Body`. -/
def bodyTy : Ty :=
  .choice 0 1 true (.cons 0 false (.octetstring (some 1) (some 10) false)
    (.cons 1 false (.sequenceOf (some 0) (some 3) false idTy) (.cons 0 true .null .nil)))

/-- The codec of `Msg`. -/
def msgTy : Ty :=
  .sequence false 1 (.required false idTy (.optional 0 (.enumerated .u8 (some 0) (some 1) false)
    (.required false bodyTy .nil)))

theorem digit {c : Char} {v : Int} (h : Hampi.Spec.Digits [c]) (e : v = Hampi.Spec.decimal [c]) : Hampi.Spec.Numeral [c] v :=
  .inl ⟨h, e⟩

theorem id_described {lax : Bool} : Describes lax schema (.module baseModule) (.mk (.integer none)
    (some [.subtype (.mk [[.range "0".toList true "max".toList true]] none)])) idTy :=
  .boundedInteger max_in_base
    (bounded_range maxNames_proper (.inl (digit ⟨by decide, by decide⟩ (by decide))) (.inr rfl) (by decide)
      (by decide) (by decide))
    (.unsigned (by decide) (by decide) rfl (by decide) (.inl rfl))

theorem id_seen : Sees schema mainModule "Id".toList baseModule ⟨.type (.mk (.integer none)
    (some [.subtype (.mk [[.range "0".toList true "max".toList true]] none)])), none⟩ :=
  .imported ⟨by simp [mainModule, plainModule, baseModule], by simp [schema], by simp [baseModule, plainModule]⟩

theorem body_described {lax : Bool} : Describes lax schema (.module mainModule) bodyType bodyTy := by
  refine .extensibleChoice (.inl rfl) (by simp) (.cons (.null (.inl rfl)) .nil) (.cons ?_ (.cons ?_ .nil))
  · exact .octetString max_in_main (.size (bounded_range maxNames_proper
      (.inl (digit ⟨by decide, by decide⟩ (by decide))) (.inr rfl) (by decide) (by decide) (by decide)) (by decide))
  · exact .sequenceOf (.inl rfl) (fun _ _ h => by cases h) (.size (bounded_range noNames_proper
      (.inl (digit ⟨by decide, by decide⟩ (by decide))) (.inl (digit ⟨by decide, by decide⟩ (by decide)))
      (by decide) (by decide) (by decide)) (by decide)) (.reference (.inl (.inl rfl)) id_seen id_described)

theorem kind_described {lax : Bool} : Describes lax schema (.module mainModule)
    (.mk (.enumerated [⟨"a".toList, none⟩, ⟨"b".toList, none⟩] none []) none)
    (.enumerated .u8 (some 0) (some 1) false) :=
  .enumerated (by simp) (by decide) (by simp) (.inl rfl) (.inl rfl)

theorem msg_described {lax : Bool} : Describes lax schema (.module mainModule) (.mk (.sequence
        [.mk "id".toList (.mk (.reference "Id".toList) none) false none,
         .mk "kind".toList (.mk (.reference "Kind".toList) none) true none,
         .mk "body".toList (.mk (.reference "Body".toList) none) false none] [] false) none) msgTy :=
  .sequence (.inl rfl) (.required (.inl rfl) (.reference (.inl (.inl rfl)) id_seen id_described)
    (.optional (.reference (.inl (.inl rfl)) (.own (by simp [mainModule, plainModule])) kind_described)
      (.required (.inl rfl) (.reference (.inl (.inl rfl)) (.own (by simp [mainModule, plainModule])) body_described) .nil)))

theorem word_names {ds : List (Text × Definition)}
    (h : (ds.all fun d => (d.1.head?.elim false Char.isAlpha) && d.1.all fun c => c.isAlphanum || c == '-') = true) :
    ∀ d ∈ ds, IsName d.1 := by
  intro d hd
  have := List.all_eq_true.mp h d hd
  rw [Bool.and_eq_true] at this
  refine ⟨?_, fun c hc => by simpa using List.all_eq_true.mp this.2 c hc⟩
  obtain ⟨x, d⟩ := d
  cases x with
  | nil => exact absurd this.1 (by simp)
  | cons c cs => exact ⟨c, cs, rfl, by simpa using this.1⟩

theorem schema_proper : ProperSchema schema where
  modules := by decide
  definitions := by
    intro M hM
    simp only [schema, List.mem_cons, List.not_mem_nil, or_false] at hM
    rcases hM with rfl | rfl <;> decide
  distinct := by
    intro M hM N hN k d e h1 h2
    simp only [schema, List.mem_cons, List.not_mem_nil, or_false] at hM hN
    rcases hM with rfl | rfl <;> rcases hN with rfl | rfl <;> first | rfl | skip
    all_goals
      exfalso
      simp only [mainModule, baseModule, plainModule, List.map_cons, List.map_nil, List.mem_cons, Prod.mk.injEq,
        List.not_mem_nil, or_false] at h1 h2
      rcases h1 with ⟨rfl, -⟩ | ⟨rfl, -⟩ | ⟨rfl, -⟩ <;> revert h2 <;> simp
  names := by
    intro M hM
    simp only [schema, List.mem_cons, List.not_mem_nil, or_false] at hM
    rcases hM with rfl | rfl
    · exact word_names (by decide)
    · exact word_names (by decide)
  imports := by
    intro M hM
    simp only [schema, List.mem_cons, List.not_mem_nil, or_false] at hM
    rcases hM with rfl | rfl
    · exact fun i hi => ⟨⟨baseModule, by simp [schema], by revert i; decide⟩, by revert i; decide⟩
    · exact fun i hi => absurd hi (by simp [baseModule, plainModule])
  order := ⟨fun x => if x = "Main".toList then 1 else 0, by
    intro M hM
    simp only [schema, List.mem_cons, List.not_mem_nil, or_false] at hM
    rcases hM with rfl | rfl
    · decide
    · exact fun i hi => absurd hi (by simp [baseModule, plainModule])⟩
  acyclic := by
    intro M hM
    simp only [schema, List.mem_cons, List.not_mem_nil, or_false] at hM
    rcases hM with rfl | rfl
    · exact ⟨fun x => if x = "Msg".toList then 1 else 0, by decide⟩
    · exact ⟨fun x => if x = "Id".toList then 1 else 0, by decide⟩
  proper := by
    intro M hM d hd
    simp only [schema, List.mem_cons, List.not_mem_nil, or_false] at hM
    rcases hM with rfl | rfl
    · simp only [mainModule, plainModule, List.map_cons, List.map_nil, List.mem_cons, List.not_mem_nil,
        or_false] at hd
      rcases hd with rfl | rfl | rfl
      · exact .type msg_described
      · exact .type kind_described
      · exact .type body_described
    · simp only [baseModule, plainModule, List.map_cons, List.map_nil, List.mem_cons, List.not_mem_nil,
        or_false] at hd
      rcases hd with rfl | rfl
      · exact .value ⟨_, _, rfl, by decide⟩ (.integer (.inl rfl)) max_number
      · exact .type id_described

theorem schema_read : ReadAs schema schema := by
  refine .cons ⟨rfl, rfl, ?_⟩ (.cons ⟨rfl, rfl, ?_⟩ .nil)
  · exact .cons (.other (by simp) (by simp)) (.cons (.other (by simp) (by simp)) (.cons (.other (by simp) (by simp)) .nil))
  · exact .cons (.other (by simp) (by simp)) (.cons (.other (by simp) (by simp)) .nil)

/-- The theorems apply to this schema. -/
example := C95_schema_compiles schema schema schema_read schema_proper

/-- `{ id 7, kind b, body list : { 3, 10 } }`. -/
def msgVal : msgTy.Val :=
  show Int × Option Int × (List UInt8 ⊕ List Int ⊕ Unit ⊕ Empty) × Unit from (7, some 1, .inr (.inl [3, 10]), ())

theorem msg_size : SizeOk (some 0) (some 3) 2 :=
  ⟨⟨by rintro l ⟨⟩; decide, by rintro u ⟨⟩; decide⟩, ⟨by rintro l ⟨⟩; decide, by rintro u ⟨⟩; decide⟩,
    .inr (by decide)⟩

theorem msg_permitted : msgTy.Permitted msgVal := by
  refine ⟨by decide, (show IntPermitted (some 0) (some 10) 7 from ⟨by decide, by decide, by decide, .inl (by decide)⟩),
    ⟨by decide, by decide, by decide, .inl (by decide)⟩,
    ⟨by decide, by decide, by decide, rfl, ?_, ?_⟩, trivial⟩
  · exact msg_size
  · intro x hx
    have hx : x ∈ [(3 : Int), 10] := hx
    rcases List.mem_cons.mp hx with rfl | hx
    · exact ⟨by decide, by decide, by decide, .inl (by decide)⟩
    · cases List.eq_of_mem_singleton hx
      exact ⟨by decide, by decide, by decide, .inl (by decide)⟩

theorem msg_carried : Carried msgTy msgVal := by
  refine ⟨(show IntValueOk .u8 (some 0) 7 from ⟨by decide, nofun⟩), ⟨by decide, nofun⟩, ⟨nofun, ?_⟩, trivial⟩
  intro x hx
  have hx : x ∈ [(3 : Int), 10] := hx
  rcases List.mem_cons.mp hx with rfl | hx
  · exact ⟨by decide, nofun⟩
  · cases List.eq_of_mem_singleton hx
    exact ⟨by decide, nofun⟩

theorem msg_regular : msgTy.Regular msgVal := by
  refine ⟨rfl, ⟨by decide, by decide⟩, ⟨by decide, by decide⟩, ⟨by decide, rfl, ?_, ?_⟩, trivial⟩
  · exact msg_size
  · intro x hx
    have hx : x ∈ [(3 : Int), 10] := hx
    rcases List.mem_cons.mp hx with rfl | hx
    · exact ⟨by decide, by decide⟩
    · cases List.eq_of_mem_singleton hx
      exact ⟨by decide, by decide⟩

/-- And to this value. -/
example := C96_wire_partial schema schema schema_read schema_proper mainModule (by simp [schema]) "Msg".toList _
  (by simp [mainModule, plainModule]) false msgTy msg_described msgVal msg_permitted

end Hampi.Compiler.Props
