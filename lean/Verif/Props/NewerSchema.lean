import Verif.Spec.NewerSchema
import Verif.Props.Newer
import Verif.Props.Pipeline
/-!
# C122 for schemas as they are written

`describes_newer` carries `NewerType` (Spec/NewerSchema.lean) over to the codecs. It needs the bounds and the names of
both versions to agree, which they do because a name has one definition in all modules of a proper schema.
-/
namespace Hampi.Compiler.Props

open Hampi.Compiler.Spec
open Hampi.Spec (Numeral)

variable {ms ms' : List Module}

/-- A name that is defined in both schemas. -/
theorem twins (h' : ProperSchema ms') (hg : NewerSchema ms ms') {x : Text} {N N' : Module} {d d' : Definition}
    (hN : N ∈ ms) (hd : (x, d) ∈ N.definitions) (hN' : N' ∈ ms') (hd' : (x, d') ∈ N'.definitions) :
    NewerModule N N' ∧ NewerDefinition d d' := by
  obtain ⟨N2, hN2, hn⟩ := hg N hN
  obtain ⟨d2, hd2, hnd⟩ := hn.definitions x d hd
  obtain ⟨rfl, rfl⟩ := same_definition h' hN2 hN' hd2 hd'
  exact ⟨hn, hnd⟩

/-! ## Bounds -/

section
variable (h : ProperSchema ms) (h' : ProperSchema ms') (hg : NewerSchema ms ms')
  {sees sees' : Text → Module → Definition → Prop} (hs : Honest ms sees) (hs' : Honest ms' sees') {ns ns' : Hampi.Spec.Names}
  (hn : InScope sees ns) (hn' : InScope sees' ns')
include h h' hg hs hs' hn hn'

omit h in
theorem values_agree {x : Text} {v v' : Int} (hv : ns.int x = some v) (hv' : ns'.int x = some v') : v = v' := by
  obtain ⟨N, a, h1, h2⟩ := hn x v hv
  obtain ⟨N', a', h1', h2'⟩ := hn' x v' hv'
  obtain ⟨-, hd⟩ := twins h' hg (hs _ _ _ h1).1 (hs _ _ _ h1).2 (hs' _ _ _ h1').1 (hs' _ _ _ h1').2
  obtain ⟨_, _, num, rfl, _, hnum, _⟩ := h2
  obtain ⟨_, _, num', rfl, _, hnum', _⟩ := h2'
  cases hd with
  | same => exact hnum.unique hnum'

theorem bounded_same {e : ElementSet} {lb ub lb' ub' : Int} {ext ext' : Bool} (hb : Bounded ns e lb ub ext)
    (hb' : Bounded ns' e lb' ub' ext') : lb = lb' ∧ ub = ub' ∧ ext = ext' ∧
      ∃ vs : ValueSet, vs.root.min = some lb ∧ vs.root.max = some ub := by
  have hp := hn.proper h hs
  have hp' := hn'.proper h' hs'
  obtain ⟨vs, e1, m1, x1, a1⟩ := hb.values hp
  obtain ⟨vs', e2, m2, x2, a2⟩ := hb'.values hp'
  have c1 := hb.congr (env := fun x => (ns.int x).or (ns'.int x)) (fun x v _ hx => by simp [hx]) (hn.names h hs)
  have c2 := hb'.congr (env := fun x => (ns.int x).or (ns'.int x)) (fun x v _ hx => by
    cases hy : ns.int x with
    | none => simp [hx]
    | some w => simp [values_agree h' hg hs hs' hn hn' hy hx]) (hn'.names h' hs')
  rw [c1, e1, e2] at c2
  cases c2
  rw [m1] at m2; rw [x1] at x2
  cases m2; cases x2
  exact ⟨rfl, rfl, a1.symm.trans a2, vs, m1, x1⟩

theorem sized_same {cs : Option (List Constraint)} {lb ub lb' ub' : Option Int} {ext ext' : Bool}
    (hb : Sized ns cs lb ub ext) (hb' : Sized ns' cs lb' ub' ext') : lb = lb' ∧ ub = ub' ∧ ext = ext' := by
  cases hb with
  | any hc =>
    cases hb' with
    | any => exact ⟨rfl, rfl, rfl⟩
    | size => rcases hc with hc | hc <;> cases hc
  | size hb _ =>
    cases hb' with
    | any hc => rcases hc with hc | hc <;> cases hc
    | size hb' _ =>
      obtain ⟨rfl, rfl, rfl, _⟩ := bounded_same h h' hg hs hs' hn hn' hb hb'
      exact ⟨rfl, rfl, rfl⟩

end

theorem holder_same {lb ub : Int} {w w' : Width} (h : Holder lb ub w) (h' : Holder lb ub w')
    (hv : ∃ vs : ValueSet, vs.root.min = some lb ∧ vs.root.max = some ub) : w = w' := by
  obtain ⟨vs, h1, h2⟩ := hv
  obtain ⟨b, e1, e2⟩ := h.integer h1 h2
  obtain ⟨b', e1', e2'⟩ := h'.integer h1 h2
  rw [e1] at e1'
  cases e1'
  rw [e2] at e2'
  cases e2'
  rfl

/-! ## Objects -/

theorem imports_newer (hg : NewerSchema ms ms') {M M' N : Module} (hm : NewerModule M M')
    {x : Text} {d : Definition} (hi : Imports ms M x N d) :
    ∃ N' d', Imports ms' M' x N' d' ∧ NewerModule N N' ∧ NewerDefinition d d' := by
  obtain ⟨N', hN', hn⟩ := hg N hi.2.1
  obtain ⟨d', hd', hnd⟩ := hn.definitions _ _ hi.2.2
  refine ⟨N', d', ⟨?_, hN', hd'⟩, hn, hnd⟩
  rw [hn.name]
  exact hm.imports _ hi.1

theorem sees_newer (hg : NewerSchema ms ms') {M M' N : Module} (hm : NewerModule M M')
    {x : Text} {d : Definition} (hi : Sees ms M x N d) :
    ∃ N' d', Sees ms' M' x N' d' ∧ NewerModule N N' ∧ NewerDefinition d d' := by
  cases hi with
  | own hd =>
    obtain ⟨d', hd', hnd⟩ := hm.definitions _ _ hd
    exact ⟨M', d', .own hd', hm, hnd⟩
  | imported hi =>
    obtain ⟨N', d', h1, h2, h3⟩ := imports_newer hg hm hi
    exact ⟨N', d', .imported h1, h2, h3⟩

theorem behind_newer (hg : NewerSchema ms ms') {M : Module} {ty : AsnType}
    {named : Option (List (Text × NamedValue))} {k : Kind} (hk : k = .integer named) (hb : Behind ms M ty k) :
    ∀ M', NewerModule M M' → Behind ms' M' ty k := by
  induction hb with
  | here hr => exact fun _ _ => .here hr
  | reference hs hb ih =>
    intro M' hm
    obtain ⟨N', d', h1, h2, h3⟩ := sees_newer hg hm hs
    subst hk
    cases h3 with
    | same => exact .reference h1 (ih rfl N' h2)
    | type h3 =>
      have : NewerType _ _ := h3
      cases h3 with
      | same => exact .reference h1 (ih rfl N' h2)
      | _ => cases hb

theorem keyOf_newer (hg : NewerSchema ms ms') {N N' : Module} (hm : NewerModule N N')
    {fs : List (Text × ObjectField)} {u name : Text} {k : Int} (hk : KeyOf ms (N, fs) u name k) :
    KeyOf ms' (N', fs) u name k := by
  obtain ⟨ty, N2, a, h1, h2, ty2, num, named, rfl, h3, h4⟩ := hk
  obtain ⟨N2', d', h5, h6, h7⟩ := imports_newer hg hm h2
  cases h7 with
  | same => exact ⟨ty, N2', _, h1, h5, ty2, num, named, rfl, behind_newer hg rfl h3 _ h6, h4⟩

/-- The objects of one element. -/
theorem objects_element {cls : Text} {M : Module} {es : List SetElement} {os : List Written} (ho : Objects ms cls M es os) :
    ∀ e ∈ es, ∃ oe, Objects ms cls M [e] oe ∧ ∀ o ∈ oe, o ∈ os := by
  induction ho with
  | nil => nofun
  | object _ ih =>
    intro e he
    rcases List.mem_cons.mp he with rfl | he
    · exact ⟨_, .object .nil, fun o ho => by
        rcases List.mem_cons.mp ho with rfl | ho
        · exact List.mem_cons_self
        · cases ho⟩
    · obtain ⟨oe, h1, h2⟩ := ih e he
      exact ⟨oe, h1, fun o ho => List.mem_cons_of_mem _ (h2 o ho)⟩
  | objectRef hs _ ih =>
    intro e he
    rcases List.mem_cons.mp he with rfl | he
    · exact ⟨_, .objectRef hs .nil, fun o ho => by
        rcases List.mem_cons.mp ho with rfl | ho
        · exact List.mem_cons_self
        · cases ho⟩
    · obtain ⟨oe, h1, h2⟩ := ih e he
      exact ⟨oe, h1, fun o ho => List.mem_cons_of_mem _ (h2 o ho)⟩
  | setRef hs h1 _ _ ih =>
    intro e he
    rcases List.mem_cons.mp he with rfl | he
    · exact ⟨_, .setRef hs h1 .nil, fun o ho => by
        rw [List.append_nil] at ho
        exact List.mem_append_left _ ho⟩
    · obtain ⟨oe, h1, h2⟩ := ih e he
      exact ⟨oe, h1, fun o ho => List.mem_append_right _ (h2 o ho)⟩

theorem objects_newer (h' : ProperSchema ms') (hg : NewerSchema ms ms') {cls : Text} {M : Module} {es : List SetElement}
    {os : List Written} (ho : Objects ms cls M es os) : M ∈ ms → ∀ M' ∈ ms', NewerModule M M' → ∀ es' os',
    (∀ e ∈ es, e ∈ es') → Objects ms' cls M' es' os' → ∀ N fs, (N, fs) ∈ os →
    N ∈ ms ∧ ∃ N' ∈ ms', NewerModule N N' ∧ (N', fs) ∈ os' := by
  induction ho with
  | nil => intros; contradiction
  | object _ ih =>
    intro hM M' hM' hm es' os' hes ho' N fs hN
    rcases List.mem_cons.mp hN with hN | hN
    · cases hN
      obtain ⟨oe, h1, h2⟩ := objects_element ho' _ (hes _ List.mem_cons_self)
      cases h1 with
      | object h1 => exact ⟨hM, M', hM', hm, h2 _ List.mem_cons_self⟩
    · exact ih hM M' hM' hm es' os' (fun e he => hes e (List.mem_cons_of_mem _ he)) ho' N fs hN
  | objectRef hs _ ih =>
    intro hM M' hM' hm es' os' hes ho' N fs hN
    rcases List.mem_cons.mp hN with hN | hN
    · cases hN
      obtain ⟨oe, h1, h2⟩ := objects_element ho' _ (hes _ List.mem_cons_self)
      cases h1 with
      | objectRef hs' h1 =>
        obtain ⟨p1, p2⟩ := hs.mem hM
        obtain ⟨p1', p2'⟩ := hs'.mem hM'
        obtain ⟨hn, hd⟩ := twins h' hg p1 p2 p1' p2'
        cases hd with
        | same => exact ⟨p1, _, p1', hn, h2 _ List.mem_cons_self⟩
    · exact ih hM M' hM' hm es' os' (fun e he => hes e (List.mem_cons_of_mem _ he)) ho' N fs hN
  | setRef hs _ _ ih1 ih2 =>
    intro hM M' hM' hm es' os' hes ho' N fs hN
    rcases List.mem_append.mp hN with hN | hN
    · obtain ⟨oe, h1, h2⟩ := objects_element ho' _ (hes _ List.mem_cons_self)
      cases h1 with
      | setRef hs' h1 h3 =>
        cases h3
        rw [List.append_nil] at h2
        obtain ⟨p1, p2⟩ := hs.mem hM
        obtain ⟨p1', p2'⟩ := hs'.mem hM'
        obtain ⟨hn, hd⟩ := twins h' hg p1 p2 p1' p2'
        obtain ⟨q1, N', q2, q3, q4⟩ := ih1 p1 _ p1' hn _ _ (by
          cases hd with
          | same => exact fun e he => he
          | objectSet hsub => exact hsub) h1 N fs hN
        exact ⟨q1, N', q2, q3, h2 _ q4⟩
    · exact ih2 hM M' hM' hm es' os' (fun e he => hes e (List.mem_cons_of_mem _ he)) ho' N fs hN

/-! ## Types -/

theorem tableOf_unique {k : Constraint} {S S' : Text} {c c' : Option Text} (h : TableOf k S c) (h' : TableOf k S' c') :
    S = S' ∧ c = c' := by
  cases h with
  | simple =>
    generalize hk : Constraint.subtype _ = k at h'
    cases h' with
    | simple =>
      injection hk with hk
      injection hk with hk _
      injection hk with hk _
      injection hk with hk _
      injection hk with hk
      injection hk with _ hk
      injection hk with _ hk
      exact ⟨List.append_cancel_right hk, rfl⟩
    | relation => cases hk
  | relation =>
    cases h' with
    | relation => exact ⟨rfl, rfl⟩

theorem NewerComponents.refl : (cs : List SeqComponent) → NewerComponents cs cs
  | [] => .nil
  | .mk _ _ _ _ :: cs => .cons (.same _) (NewerComponents.refl cs)

theorem NewerAlternatives.refl : (cs : List Component) → NewerAlternatives cs cs
  | [] => .nil
  | .mk _ _ :: cs => .cons (.same _) (NewerAlternatives.refl cs)

theorem NewerAlternatives.length : {cs ds : List Component} → NewerAlternatives cs ds → ds.length = cs.length
  | _, _, .nil => rfl
  | _, _, .cons _ h => congrArg (· + 1) (NewerAlternatives.length h)

/-- A component that is a field of a class and has a table constraint. -/
inductive FromTable (S : Text) (c : Option Text) : SeqComponent → Prop
  | mk {id cls field k ks opt d} : TableOf k S c → FromTable S c (.mk id (.mk (.classField cls field) (some (k :: ks))) opt d)

theorem FromTable.unique {S S' : Text} {c c' : Option Text} {comp : SeqComponent} (h : FromTable S c comp)
    (h' : FromTable S' c' comp) : S = S' := by
  cases h with
  | mk h =>
    cases h' with
    | mk h' => exact (tableOf_unique h h').1

theorem table_head {lax : Bool} {T : ObjectTable} {comps : List SeqComponent} {fs : Fields} (hne : comps ≠ [])
    (h : DescribesTable lax ms T comps fs) : ∃ c comp rest, comps = comp :: rest ∧ FromTable T.set c comp := by
  cases h with
  | nil => exact absurd rfl hne
  | key h => exact ⟨_, _, _, rfl, .mk h⟩
  | value h => exact ⟨_, _, _, rfl, .mk h⟩
  | openType h => exact ⟨_, _, _, rfl, .mk h⟩

/-- Fields of a class are the same in both versions. -/
theorem fromTable_newer {S : Text} {c : Option Text} {comp comp' : SeqComponent} {comps comps' : List SeqComponent}
    (h : NewerComponents (comp :: comps) (comp' :: comps')) (ht : FromTable S c comp ∨ FromTable S c comp') :
    comp = comp' ∧ FromTable S c comp := by
  cases h with
  | cons hty _ =>
    rcases ht with ht | ht
    · cases ht with
      | mk h => cases hty; exact ⟨rfl, .mk h⟩
    · cases ht with
      | mk h => cases hty; exact ⟨rfl, .mk h⟩

/-- They are no types by themselves. -/
theorem fromTable_not {lax : Bool} {σ : Scope} {i n : Nat} {fs : Fields} {S : Text} {c : Option Text} {comp : SeqComponent}
    {comps : List SeqComponent} (ht : FromTable S c comp) (h : DescribesFields lax ms σ i (comp :: comps) n fs) : False := by
  cases ht with
  | mk =>
    cases h with
    | required _ h _ => cases h
    | optional h _ => cases h

/-- Two tables for the same set. -/
structure Twins (ms ms' : List Module) (T T' : ObjectTable) : Prop where
  home : T.home ∈ ms
  home' : T'.home ∈ ms'
  fields : T.fields = T'.fields
  nodup : (T.fields.map (·.1)).Nodup
  unique : T.unique = T'.unique
  objects : ∀ N fs, (N, fs) ∈ T.objects → N ∈ ms ∧ ∃ N' ∈ ms', NewerModule N N' ∧ (N', fs) ∈ T'.objects
  proper : ∀ o ∈ T'.objects, (o.2.map (·.1)).Nodup

theorem twin_tables (h : ProperSchema ms) (h' : ProperSchema ms') (hg : NewerSchema ms ms') {σ σ' : Scope} (hσ : σ.In ms)
    (hσ' : σ'.In ms') {T T' : ObjectTable} (hT : TableIn ms σ T) (hT' : TableIn ms' σ' T') (hset : T.set = T'.set) :
    Twins ms ms' T T' := by
  obtain ⟨N, root, add, h1, h2, h3⟩ := hT.seen
  obtain ⟨N', root', add', h1', h2', h3'⟩ := hT'.seen
  obtain ⟨p1, p2⟩ := Scope.Sees.mem hσ _ _ _ h1
  obtain ⟨p1', p2'⟩ := Scope.Sees.mem hσ' _ _ _ h1'
  rw [← hset] at p2'
  obtain ⟨hm, hd⟩ := twins h' hg p1 p2 p1' p2'
  have hcs : T'.cls = T.cls ∧ ∀ e ∈ root ++ add, e ∈ root' ++ add' := by
    generalize hx : Definition.mk (.objectSet T.cls root add) none = x at hd
    generalize hy : Definition.mk (.objectSet T'.cls root' add') none = y at hd
    cases hd with
    | same =>
      rw [← hx] at hy
      injection hy with hy
      injection hy with e1 e2 e3
      subst e2 e3
      exact ⟨e1, fun _ he => he⟩
    | objectSet hsub =>
      injection hx with hx
      injection hy with hy
      injection hx with a1 a2 a3
      injection hy with b1 b2 b3
      subst a2 a3 b2 b3
      exact ⟨b1.trans a1.symm, hsub⟩
    | type => injection hx with hx; cases hx
    | parameterized => injection hx with hx; cases hx
  obtain ⟨q1, q2⟩ := h2.mem p1
  obtain ⟨q1', q2'⟩ := h2'.mem p1'
  rw [hcs.1] at q2' h3' h2'
  obtain ⟨-, hcd⟩ := twins h' hg q1 q2 q1' q2'
  have hf : T.fields = T'.fields := by
    generalize hx : Definition.mk (.class T.fields) none = x at hcd
    generalize hy : Definition.mk (.class T'.fields) none = y at hcd
    cases hcd with
    | same =>
      rw [← hx] at hy
      injection hy with hy
      injection hy with hy
      exact hy.symm
    | objectSet => injection hx with hx; cases hx
    | type => injection hx with hx; cases hx
    | parameterized => injection hx with hx; cases hx
  refine ⟨q1, q1', hf, ?_, ?_, fun M fs => objects_newer h' hg h3 p1 N' p1' hm _ _ hcs.2 h3' M fs, fun o ho => ?_⟩
  · generalize hx : Definition.mk (.class T.fields) none = x at q2
    cases h.proper _ q1 _ q2 with
    | «class» hn => injection hx with hx; injection hx with hx; rw [hx]; exact hn
    | type => injection hx with hx; cases hx
    | parameterized => injection hx with hx; cases hx
    | value => injection hx with hx; cases hx
    | object => injection hx with hx; cases hx
    | objectSet => injection hx with hx; cases hx
  · obtain ⟨id, ty, opt, d, w, hu⟩ := hT.unique.1
    rw [hf] at hu
    exact hT'.unique.2 _ _ _ _ _ _ hu
  · cases h'.proper _ p1' _ p2' with
    | objectSet hs he =>
      obtain ⟨rfl, hcf⟩ := sees_unique h' p1' p1' hs (hcs.1 ▸ h2')
      exact (objects_proper h' h3' p1' (hcs.1 ▸ hs) (hcs.1 ▸ he) o ho).2.2.1.1

theorem describesAlts_split {lax : Bool} {σ : Scope} {x : Bool} {rest : Alts} (bs more : List Component) :
    ∀ {i as}, DescribesAlts lax ms σ x i (bs ++ more) rest as →
    ∃ mid, DescribesAlts lax ms σ x i bs mid as := by
  induction bs with
  | nil => exact fun h => ⟨_, .nil⟩
  | cons b bs ih =>
    intro i as h
    cases h with
    | cons ht h =>
      obtain ⟨mid, h2⟩ := ih h
      exact ⟨mid, .cons ht h2⟩

theorem describesOpen_keys {lax : Bool} {l : List (Text × Int × Module × AsnType)} {as : Alts}
    (h : DescribesOpen lax ms l as) : as.keys = l.map (·.2.1) := by
  induction l generalizing as with
  | nil => cases h; rfl
  | cons e l ih =>
    cases h with
    | cons _ h =>
      show _ :: _ = _ :: _
      rw [ih h]

theorem describesOpen_skip {lax : Bool} (rest pre : List (Text × Int × Module × AsnType)) :
    ∀ {as}, DescribesOpen lax ms (pre ++ rest) as → ∃ mid, DescribesOpen lax ms rest mid ∧
      ∀ old : Alts, (∀ e ∈ pre, e.2.1 ∉ old.keys) → old.Newer mid → old.Newer as := by
  induction pre with
  | nil => exact fun h => ⟨_, h, fun _ _ h => h⟩
  | cons e pre ih =>
    intro as h
    cases h with
    | cons _ h =>
      obtain ⟨mid, h1, h2⟩ := ih h
      exact ⟨mid, h1, fun old hk hn => .add (hk _ List.mem_cons_self) (h2 old (fun k hm => hk k (List.mem_cons_of_mem _ hm)) hn)⟩

theorem describesOpen_head {lax : Bool} {e : Text × Int × Module × AsnType} {l : List (Text × Int × Module × AsnType)}
    {as : Alts} (h : DescribesOpen lax ms (e :: l) as) :
    ∃ t rest, as = .cons e.2.1 false t rest ∧ Describes lax ms (.module e.2.2.1) e.2.2.2 t ∧ DescribesOpen lax ms l rest := by
  cases h with
  | cons h1 h2 => exact ⟨_, _, rfl, h1, h2⟩

theorem textType_unique {st : Text} {k k' : CharKind} (h : TextType st k) (h' : TextType st k') : k = k' := by
  generalize hs : st = s at h'
  cases h <;> cases h' <;> first | rfl | (revert hs; decide)

/-- What the first component of a table is. -/
theorem table_inv {lax : Bool} {T : ObjectTable} {id cls field : Text} {k : Constraint} {ks : List Constraint} {opt : Bool}
    {d : Option Text} {rest : List SeqComponent} {fs : Fields}
    (h : DescribesTable lax ms T (.mk id (.mk (.classField cls field) (some (k :: ks))) opt d :: rest) fs) :
    (∃ ty t fs0 id opt d w, TableOf k T.set none ∧ field = T.unique ∧
      (T.unique, .fixedTypeValue id ty true opt d w) ∈ T.fields ∧ Describes lax ms (.module T.home) ty t ∧
      DescribesTable lax ms T rest fs0 ∧ fs = .required true t fs0) ∨
    (∃ c ty t fs0 id u opt d w, TableOf k T.set (some c) ∧ (field, .fixedTypeValue id ty u opt d w) ∈ T.fields ∧
      Describes lax ms (.module T.home) ty t ∧ DescribesTable lax ms T rest fs0 ∧ fs = .required false t fs0) ∨
    (∃ c l as fs0 id opt d w, TableOf k T.set (some c) ∧ (field, .type id opt d w) ∈ T.fields ∧
      Alternatives ms T field l ∧ DescribesOpen lax ms l as ∧ DescribesTable lax ms T rest fs0 ∧
      fs = .required false (.openType as) fs0) := by
  generalize hc : SeqComponent.mk _ _ _ _ :: _ = cs at h
  cases h with
  | nil => cases hc
  | key h1 h2 h3 h4 =>
    injection hc with hc hr
    injection hc with e1 e2 e3 e4
    injection e2 with e2 e5
    injection e2 with e2 e6
    injection e5 with e5
    injection e5 with e5 e7
    subst hr e5 e6
    exact .inl ⟨_, _, _, _, _, _, _, h1, rfl, h2, h3, h4, rfl⟩
  | value h1 h2 h3 h4 h5 =>
    injection hc with hc hr
    injection hc with e1 e2 e3 e4
    injection e2 with e2 e5
    injection e2 with e2 e6
    injection e5 with e5
    injection e5 with e5 e7
    subst hr e5 e6
    exact .inr (.inl ⟨_, _, _, _, _, _, _, _, _, h1, h2, h4, h5, rfl⟩)
  | openType h1 h2 h3 h4 h5 =>
    injection hc with hc hr
    injection hc with e1 e2 e3 e4
    injection e2 with e2 e5
    injection e2 with e2 e6
    injection e5 with e5
    injection e5 with e5 e7
    subst hr e5 e6
    exact .inr (.inr ⟨_, _, _, _, _, _, _, _, h1, h2, h3, h4, h5, rfl⟩)

theorem newer_set {cls cls' : Text} {root add root' add' : List SetElement}
    (h : NewerDefinition ⟨.objectSet cls root add, none⟩ ⟨.objectSet cls' root' add', none⟩) : cls' = cls := by
  cases h with
  | same => rfl
  | objectSet => rfl

section
variable (h' : ProperSchema ms') (hg : NewerSchema ms ms')
include h' hg

/-- A set with objects has them in the newer version. -/
theorem still_objects {σ σ' : Scope} (hσ : σ.In ms) (hσ' : σ'.In ms') {S cls cls' : Text} {N N' : Module}
    {root add root' add' : List SetElement} {os : List Written} (hs : σ.Sees ms S N ⟨.objectSet cls root add, none⟩)
    (ho : Objects ms cls N (root ++ add) os) (hs' : σ'.Sees ms' S N' ⟨.objectSet cls' root' add', none⟩)
    (ho' : Objects ms' cls' N' (root' ++ add') []) : os = [] := by
  obtain ⟨p1, p2⟩ := Scope.Sees.mem hσ _ _ _ hs
  obtain ⟨p1', p2'⟩ := Scope.Sees.mem hσ' _ _ _ hs'
  obtain ⟨hm, hd⟩ := twins h' hg p1 p2 p1' p2'
  have hcs : cls' = cls ∧ ∀ e ∈ root ++ add, e ∈ root' ++ add' := by
    cases hd with
    | same => exact ⟨rfl, fun _ he => he⟩
    | objectSet hsub => exact ⟨rfl, hsub⟩
  obtain ⟨rfl, hsub⟩ := hcs
  cases os with
  | nil => rfl
  | cons o os =>
    obtain ⟨-, _, _, _, hmem⟩ := objects_newer h' hg ho p1 N' p1' hm _ _ hsub ho' o.1 o.2 List.mem_cons_self
    cases hmem

end

section
variable (h : ProperSchema ms) (h' : ProperSchema ms') (hg : NewerSchema ms ms') (he : StillEmpty ms ms')
include h h' hg he

set_option linter.unusedSectionVars false

mutual

theorem describes_newer {lax lax' : Bool} {σ σ' : Scope} (hσ : σ.In ms) (hσ' : σ'.In ms') {ty ty' : AsnType} {t t' : Ty}
    (hd : Describes lax ms σ ty t) (hn : NewerType ty ty') (hd' : Describes lax' ms' σ' ty' t') : t.Newer t' :=
  match hd with
  | .boolean _ => by cases hn; cases hd'; exact .same _
  | .null _ => by cases hn; cases hd'; exact .same _
  | .objectIdentifier _ => by cases hn; cases hd'; exact .same _
  | .integer hb => by
    cases hn
    cases hd' with
    | integer => exact .same _
    | boundedInteger => rcases hb with hb | hb <;> cases hb
  | .boundedInteger h1 h2 h3 => by
    cases hn
    cases hd' with
    | integer hb => rcases hb with hb | hb <;> cases hb
    | boundedInteger h1' h2' h3' =>
      obtain ⟨rfl, rfl, rfl, hv⟩ := bounded_same h h' hg (Scope.Sees.mem hσ) (Scope.Sees.mem hσ') h1 h1' h2 h2'
      obtain rfl := holder_same h3 h3' hv
      exact .same _
  | .enumerated .. => by
    cases hn with
    | same => cases hd'; exact .same _
    | enumerated => cases hd'; exact .same _
  | .bitString h1 h2 => by
    cases hn
    cases hd' with
    | bitString h1' h2' =>
      obtain ⟨rfl, rfl, rfl⟩ := sized_same h h' hg (Scope.Sees.mem hσ) (Scope.Sees.mem hσ') h1 h1' h2 h2'
      exact .same _
  | .octetString h1 h2 => by
    cases hn
    cases hd' with
    | octetString h1' h2' =>
      obtain ⟨rfl, rfl, rfl⟩ := sized_same h h' hg (Scope.Sees.mem hσ) (Scope.Sees.mem hσ') h1 h1' h2 h2'
      exact .same _
    | containing =>
      cases h2 with
      | any hb => rcases hb with hb | hb <;> cases hb
  | .containing => by
    cases hn
    cases hd' with
    | octetString h1' h2' =>
      cases h2' with
      | any hb => rcases hb with hb | hb <;> cases hb
    | containing => exact .same _
  | .characterString h0 h1 h2 => by
    cases hn
    cases hd' with
    | characterString h0' h1' h2' =>
      obtain ⟨rfl, rfl, rfl⟩ := sized_same h h' hg (Scope.Sees.mem hσ) (Scope.Sees.mem hσ') h1 h1' h2 h2'
      rw [textType_unique h0 h0']
      exact .same _
  | .reference _ h2 h3 => by
    cases hn
    cases hd' with
    | reference _ h2' h3' =>
      obtain ⟨p1, p2⟩ := Scope.Sees.mem hσ _ _ _ h2
      obtain ⟨p1', p2'⟩ := Scope.Sees.mem hσ' _ _ _ h2'
      obtain ⟨-, hnd⟩ := twins h' hg p1 p2 p1' p2'
      cases hnd with
      | same => exact describes_newer (σ := .module _) (σ' := .module _) p1 p1' h3 (.same _) h3'
      | type hty => exact describes_newer (σ := .module _) (σ' := .module _) p1 p1' h3 hty h3'
  | .sequence (comps := comps) (ext := ext) (cs := cs) (n := n) (fs := fs) _ h2 => by
    have key : ∀ comps' t', NewerComponents comps comps' → Describes lax' ms' σ' (.mk (.sequence comps' [] ext) cs) t' →
        (Ty.sequence ext n fs).Newer t' := by
      intro comps' t' hc hd'
      cases hd' with
      | sequence _ h2' =>
        obtain ⟨rfl, hf⟩ := describesFields_newer hσ hσ' h2 hc h2'
        exact .sequence hf
      | table _ hne _ h2' =>
        obtain ⟨c, comp, rest, rfl, hct⟩ := table_head hne h2'
        cases comps with
        | nil => cases hc
        | cons comp0 rest0 => exact (fromTable_not (fromTable_newer hc (.inr hct)).2 h2).elim
      | emptyTable _ _ hk =>
        cases comps with
        | nil => cases hc
        | cons comp0 rest0 => exact (fromTable_not (fromTable_newer hc (.inr (.mk hk))).2 h2).elim
    cases hn with
    | same => exact key _ _ (NewerComponents.refl _) hd'
    | sequence hc => exact key _ _ hc hd'
  | .sequenceOf (size := size) (ty := ty0) (cs := cs) (lb := lb) (ub := ub) (ext := ext) (t := t0) _ h1 h2 h3 => by
    have key : ∀ ty' t', NewerType ty0 ty' → Describes lax' ms' σ' (.mk (.sequenceOf size ty') cs) t' →
        (Ty.sequenceOf lb ub ext t0).Newer t' := by
      intro ty' t' hty hd'
      cases hd' with
      | sequenceOf _ h1' h2' h3' =>
        obtain ⟨rfl, rfl, rfl⟩ := sized_same h h' hg (Scope.Imports.mem hσ) (Scope.Imports.mem hσ') h1 h1' h2 h2'
        exact .sequenceOf (describes_newer hσ hσ' h3 hty h3')
    cases hn with
    | same => exact key _ _ (.same _) hd'
    | sequenceOf hty => exact key _ _ hty hd'
  | .choice (root := root) (cs := cs) (as := as) _ _ h3 => by
    have key : ∀ root' t', NewerAlternatives root root' → Describes lax' ms' σ' (.mk (.choice root' none) cs) t' →
        (Ty.choice 0 ((root.length : Int) - 1) false as).Newer t' := by
      intro root' t' hc hd'
      cases hd' with
      | choice _ _ h3' =>
        rw [NewerAlternatives.length hc]
        exact .choice (describesAlts_newer hσ hσ' h3 hc h3' .nil)
    cases hn with
    | same => exact key _ _ (NewerAlternatives.refl _) hd'
    | choice hc => exact key _ _ hc hd'
  | .extensibleChoice (root := root) (groups := groups) (cs := cs) (as := as) _ _ h3 h4 => by
    have key : ∀ root' groups' alts more t', NewerAlternatives root root' → NewerAlternatives (added groups) alts →
        added groups' = alts ++ more → Describes lax' ms' σ' (.mk (.choice root' (some groups')) cs) t' →
        (Ty.choice 0 ((root.length : Int) - 1) true as).Newer t' := by
      intro root' groups' alts more t' hc ha hm hd'
      cases hd' with
      | extensibleChoice _ _ h3' h4' =>
        rw [NewerAlternatives.length hc]
        change DescribesAlts lax' ms' σ' true 0 (added groups') .nil _ at h3'
        rw [hm] at h3'
        obtain ⟨mid, h3'⟩ := describesAlts_split _ _ h3'
        exact .choice (describesAlts_newer hσ hσ' h4 hc h4' (describesAlts_newer hσ hσ' h3 ha h3' .nil))
    cases hn with
    | same => exact key _ _ _ [] _ (NewerAlternatives.refl _) (NewerAlternatives.refl _) (List.append_nil _).symm hd'
    | extensibleChoice hc ha hm => exact key _ _ _ _ _ hc ha hm hd'
  | .parameterized _ h2 h3 _ h5 => by
    cases hn
    cases hd' with
    | parameterized _ h2' h3' _ h5' =>
      obtain ⟨p1, p2⟩ := Scope.Sees.mem hσ _ _ _ h2
      obtain ⟨p1', p2'⟩ := Scope.Sees.mem hσ' _ _ _ h2'
      obtain ⟨-, hnd⟩ := twins h' hg p1 p2 p1' p2'
      cases hnd with
      | same =>
        rw [h3] at h3'
        cases h3'
        exact describes_newer (σ := .inst _ _ _) (σ' := .inst _ _ _) ⟨hσ, p1⟩ ⟨hσ', p1'⟩ h5 (.same _) h5'
      | parameterized hf =>
        exact describes_newer (σ := .inst _ _ _) (σ' := .inst _ _ _) ⟨hσ, p1⟩ ⟨hσ', p1'⟩ h5 (hf _ _ _ h3 h3') h5'
  | .table (T := T) (comps := comps) (ext := ext) (cs := cs) (fs := fs) _ hne hT h4 => by
    have key : ∀ comps' t', NewerComponents comps comps' → Describes lax' ms' σ' (.mk (.sequence comps' [] ext) cs) t' →
        (Ty.sequence ext 0 fs).Newer t' := by
      intro comps' t' hc hd'
      obtain ⟨c, comp, rest, hcomps, hct⟩ := table_head hne h4
      have hc2 := hc
      rw [hcomps] at hc2
      cases comps' with
      | nil => cases hc2
      | cons comp' rest' =>
        obtain ⟨rfl, -⟩ := fromTable_newer hc2 (.inl hct)
        cases hd' with
        | sequence _ h2' => exact (fromTable_not hct h2').elim
        | table _ hne' hT' h4' =>
          obtain ⟨c', comp', rest', heq, hct'⟩ := table_head hne' h4'
          cases heq
          have htw := twin_tables h h' hg hσ hσ' hT hT' (hct.unique hct')
          exact .sequence (describesTable_newer htw hT' h4 hc h4')
        | emptyTable _ _ hk hs ho =>
          obtain ⟨N, root, add, g1, g2, g3⟩ := hT.seen
          have hset := hct.unique (.mk hk)
          rw [hset] at g1
          exact absurd (still_objects h' hg hσ hσ' g1 g3 hs ho) hT.objects
    cases hn with
    | same => exact key _ _ (NewerComponents.refl _) hd'
    | sequence hc => exact key _ _ hc hd'
  | .emptyTable (comps := comps) (ext := ext) (cs := cs) (k := k) (ks := ks) (id := id) (cls := cls) (field := field)
      (opt := opt) (d := d) _ _ hk hs ho => by
    have key : ∀ comps' t', NewerComponents (.mk id (.mk (.classField cls field) (some (k :: ks))) opt d :: comps) comps' →
        Describes lax' ms' σ' (.mk (.sequence comps' [] ext) cs) t' → (Ty.sequence ext 0 .nil).Newer t' := by
      intro comps' t' hc hd'
      cases comps' with
      | nil => cases hc
      | cons comp' rest' =>
        obtain ⟨rfl, hct⟩ := fromTable_newer hc (.inl (.mk hk))
        cases hd' with
        | sequence _ h2' => exact (fromTable_not hct h2').elim
        | table _ hne' hT' h4' =>
          obtain ⟨c', comp', rest', heq, hct'⟩ := table_head hne' h4'
          cases heq
          obtain ⟨N', root', add', g1, g2, g3⟩ := hT'.seen
          rw [← hct.unique hct'] at g1
          obtain ⟨p1, p2⟩ := Scope.Sees.mem hσ _ _ _ hs
          obtain ⟨p1', p2'⟩ := Scope.Sees.mem hσ' _ _ _ g1
          have hcls := newer_set (twins h' hg p1 p2 p1' p2').2
          rw [hcls] at p2' g3
          exact absurd (objects_unique h' g3 p1' (he _ p1 _ p1' _ _ _ _ _ _ p2 p2' ho)) hT'.objects
        | emptyTable => exact .same _
    cases hn with
    | same => exact key _ _ (NewerComponents.refl _) hd'
    | sequence hc => exact key _ _ hc hd'
termination_by structural hd

theorem describesFields_newer {lax lax' : Bool} {σ σ' : Scope} (hσ : σ.In ms) (hσ' : σ'.In ms') {i n n' : Nat}
    {cs cs' : List SeqComponent} {fs fs' : Fields} (hd : DescribesFields lax ms σ i cs n fs) (hn : NewerComponents cs cs')
    (hd' : DescribesFields lax' ms' σ' i cs' n' fs') : n = n' ∧ fs.Newer fs' :=
  match hd with
  | .nil => by cases hn; cases hd'; exact ⟨rfl, .nil⟩
  | .required _ h1 h2 => by
    cases hn with
    | cons hty hn =>
      cases hd' with
      | required _ h1' h2' =>
        obtain ⟨rfl, hf⟩ := describesFields_newer hσ hσ' h2 hn h2'
        exact ⟨rfl, .required (describes_newer hσ hσ' h1 hty h1') hf⟩
  | .optional h1 h2 => by
    cases hn with
    | cons hty hn =>
      cases hd' with
      | optional h1' h2' =>
        obtain ⟨rfl, hf⟩ := describesFields_newer hσ hσ' h2 hn h2'
        exact ⟨rfl, .optional (describes_newer hσ hσ' h1 hty h1') hf⟩
termination_by structural hd

theorem describesAlts_newer {lax lax' : Bool} {σ σ' : Scope} (hσ : σ.In ms) (hσ' : σ'.In ms') {x : Bool} {i : Nat}
    {cs cs' : List Component} {rest as rest' as' : Alts} (hd : DescribesAlts lax ms σ x i cs rest as)
    (hn : NewerAlternatives cs cs') (hd' : DescribesAlts lax' ms' σ' x i cs' rest' as') (hr : rest.Newer rest') :
    as.Newer as' :=
  match hd with
  | .nil => by cases hn; cases hd'; exact hr
  | .cons h1 h2 => by
    cases hn with
    | cons hty hn =>
      cases hd' with
      | cons h1' h2' => exact .keep (describes_newer hσ hσ' h1 hty h1') (describesAlts_newer hσ hσ' h2 hn h2' hr)
termination_by structural hd

theorem describesTable_newer {lax lax' : Bool} {σ' : Scope} {T T' : ObjectTable} (htw : Twins ms ms' T T')
    (hT' : TableIn ms' σ' T') {cs cs' : List SeqComponent} {fs fs' : Fields} (hd : DescribesTable lax ms T cs fs)
    (hn : NewerComponents cs cs') (hd' : DescribesTable lax' ms' T' cs' fs') : fs.Newer fs' :=
  match hd with
  | .nil => by cases hn; cases hd'; exact .nil
  | .key h1 h2 h3 h4 => by
    cases hn with
    | cons hty hn =>
      cases hty
      rcases table_inv hd' with ⟨ty', t', fs0, id', opt', d', w', g1, g2, g3, g4, g5, rfl⟩ |
        ⟨c, ty', t', fs0, id', u', opt', d', w', g1, -⟩ | ⟨c, l', as', fs0, id', opt', d', w', g1, -⟩
      · rw [← htw.fields, ← htw.unique] at g3
        cases nodup_same htw.nodup h2 g3
        exact .required (describes_newer (σ := .module _) (σ' := .module _) htw.home htw.home' h3 (.same _) g4)
          (describesTable_newer htw hT' h4 hn g5)
      · cases (tableOf_unique h1 g1).2
      · cases (tableOf_unique h1 g1).2
  | .value h1 h2 h3 h4 h5 => by
    cases hn with
    | cons hty hn =>
      cases hty
      rcases table_inv hd' with ⟨ty', t', fs0, id', opt', d', w', g1, -⟩ |
        ⟨c, ty', t', fs0, id', u', opt', d', w', g1, g2, g4, g5, rfl⟩ | ⟨c, l', as', fs0, id', opt', d', w', g1, g2, -⟩
      · cases (tableOf_unique h1 g1).2
      · rw [← htw.fields] at g2
        cases nodup_same htw.nodup h2 g2
        exact .required (describes_newer (σ := .module _) (σ' := .module _) htw.home htw.home' h4 (.same _) g4)
          (describesTable_newer htw hT' h5 hn g5)
      · rw [← htw.fields] at g2
        cases nodup_same htw.nodup h2 g2
  | .openType h1 h2 h3 h4 h5 => by
    cases hn with
    | cons hty hn =>
      cases hty
      rcases table_inv hd' with ⟨ty', t', fs0, id', opt', d', w', g1, -⟩ |
        ⟨c, ty', t', fs0, id', u', opt', d', w', g1, g2, -⟩ | ⟨c, l', as', fs0, id', opt', d', w', g1, g2, g3, g4, g5, rfl⟩
      · cases (tableOf_unique h1 g1).2
      · rw [← htw.fields] at g2
        cases nodup_same htw.nodup h2 g2
      · refine .required (.openType (describesOpen_newer h4 g4 (fun name k N ty hm => ?_) h3.sorted g3.sorted ?_))
          (describesTable_newer htw hT' h5 hn g5)
        · obtain ⟨ofs, q1, q2, q3⟩ := (h3.all _ _ _ _).1 hm
          obtain ⟨r1, N', r2, r3, r4⟩ := htw.objects _ _ q1
          refine ⟨r1, N', r2, (g3.all _ _ _ _).2 ⟨ofs, r4, ?_, q3⟩⟩
          rw [← htw.unique]
          exact keyOf_newer hg r3 q2
        · rintro ⟨n1, k1, N1, ty1⟩ hm1 ⟨n2, k2, N2, ty2⟩ hm2 (rfl : k1 = k2)
          obtain ⟨ofs, q1, q2, q3⟩ := (g3.all _ _ _ _).1 hm1
          obtain ⟨ofs2, r1, r2, r3⟩ := (g3.all _ _ _ _).1 hm2
          have heq := hT'.differ _ q1 _ r1 _ _ _ q2 r2
          cases heq
          obtain ⟨_, _, _, a1, _⟩ := q2
          obtain ⟨_, _, _, a2, _⟩ := r2
          have := nodup_same (htw.proper _ q1) a1 a2
          injection this with _ this
          injection this
termination_by structural hd

theorem describesOpen_newer {lax lax' : Bool} {l l' : List (Text × Int × Module × AsnType)} {as as' : Alts}
    (hd : DescribesOpen lax ms l as) (hd' : DescribesOpen lax' ms' l' as')
    (hsub : ∀ name k N ty, (name, k, N, ty) ∈ l → N ∈ ms ∧ ∃ N' ∈ ms', (name, k, N', ty) ∈ l')
    (hs : l.Pairwise fun a b => a.1 < b.1) (hs' : l'.Pairwise fun a b => a.1 < b.1)
    (hk : ∀ e ∈ l', ∀ f ∈ l', e.2.1 = f.2.1 → e.1 = f.1) : as.Newer as' :=
  match hd with
  | .nil => .nil
  | .cons (name := name) (k := k) (N := N) (ty := ty) (l := l0) (t := t) (as := as0) h1 h2 => by
    obtain ⟨hN, N', hN', hmem⟩ := hsub _ _ _ _ List.mem_cons_self
    obtain ⟨pre, post, rfl⟩ := List.append_of_mem hmem
    obtain ⟨mid, hm, hskip⟩ := describesOpen_skip _ pre hd'
    rw [List.pairwise_append, List.pairwise_cons] at hs'
    rw [List.pairwise_cons] at hs
    have hpre : ∀ p ∈ pre, p.1 < name := fun p hp => hs'.2.2 p hp _ List.mem_cons_self
    refine hskip _ (fun p hp hkey => ?_) ?_
    · have hkeys := describesOpen_keys (DescribesOpen.cons (name := name) (k := k) h1 h2)
      rw [hkeys] at hkey
      obtain ⟨⟨n2, k2, N2, ty2⟩, he, hek⟩ := List.mem_map.1 hkey
      obtain ⟨-, N2', -, hmem2⟩ := hsub n2 k2 N2 ty2 he
      have e1 : n2 = p.1 := hk _ hmem2 _ (List.mem_append_left _ hp) hek
      have lt := hpre p hp
      rcases List.mem_cons.1 he with he | he
      · cases he
        rw [← e1] at lt
        exact List.lt_irrefl _ lt
      · have := hs.1 _ he
        rw [← e1] at lt
        exact List.lt_asymm lt this
    · obtain ⟨t', rest, rfl, h1', h2'⟩ := describesOpen_head hm
      refine .keep (describes_newer (σ := .module _) (σ' := .module _) hN hN' h1 (.same _) h1')
        (describesOpen_newer h2 h2' (fun n2 k2 N2 ty2 he => ?_) hs.2 hs'.2.1.2
          (fun e he f hf => hk e (List.mem_append_right _ (List.mem_cons_of_mem _ he)) f
            (List.mem_append_right _ (List.mem_cons_of_mem _ hf))))
      obtain ⟨q1, N2', q2, q3⟩ := hsub n2 k2 N2 ty2 (List.mem_cons_of_mem _ he)
      refine ⟨q1, N2', q2, ?_⟩
      have lt := hs.1 _ he
      rcases List.mem_append.1 q3 with q3 | q3
      · have lt2 : n2 < name := hpre (n2, k2, N2', ty2) q3
        exact (List.lt_asymm lt lt2).elim
      · rcases List.mem_cons.1 q3 with q3 | q3
        · cases q3
          exact (List.lt_irrefl _ lt).elim
        · exact q3
termination_by structural hd

end

end

/-- **C122, for schemas.** A schema and a newer version of it, in which ENUMERATED and CHOICE types have more after their
markers, object sets with objects have more objects, and modules more definitions and imports: both compile, and for every
type of the older one, whatever its generated codec reads, the generated codec of the type of the same name in the newer
one reads, up to the same place, as one value for each; and it writes those values in the same way. -/
theorem C122_schema_partial (older newer ms ms' : List Module) (hr : ReadAs older ms) (hr' : ReadAs newer ms')
    (h : ProperSchema ms) (h' : ProperSchema ms') (hg : NewerSchema ms ms') (he : StillEmpty ms ms') :
    ∃ n₀, ∀ n, n₀ ≤ n → ∀ r r', ResolvesModules n {} older r → ResolvesModules n {} newer r' →
      ∃ R R', r = .ok R ∧ r' = .ok R' ∧ ∀ sp sp', ∃ items items', generate sp R = .ok items ∧
        generate sp' R' = .ok items' ∧ ∀ M ∈ ms, ∀ x ty, (x, ⟨.type ty, none⟩) ∈ M.definitions →
          ∃ t u, (Stands items (typeIdent x) t ∧ (DistinctNames items → ∀ t', Stands items (typeIdent x) t' → t' = t)) ∧
            (Stands items' (typeIdent x) u ∧ (DistinctNames items' → ∀ u', Stands items' (typeIdent x) u' → u' = u)) ∧
            ∃ f : t.Val → u.Val, (∀ a b, f a = f b → a = b) ∧
              (∀ s v s', t.decode s = .ok v s' → u.decode s = .ok (f v) s') ∧
              ∀ v s, u.encode (f v) s = t.encode v s := by
  obtain ⟨n1, h1⟩ := C95_schema_compiles older ms hr h
  obtain ⟨n2, h2⟩ := C95_schema_compiles newer ms' hr' h'
  refine ⟨max n1 n2, fun n hn r r' hr hr' => ?_⟩
  obtain ⟨R, rfl, -, hR⟩ := (h1 n (by omega)).2 r hr
  obtain ⟨R', rfl, -, hR'⟩ := (h2 n (by omega)).2 r' hr'
  refine ⟨R, R', rfl, rfl, fun sp sp' => ?_⟩
  obtain ⟨items, hi, hs⟩ := hR sp
  obtain ⟨items', hi', hs'⟩ := hR' sp'
  refine ⟨items, items', hi, hi', fun M hM x ty hx => ?_⟩
  obtain ⟨M', hM', hm⟩ := hg M hM
  obtain ⟨d', hx', hd⟩ := hm.definitions x _ hx
  have hp := h.proper M hM _ hx
  have hp' := h'.proper M' hM' _ hx'
  have key : ∃ ty', d' = ⟨.type ty', none⟩ ∧ NewerType ty ty' := by
    cases hd with
    | same => exact ⟨_, rfl, .same _⟩
    | type hty => exact ⟨_, rfl, hty⟩
  obtain ⟨ty', rfl, hty⟩ := key
  cases hp with
  | type ht =>
    cases hp' with
    | type ht' =>
      exact ⟨_, _, hs M hM x ty _ _ hx ht, hs' M' hM' x ty' _ _ hx' ht',
        C122_newer_reads_partial (describes_newer h h' hg he (σ := .module _) (σ' := .module _) hM hM' ht hty ht')⟩

/-- `CHOICE { raw OCTET STRING (SIZE (1..max)), list SEQUENCE SIZE (0..3) OF Id, ..., more NULL }` and the same with
`flag BOOLEAN` after `more`. -/
example : ∃ root groups, bodyType = .mk (.choice root (some groups)) none ∧
    NewerType bodyType (.mk (.choice root (some (groups ++ [.mk none [.mk "flag".toList (.mk .boolean none)]]))) none) :=
  ⟨_, _, rfl, .extensibleChoice (NewerAlternatives.refl _) (NewerAlternatives.refl _) rfl⟩

end Hampi.Compiler.Props
