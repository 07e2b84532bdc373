import Verif.Spec.Newer
import Verif.Lemmas.DeriveOk
import Verif.Props.Generate
/-!
# C122: a newer version reads and writes the messages of an older one
-/
namespace Hampi

/-- The values of `t` are values of `u`, read and written alike. -/
structure Upgrade (t u : Ty) (f : t.Val → u.Val) : Prop where
  inj : ∀ a b, f a = f b → a = b
  key : ∀ v, u.keyValue (f v) = t.keyValue v
  decode : ∀ s v s', t.decode s = .ok v s' → u.decode s = .ok (f v) s'
  encode : ∀ v, u.encode (f v) = t.encode v

/-- The same for components. -/
structure UpgradeFields (fs gs : Fields) (f : fs.Val → gs.Val) : Prop where
  inj : ∀ a b, f a = f b → a = b
  mark : ∀ v bm, gs.mark (f v) bm = fs.mark v bm
  decode : ∀ bm s v s', fs.decode bm s = .ok v s' → gs.decode bm s = .ok (f v) s'
  encode : ∀ v, gs.encode (f v) = fs.encode v

/-- The same for variants. -/
structure UpgradeAlts (as bs : Alts) (f : as.Val → bs.Val) : Prop where
  inj : ∀ a b, f a = f b → a = b
  key : ∀ v, bs.keyOf (f v) = as.keyOf v
  extended : ∀ v, bs.extendedOf (f v) = as.extendedOf v
  decode : ∀ k s v s', as.decode k s = .ok v s' → bs.decode k s = .ok (f v) s'
  encode : ∀ v, bs.encode (f v) = as.encode v

theorem Alts.decode_key : (as : Alts) → (k : Int) → (s : Codec) → (v : as.Val) → (s' : Codec) →
    as.decode k s = .ok v s' → k ∈ as.keys
  | .nil, k, s, v, s', h => nomatch v
  | .cons k' x t rest, k, s, v, s', h => by
    simp only [Alts.decode] at h
    by_cases hk : k = k'
    · subst hk; exact List.mem_cons_self
    · rw [if_neg hk] at h
      obtain ⟨w, s1, h1, -⟩ := bind_ok h
      exact List.mem_cons_of_mem _ (Alts.decode_key rest k s w s1 h1)

theorem decodeTimes_map {α β : Type} {d : M α} {e : M β} {f : α → β}
    (h : ∀ s v s', d s = .ok v s' → e s = .ok (f v) s') : (n : Nat) → ∀ s v s', decodeTimes d n s = .ok v s' →
    decodeTimes e n s = .ok (v.map f) s'
  | 0, s, v, s', hs => by cases hs; rfl
  | n + 1, s, v, s', hs => by
    obtain ⟨x, s1, h1, hs⟩ := bind_ok hs
    obtain ⟨xs, s2, h2, hs⟩ := bind_ok hs
    cases hs
    show (e >>= fun x => decodeTimes e n >>= fun xs => pure (x :: xs)) s = _
    rw [M.bind_apply, h _ _ _ h1]
    dsimp only
    rw [M.bind_apply, decodeTimes_map h n _ _ _ h2]
    rfl

theorem encodeAll_map {α β : Type} {d : α → M Unit} {e : β → M Unit} {f : α → β} (h : ∀ v, e (f v) = d v) :
    (l : List α) → encodeAll e (l.map f) = encodeAll d l
  | [] => rfl
  | x :: l => by
    show (e (f x) >>= fun _ => encodeAll e (l.map f)) = _
    rw [h x, encodeAll_map h l]
    rfl

mutual

theorem Ty.Newer.upgrade : {t u : Ty} → Ty.Newer t u → ∃ f, Upgrade t u f
  | t, _, .same _ => ⟨id, fun _ _ h => h, fun _ => rfl, fun _ _ _ h => h, fun _ => rfl⟩
  | _, _, .sequence (ext := ext) (n := n) (fs := fs) (gs := gs) h => by
    obtain ⟨f, hf⟩ := Fields.Newer.upgrade h
    refine ⟨f, hf.inj, fun _ => rfl, fun s v s' hs => ?_, fun v => ?_⟩
    · obtain ⟨hd, s1, h1, hs⟩ := bind_ok hs
      show (decodeSequenceHeader ext n >>= fun h => gs.decode h.1) s = _
      rw [M.bind_apply, h1]
      exact hf.decode _ _ _ _ hs
    · change fs.Val at v
      show (encodeHeader gs (f v) ext n >>= fun _ => gs.encode (f v)) = encodeHeader fs v ext n >>= fun _ => fs.encode v
      unfold encodeHeader
      rw [hf.encode, hf.mark]
  | _, _, .sequenceOf (lb := lb) (ub := ub) (ext := ext) (t := t) (u := u) h => by
    obtain ⟨f, hf⟩ := Ty.Newer.upgrade h
    refine ⟨fun l => List.map f l, fun a b h => ?_, fun _ => rfl, fun s v s' hs => ?_, fun v => ?_⟩
    · exact (List.map_inj_right hf.inj).1 h
    · obtain ⟨n, s1, h1, hs⟩ := bind_ok hs
      show (decodeLength lb ub ext >>= fun n => decodeLoop u.decode n) s = _
      rw [M.bind_apply, h1]
      dsimp only
      unfold decodeLoop at hs ⊢
      by_cases h0 : n = 0
      · rw [if_pos h0] at hs
        obtain ⟨_, _, _, hs⟩ := bind_ok hs
        cases hs
      · rw [if_neg h0] at hs ⊢
        exact decodeTimes_map hf.decode n _ _ _ hs
    · change List t.Val at v
      show (M.ignoreErr (encodeLength lb ub ext (List.length (List.map f v))) >>= fun _ => encodeAll u.encode (List.map f v)) = _
      rw [List.length_map, encodeAll_map hf.encode]
      rfl
  | _, _, .choice (lb := lb) (ub := ub) (ext := ext) (as := as) (bs := bs) h => by
    obtain ⟨f, hf⟩ := Alts.Newer.upgrade h
    refine ⟨f, hf.inj, fun _ => rfl, fun s v s' hs => ?_, fun v => ?_⟩
    · obtain ⟨r, s1, h1, hs⟩ := bind_ok hs
      show (decodeChoiceIdx lb ub ext >>= fun r => if !r.2 then bs.decode r.1 else M.fail) s = _
      rw [M.bind_apply, h1]
      dsimp only
      cases hr : r.2 with
      | true => rw [hr] at hs; cases hs
      | false =>
        rw [hr] at hs
        exact hf.decode _ _ _ _ hs
    · change as.Val at v
      show (encodeChoiceIdx lb ub ext (bs.keyOf (f v)) (bs.extendedOf (f v)) >>= fun _ => bs.encode (f v)) = _
      rw [hf.key, hf.extended, hf.encode]
      rfl
  | _, _, .openType (as := as) (bs := bs) h => by
    obtain ⟨f, hf⟩ := Alts.Newer.upgrade h
    refine ⟨f, hf.inj, fun _ => rfl, fun s v s' hs => ?_, fun v => ?_⟩
    · obtain ⟨n, s1, h1, hs⟩ := bind_ok hs
      obtain ⟨k, s2, h2, hs⟩ := bind_ok hs
      show (decodeLength none none false >>= fun _ => requireKey >>= fun k => bs.decode k) s = _
      rw [M.bind_apply, h1]
      dsimp only
      rw [M.bind_apply, h2]
      exact hf.decode _ _ _ _ hs
    · change as.Val at v
      show encodeOpen (bs.encode (f v)) = encodeOpen (as.encode v)
      rw [hf.encode]

theorem Fields.Newer.upgrade : {fs gs : Fields} → Fields.Newer fs gs → ∃ f, UpgradeFields fs gs f
  | _, _, .nil => ⟨id, fun _ _ h => h, fun _ _ => rfl, fun _ _ _ _ h => h, fun _ => rfl⟩
  | _, _, .required (k := k) (t := t) (u := u) (fs := fs) (gs := gs) h h' => by
    obtain ⟨f, hf⟩ := Ty.Newer.upgrade h
    obtain ⟨g, hg⟩ := Fields.Newer.upgrade h'
    refine ⟨fun v => (f v.1, g v.2), fun a b h => ?_, fun v bm => hg.mark v.2 bm, fun bm s v s' hs => ?_, fun v => ?_⟩
    · obtain ⟨a1, a2⟩ := a
      obtain ⟨b1, b2⟩ := b
      have h := Prod.mk.inj h
      exact Prod.ext (hf.inj _ _ h.1) (hg.inj _ _ h.2)
    · obtain ⟨x, s1, h1, hs⟩ := bind_ok hs
      obtain ⟨_, s2, h2, hs⟩ := bind_ok hs
      obtain ⟨vs, s3, h3, hs⟩ := bind_ok hs
      cases hs
      show (u.decode >>= fun v => setKeyFrom k u v >>= fun _ => gs.decode bm >>= fun vs => pure (v, vs)) s = _
      rw [M.bind_apply, hf.decode _ _ _ h1]
      dsimp only
      have hk : setKeyFrom k u (f x) = setKeyFrom k t x := by unfold setKeyFrom; rw [hf.key]
      rw [M.bind_apply, hk, h2]
      dsimp only
      rw [M.bind_apply, hg.decode _ _ _ _ h3]
      rfl
    · show (u.encode (f v.1) >>= fun _ => gs.encode (g v.2)) = t.encode v.1 >>= fun _ => fs.encode v.2
      rw [hf.encode, hg.encode]
  | _, _, .optional (i := i) (t := t) (u := u) (fs := fs) (gs := gs) h h' => by
    obtain ⟨f, hf⟩ := Ty.Newer.upgrade h
    obtain ⟨g, hg⟩ := Fields.Newer.upgrade h'
    refine ⟨fun v => (Option.map f v.1, g v.2), fun a b h => ?_, fun v bm => ?_, fun bm s v s' hs => ?_, fun v => ?_⟩
    · obtain ⟨a1, a2⟩ := a
      obtain ⟨b1, b2⟩ := b
      have h := Prod.mk.inj h
      exact Prod.ext ((Option.map_inj_right fun x y h => hf.inj x y h).1 h.1) (hg.inj _ _ h.2)
    · obtain ⟨a1, a2⟩ := v
      cases a1 with
      | none => exact hg.mark a2 bm
      | some a =>
        show (if i < bm.length then gs.mark (g a2) (bm.set i true) else none) = if i < bm.length then fs.mark a2 (bm.set i true) else none
        rw [hg.mark]
    · obtain ⟨b, s1, h1, hs⟩ := bind_ok hs
      obtain ⟨x, s2, h2, hs⟩ := bind_ok hs
      obtain ⟨vs, s3, h3, hs⟩ := bind_ok hs
      cases hs
      show (present bm i >>= fun b => (if b then u.decode >>= fun x => pure (some x) else pure none) >>= fun v =>
          gs.decode bm >>= fun vs => pure (v, vs)) s = _
      rw [M.bind_apply, h1]
      dsimp only
      have h4 : (if b then u.decode >>= fun x => pure (some x) else (pure none : M (Option u.Val))) s1 =
          .ok (Option.map f x) s2 := by
        cases b with
        | false => cases h2; rfl
        | true =>
          obtain ⟨y, s4, h4, h2⟩ := bind_ok h2
          cases h2
          show (u.decode >>= fun x => pure (some x)) s1 = _
          rw [M.bind_apply, hf.decode _ _ _ h4]
          rfl
      rw [M.bind_apply, h4]
      dsimp only
      rw [M.bind_apply, hg.decode _ _ _ _ h3]
      rfl
    · obtain ⟨a1, a2⟩ := v
      cases a1 with
      | none =>
        show ((pure () : M Unit) >>= fun _ => gs.encode (g a2)) = (pure () : M Unit) >>= fun _ => fs.encode a2
        rw [hg.encode]
      | some a =>
        show (u.encode (f a) >>= fun _ => gs.encode (g a2)) = t.encode a >>= fun _ => fs.encode a2
        rw [hf.encode, hg.encode]

theorem Alts.Newer.upgrade : {as bs : Alts} → Alts.Newer as bs → ∃ f, UpgradeAlts as bs f
  | _, _, .nil => ⟨nofun, nofun, nofun, nofun, nofun, nofun⟩
  | _, _, .keep (k := k) (x := x) (t := t) (u := u) (as := as) (bs := bs) h h' => by
    obtain ⟨f, hf⟩ := Ty.Newer.upgrade h
    obtain ⟨g, hg⟩ := Alts.Newer.upgrade h'
    refine ⟨fun v => match v with | .inl a => .inl (f a) | .inr b => .inr (g b), ?_, ?_, ?_, fun key s v s' hs => ?_, ?_⟩
    · rintro (a | a) (b | b) h
      · exact congrArg _ (hf.inj _ _ (Sum.inl.inj h))
      · cases h
      · cases h
      · exact congrArg _ (hg.inj _ _ (Sum.inr.inj h))
    · rintro (a | a)
      · rfl
      · exact hg.key a
    · rintro (a | a)
      · rfl
      · exact hg.extended a
    · simp only [Alts.decode] at hs ⊢
      by_cases hk : key = k
      · rw [if_pos hk] at hs ⊢
        obtain ⟨y, s1, h1, hs⟩ := bind_ok hs
        cases hs
        rw [M.bind_apply, hf.decode _ _ _ h1]
        rfl
      · rw [if_neg hk] at hs ⊢
        obtain ⟨y, s1, h1, hs⟩ := bind_ok hs
        cases hs
        rw [M.bind_apply, hg.decode _ _ _ _ h1]
        rfl
    · rintro (a | a)
      · exact hf.encode a
      · exact hg.encode a
  | _, _, .add (k := k) (as := as) hk h' => by
    obtain ⟨g, hg⟩ := Alts.Newer.upgrade h'
    refine ⟨fun v => .inr (g v), fun a b h => hg.inj _ _ (Sum.inr.inj h), hg.key, hg.extended,
      fun key s v s' hs => ?_, hg.encode⟩
    have hne : ¬ key = k := by
      rintro rfl
      exact hk (Alts.decode_key _ _ _ _ _ hs)
    simp only [Alts.decode]
    rw [if_neg hne, M.bind_apply, hg.decode _ _ _ _ hs]
    rfl

end

namespace Compiler.Props

open Hampi.Compiler.Spec

theorem GrownFields.refl : (cs : List RSeqComponent) → GrownFields cs cs
  | [] => .nil
  | .mk _ _ _ _ :: cs => .cons (.same _) (GrownFields.refl cs)

theorem GrownAlts.refl : (cs : List RComponent) → GrownAlts cs cs
  | [] => .nil
  | .mk _ _ :: cs => .cons (.same _) (GrownAlts.refl cs)

theorem GrownAlts.length : {cs ds : List RComponent} → GrownAlts cs ds → ds.length = cs.length
  | _, _, .nil => rfl
  | _, _, .cons _ h => congrArg (· + 1) (GrownAlts.length h)

theorem meansAlts_split {R : Resolver} {x : Bool} {rest : Alts} (bs more : List RComponent) :
    ∀ {i as}, MeansAlts R x i (bs ++ more) rest as →
    ∃ mid, MeansAlts R x (i + bs.length) more rest mid ∧ MeansAlts R x i bs mid as := by
  induction bs with
  | nil => exact fun h => ⟨_, h, .nil⟩
  | cons b bs ih =>
    intro i as h
    cases h with
    | cons ht h =>
      obtain ⟨mid, h1, h2⟩ := ih h
      refine ⟨mid, ?_, .cons ht h2⟩
      have e : i + (bs.length + 1) = i + 1 + bs.length := by omega
      rw [List.length_cons, e]
      exact h1

theorem meansOpen_keys {R : Resolver} {types as} (h : MeansOpen R types as) :
    types.map (·.2.1) = as.keys.map fun k => (toString k.toNat).toList := by
  induction types generalizing as with
  | nil => cases h; rfl
  | cons e types ih =>
    cases h with
    | cons _ h =>
      show _ :: _ = _ :: _
      rw [ih h]
      rfl

theorem meansOpen_mem {R : Resolver} {types as} (h : MeansOpen R types as) {k : Nat} (hk : (k : Int) ∈ as.keys) :
    (toString k).toList ∈ types.map (·.2.1) := by
  rw [meansOpen_keys h]
  exact List.mem_map.2 ⟨k, hk, rfl⟩

theorem meansOpen_skip {R : Resolver} (rest : List (Text × Text × Text)) (pre : List (Text × Text × Text)) :
    ∀ {as}, MeansOpen R (pre ++ rest) as → ∃ mid, MeansOpen R rest mid ∧
      ∀ old : Alts, (∀ k : Nat, (toString k).toList ∈ pre.map (·.2.1) → (k : Int) ∉ old.keys) → old.Newer mid →
        old.Newer as := by
  induction pre with
  | nil => exact fun h => ⟨_, h, fun _ _ h => h⟩
  | cons e pre ih =>
    intro as h
    cases h with
    | cons _ h =>
      obtain ⟨mid, h1, h2⟩ := ih h
      exact ⟨mid, h1, fun old hk hn => .add (hk _ List.mem_cons_self) (h2 old (fun k hm => hk k (List.mem_cons_of_mem _ hm)) hn)⟩

theorem sublist_split {α : Type} {e : α} {ts : List α} : {l : List α} → (e :: ts).Sublist l →
    ∃ pre post, l = pre ++ e :: post ∧ ts.Sublist post
  | _, .cons a h => by
    obtain ⟨pre, post, rfl, h'⟩ := sublist_split h
    exact ⟨a :: pre, post, rfl, h'⟩
  | _, .cons_cons _ h => ⟨[], _, rfl, h⟩

mutual

theorem Newer.of_means {R R' : Resolver} (hg : GrownSchema R R') : {ty ty' : RType} → {t t' : Ty} →
    Means R ty t → Grown ty ty' → Means R' ty' t' → t.Newer t'
  | _, _, _, _, .base h, hr, h' => by
    cases hr with
    | same =>
      cases h' with
      | base h' => rw [h] at h'; cases h'; exact .same _
    | enumerated =>
      cases h' with
      | base h' =>
        have h2 : (RBase.enumerated _ _ _ _ _).attrs = _ := h
        simp only [RBase.attrs] at h h'
        rw [h] at h'; cases h'; exact .same _
  | _, _, _, _, .reference hk h, hr, h' => by
    cases hr with
    | same =>
      cases h' with
      | reference hk' h' =>
        obtain ⟨ty', h1, h2⟩ := hg _ _ hk
        rw [hk'] at h1
        cases h1
        exact Newer.of_means hg h h2 h'
  | _, _, _, _, .sequence h, hr, h' => by
    cases h' with
    | sequence h' =>
      cases hr with
      | same =>
        obtain ⟨rfl, hf⟩ := NewerFields.of_means hg h (GrownFields.refl _) h'
        exact .sequence hf
      | sequence hc =>
        obtain ⟨rfl, hf⟩ := NewerFields.of_means hg h hc h'
        exact .sequence hf
    | _ => cases hr
  | _, _, _, _, .sequenceOf h, hr, h' => by
    cases h' with
    | sequenceOf h' =>
      cases hr with
      | same => exact .sequenceOf (Newer.of_means hg h (.same _) h')
      | sequenceOf hc => exact .sequenceOf (Newer.of_means hg h hc h')
    | _ => cases hr
  | _, _, _, _, .choice (c := c) (cs := cs) (as := as) h, hr, h' => by
    have key : ∀ ds as', GrownAlts (c :: cs) ds → Means R' (.choice ds none) as' → Ty.Newer (.choice 0 cs.length false as) as' := by
      intro ds as' hc h'
      cases h' with
      | choice h' =>
        have hl := GrownAlts.length hc
        simp only [List.length_cons, Nat.add_right_cancel_iff] at hl
        rw [hl]
        exact .choice (NewerAlts.of_means hg h hc h' .nil)
    cases hr with
    | same => exact key _ _ (GrownAlts.refl _) h'
    | choice hc => exact key _ _ hc h'
  | _, _, _, _, .choiceExt (c := c) (cs := cs) (adds := adds) (as := as) ha h, hr, h' => by
    have key : ∀ ds bs more as', GrownAlts (c :: cs) ds → GrownAlts adds bs → Means R' (.choice ds (some (bs ++ more))) as' →
        Ty.Newer (.choice 0 cs.length true as) as' := by
      intro ds bs more as' hc hb h'
      cases h' with
      | choiceExt ha' h' =>
        have hl := GrownAlts.length hc
        simp only [List.length_cons, Nat.add_right_cancel_iff] at hl
        rw [hl]
        obtain ⟨mid, h1, h2⟩ := meansAlts_split bs more ha'
        exact .choice (NewerAlts.of_means hg h hc h' (NewerAlts.of_means hg ha hb h2 .nil))
    cases hr with
    | same => exact key _ _ [] _ (GrownAlts.refl _) (GrownAlts.refl _) (by rw [List.append_nil]; exact h')
    | choiceExt hc hb => exact key _ _ _ _ hc hb h'
  | _, _, _, _, .set h, hr, h' => by
    cases h' with
    | set h' =>
      cases hr with
      | same => exact .openType (NewerOpen.of_means hg h (List.Sublist.refl _) (.inl rfl) h')
      | set hs hd => exact .openType (NewerOpen.of_means hg h hs (.inr hd) h')
    | _ => cases hr

theorem NewerFields.of_means {R R' : Resolver} (hg : GrownSchema R R') : {i n n' : Nat} → {cs ds : List RSeqComponent} →
    {fs gs : Fields} → MeansFields R i cs n fs → GrownFields cs ds → MeansFields R' i ds n' gs → n = n' ∧ fs.Newer gs
  | _, _, _, _, _, _, _, .nil, hc, h' => by
    cases hc; cases h'; exact ⟨rfl, .nil⟩
  | _, _, _, _, _, _, _, .required ht h, hc, h' => by
    cases hc with
    | cons hty hc =>
      cases h' with
      | required ht' h' =>
        obtain ⟨rfl, hf⟩ := NewerFields.of_means hg h hc h'
        exact ⟨rfl, .required (Newer.of_means hg ht hty ht') hf⟩
  | _, _, _, _, _, _, _, .optional ht h, hc, h' => by
    cases hc with
    | cons hty hc =>
      cases h' with
      | optional ht' h' =>
        obtain ⟨rfl, hf⟩ := NewerFields.of_means hg h hc h'
        exact ⟨rfl, .optional (Newer.of_means hg ht hty ht') hf⟩

theorem NewerAlts.of_means {R R' : Resolver} (hg : GrownSchema R R') : {x : Bool} → {i : Nat} → {cs ds : List RComponent} →
    {rest as rest' as' : Alts} → MeansAlts R x i cs rest as → GrownAlts cs ds → MeansAlts R' x i ds rest' as' →
    rest.Newer rest' → as.Newer as'
  | _, _, _, _, _, _, _, _, .nil, hc, h', hr => by
    cases hc; cases h'; exact hr
  | _, _, _, _, _, _, _, _, .cons ht h, hc, h', hr => by
    cases hc with
    | cons hty hc =>
      cases h' with
      | cons ht' h' => exact .keep (Newer.of_means hg ht hty ht') (NewerAlts.of_means hg h hc h' hr)

theorem NewerOpen.of_means {R R' : Resolver} (hg : GrownSchema R R') : {types types' : List (Text × Text × Text)} →
    {as as' : Alts} → MeansOpen R types as → types.Sublist types' → (types' = types ∨ (types'.map (·.2.1)).Nodup) →
    MeansOpen R' types' as' → as.Newer as'
  | _, _, _, _, .nil, _, _, _ => .nil
  | _, _, _, _, .cons (name := name) (k := k) (r := r) (ts := ts) ht h, hs, hd, h' => by
    have hold : MeansOpen R ((name, (toString k).toList, r) :: ts) (.cons k false _ _) := .cons ht h
    obtain ⟨pre, post, rfl, hp⟩ := sublist_split hs
    obtain ⟨mid, hm, hskip⟩ := meansOpen_skip _ pre h'
    refine hskip _ (fun i hi hk => ?_) ?_
    · have hmem := meansOpen_mem hold hk
      rcases hd with hd | hd
      · have hl := congrArg List.length hd
        have := hp.length_le
        simp only [List.length_append, List.length_cons] at hl
        cases pre with
        | nil => cases hi
        | cons => simp only [List.length_cons] at hl; omega
      · rw [List.map_append, List.nodup_append] at hd
        exact hd.2.2 _ hi _ (((hp.cons_cons _).map _).subset hmem) rfl
    · have hd' : post = ts ∨ (post.map (·.2.1)).Nodup := by
        rcases hd with hd | hd
        · have hl := congrArg List.length hd
          have := hp.length_le
          simp only [List.length_append, List.length_cons] at hl
          exact .inl (hp.eq_of_length (by omega)).symm
        · rw [List.map_append, List.nodup_append, List.map_cons, List.nodup_cons] at hd
          exact .inr hd.2.1.2
      generalize he : (name, (toString k).toList, r) :: post = l at hm
      cases hm with
      | nil => cases he
      | cons ht' hm =>
        injection he with he hpost
        subst hpost
        have hk := toString_inj (congrArg (·.2.1) he)
        have hr : r = _ := congrArg (·.2.2) he
        subst hk hr
        exact .keep (Newer.of_means hg ht (.same _) ht') (NewerOpen.of_means hg h hp hd' hm)

end

end Compiler.Props

/-! ## The property -/

/-- **C122.** Whatever an older version of a type reads, a newer version (with more alternatives in its CHOICE types
and open types, at any depth) reads too, up to the same place, as one value for each; and it writes those values as
the older version does. -/
theorem C122_newer_reads_partial {t u : Ty} (h : t.Newer u) :
    ∃ f : t.Val → u.Val, (∀ a b, f a = f b → a = b) ∧
      (∀ s v s', t.decode s = .ok v s' → u.decode s = .ok (f v) s') ∧ ∀ v s, u.encode (f v) s = t.encode v s := by
  obtain ⟨f, hf⟩ := h.upgrade
  exact ⟨f, hf.inj, hf.decode, fun v s => by rw [hf.encode]⟩

/-- An open type with one more object, inside a CHOICE with one more alternative. -/
example : Ty.Newer
    (.choice 0 0 true (.cons 0 false (.sequence false 0 (.required true (.integer .u8 (some 0) (some 255) false)
      (.required false (.openType (.cons 7 false .boolean .nil)) .nil))) .nil))
    (.choice 0 0 true (.cons 0 false (.sequence false 0 (.required true (.integer .u8 (some 0) (some 255) false)
      (.required false (.openType (.cons 3 false .null (.cons 7 false .boolean .nil))) .nil)))
        (.cons 0 true .boolean .nil))) :=
  .choice (.keep (.sequence (.required (.same _) (.required (.openType (.add (by decide) (.keep (.same _) .nil))) .nil)))
    .nil)

namespace Compiler.Props

open Hampi.Compiler.Spec

/-- **C122, for generated code.** Rust files generated from a schema and from a newer version of it (values added to
ENUMERATED types, alternatives to extensible CHOICE types, objects to object sets, and whole types): what the type
called `k` reads in the older file, it reads in the newer one, and what it writes there it writes here. -/
theorem C122_generated_partial (sp sp' : Spelling) (R R' : Resolver) (hc : Closed R) (hc' : Closed R') (hg : GrownSchema R R')
    (items items' : List Item) (h : generate sp R = .ok items) (h' : generate sp' R' = .ok items')
    (hd : DistinctNames items) (hd' : DistinctNames items') (k : Text) (ty : RType)
    (hk : get R.resolved k = some (.type ty)) (t u : Ty) (ht : Stands items (typeIdent k) t)
    (hu : Stands items' (typeIdent k) u) :
    ∃ f : t.Val → u.Val, (∀ a b, f a = f b → a = b) ∧
      (∀ s v s', t.decode s = .ok v s' → u.decode s = .ok (f v) s') ∧ ∀ v s, u.encode (f v) s = t.encode v s := by
  obtain ⟨ty', hk', hty⟩ := hg k ty hk
  exact C122_newer_reads_partial (Newer.of_means hg ((C62_generated_types sp R hc items h hd k ty hk t).1 ht) hty
    ((C62_generated_types sp' R' hc' items' h' hd' k ty' hk' u).1 hu))

/-- ENUMERATED with more values after `...` is the newer type that `Grown` means, whatever the values. -/
theorem C122_enumerated (root add add' : List EnumValue) (m : Nat) (b b' : RBase)
    (h : resolveEnumerated root (some m) add = .ok b) (h' : resolveEnumerated root (some m) add' = .ok b') :
    Grown (.base b) (.base b') := by
  unfold resolveEnumerated at h h'
  cases hr : explicitNumbers root with
  | ok r =>
    rw [hr] at h h'
    cases ha : explicitNumbers add with
    | ok a =>
      cases ha' : explicitNumbers add' with
      | ok a' =>
        rw [ha] at h; rw [ha'] at h'
        cases h; cases h'
        exact .enumerated
      | _ => rw [ha'] at h'; cases h'
    | _ => rw [ha] at h; cases h
  | _ => rw [hr] at h; cases h

/-- `E ::= ENUMERATED {a, ...}`, `C ::= CHOICE {e E, ...}`. -/
def olderSchema : Resolver :=
  { resolved := [("E".toList, .type (.base (.enumerated 8 false true [("a".toList, 0)] []))),
      ("C".toList, .type (.choice [.mk "e".toList (.reference "E".toList)] (some [])))] }

/-- `B ::= BOOLEAN`, `E ::= ENUMERATED {a, ..., b}`, `C ::= CHOICE {e E, ..., b B}`. -/
def newerSchema : Resolver :=
  { resolved := [("B".toList, .type (.base .boolean)),
      ("E".toList, .type (.base (.enumerated 8 false true [("a".toList, 0)] [("b".toList, 0)]))),
      ("C".toList, .type (.choice [.mk "e".toList (.reference "E".toList)]
        (some [.mk "b".toList (.reference "B".toList)])))] }

example : GrownSchema olderSchema newerSchema := by
  intro k ty h
  have h0 := h
  simp only [olderSchema, get, List.find?] at h
  split at h
  · rename_i hk
    obtain rfl := eq_of_beq hk
    cases h
    exact ⟨_, rfl, .enumerated⟩
  · split at h
    · rename_i hk
      obtain rfl := eq_of_beq hk
      cases h
      exact ⟨_, rfl, .choiceExt (bs := []) (GrownAlts.refl _) .nil⟩
    · cases h

/-- The rest of the hypotheses of `C122_generated_partial`. -/
example : (∃ items, generate plainSpelling newerSchema = .ok items ∧ DistinctNames items) ∧
    ∃ items, generate plainSpelling olderSchema = .ok items ∧ DistinctNames items :=
  ⟨⟨_, rfl, by unfold DistinctNames; decide +kernel⟩, ⟨_, rfl, by unfold DistinctNames; decide +kernel⟩⟩

end Compiler.Props

/-- Another component at the end. -/
def Fields.snoc : Fields → Ty → Fields
  | .nil, u => .required false u .nil
  | .required k t fs, u => .required k t (fs.snoc u)
  | .optional i t fs, u => .optional i t (fs.snoc u)

theorem Fields.snoc_ends : (fs : Fields) → (bm : List Bool) → (s s' : Codec) → (v : fs.Val) →
    fs.decode bm s = .ok v s' → s'.off = s'.bits.length → (fs.snoc .boolean).decode bm s = .err s'
  | .nil, bm, s, s', v, h, hend => by
    cases h
    have h1 : Ty.boolean.decode s = .err s := by
      show decodeBoolM s = _
      rw [decodeBoolM, if_pos hend.symm]
      rfl
    show M.bind Ty.boolean.decode _ s = _
    rw [M.bind, h1]
    rfl
  | .required k t fs, bm, s, s', v, h, hend => by
    obtain ⟨x, s1, h1, h⟩ := bind_ok h
    obtain ⟨_, s2, h2, h⟩ := bind_ok h
    obtain ⟨vs, s3, h3, h⟩ := bind_ok h
    cases h
    show (t.decode >>= fun v => setKeyFrom k t v >>= fun _ => (fs.snoc .boolean).decode bm >>= fun vs => pure (v, vs)) s = _
    rw [M.bind_apply, h1]
    dsimp only
    rw [M.bind_apply, h2]
    dsimp only
    rw [M.bind_apply, Fields.snoc_ends fs bm _ _ _ h3 hend]
    rfl
  | .optional i t fs, bm, s, s', v, h, hend => by
    obtain ⟨b, s1, h1, h⟩ := bind_ok h
    obtain ⟨x, s2, h2, h⟩ := bind_ok h
    obtain ⟨vs, s3, h3, h⟩ := bind_ok h
    cases h
    show (present bm i >>= fun b => (if b then t.decode >>= fun x => pure (some x) else pure none) >>= fun v =>
        (fs.snoc .boolean).decode bm >>= fun vs => pure (v, vs)) s = _
    rw [M.bind_apply, h1]
    dsimp only
    rw [M.bind_apply, h2]
    dsimp only
    rw [M.bind_apply, Fields.snoc_ends fs bm _ _ _ h3 hend]
    rfl

/-- **C122 (violated).** A component added to a SEQUENCE after `...` becomes a component of the root (C88), here a
BOOLEAN. A message of the older version, which ends where that component would begin, is refused. -/
theorem C122_sequence_addition_violated (ext : Bool) (n : Nat) (fs : Fields) (s s' : Codec)
    (v : (Ty.sequence ext n fs).Val) (h : (Ty.sequence ext n fs).decode s = .ok v s') (hend : s'.off = s'.bits.length) :
    (Ty.sequence ext n (fs.snoc .boolean)).decode s = .err s' := by
  obtain ⟨hd, s1, h1, h⟩ := bind_ok h
  show (decodeSequenceHeader ext n >>= fun h => (fs.snoc .boolean).decode h.1) s = _
  rw [M.bind_apply, h1]
  exact Fields.snoc_ends fs hd.1 s1 s' v h hend

/-- `SEQUENCE { a INTEGER (0..65535), ... }` and two octets after the extension bit. -/
example : ∃ v s', (Ty.sequence true 0 (.required false (.integer .u16 (some 0) (some 65535) false) .nil)).decode
    (.fromSlice [0, 1, 2]) = .ok v s' ∧ s'.off = s'.bits.length := ⟨_, _, rfl, rfl⟩

end Hampi
