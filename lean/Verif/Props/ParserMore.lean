import Verif.Props.Parser
/-!
# The parser: C90 to C92

What the parser makes of modules that the standard forbids, and which legal modules it refuses.
-/
namespace Hampi.Compiler.Props
open _root_.Hampi.Compiler.Spec

/-- `M DEFINITIONS ::= BEGIN`, the tokens, `END`. -/
def moduleOf (ts : Tokens) : Tokens := header ++ (ts ++ [kw "END"])

theorem filter_noComments {ts : Tokens} (h : NoComments ts) : ts.filter (fun t => !t.is .comment) = ts := by
  rw [List.filter_eq_self]
  intro t ht
  simp [Token.is, h t ht]

theorem parse_header (n : Nat) {ts : Tokens} (h : NoComments ts) (hi : ∀ t ∈ ts.head?, t.isKeyword "IMPORTS" = false)
    (hne : ts ≠ []) : parse (n + 1) (header ++ ts) =
      (definitionsLoop n [] ts).bind fun d =>
        if d.2.isEmpty then .ok [⟨"M".toList, [], d.1⟩] else modulesLoop n [⟨"M".toList, [], d.1⟩] d.2 := by
  rw [parse, header_noComments, filter_noComments h, modulesLoop, parseModule_header _ _ hi hne]
  cases definitionsLoop n [] ts <;> simp [Out.bind]

/-! ## C90 -/

theorem get_putAll_last {α : Type} (m xs : List (Text × α)) (k : Text) :
    get (putAll m xs) k = (((xs.filter fun e => e.1 == k).getLast?).map (·.2)).or (get m k) := by
  induction xs generalizing m with
  | nil => simp [putAll]
  | cons e xs ih =>
    have := ih (put m e.1 e.2)
    rw [putAll] at this ⊢
    rw [List.foldl_cons, this, get_put]
    by_cases he : e.1 = k
    · rw [List.filter_cons_of_pos (by simpa using he), if_pos he, List.getLast?_cons]
      cases h : (xs.filter fun e => e.1 == k).getLast? <;> simp
    · rw [List.filter_cons_of_neg (by simpa using he), if_neg he]

theorem definitions_parse {ds ts} (h : DefsNote ds ts) (hc : NoComments ts) :
    Parses (moduleOf ts) (.ok [⟨"M".toList, [], putAll [] (ds.map fun d => (d.id, d))⟩]) := by
  refine ⟨nofun, Ev.step ((definitions_reads h [] (kw "END") [] (kw_word _)).imp fun n hn => ?_)⟩
  rw [moduleOf, parse_header n (hc.append (.cons (by simp [kw]) .nil)) ?_ (by simp), hn]
  · simp [Out.bind]
  · intro t ht
    by_cases hd : ds = []
    · subst hd
      cases h
      simp at ht
      subst ht
      rfl
    · obtain ⟨u, v, us, rfl, hu⟩ := defs_head h hd
      simp at ht
      subst ht
      exact not_isKeyword (by simp [hu])

/-- **C90 (violated).** A name may be defined only once in a module. The parser accepts any number of
definitions of a name and keeps the last one. -/
theorem C90_redefinition_violated {ds ts} (h : DefsNote ds ts) (hc : NoComments ts) :
    ∃ defs, Parses (moduleOf ts) (.ok [⟨"M".toList, [], defs⟩]) ∧
      ∀ x, get defs x = (ds.filter fun d => d.id == x).getLast? := by
  refine ⟨_, definitions_parse h hc, fun x => ?_⟩
  rw [get_putAll_last, List.filter_map, List.getLast?_map]
  simp only [Option.map_map, get]
  have : (List.filter ((fun e : Text × ParsedDef => e.1 == x) ∘ fun d : ParsedDef => (d.id, d)) ds) =
      ds.filter fun d => d.id == x := rfl
  rw [this]
  cases (ds.filter fun d => d.id == x).getLast? <;> rfl

/-- `T ::= NULL` for the examples. -/
theorem def_note (s k) (t : Token) (hs : UpperName s.toList (nm s)) (hk : SimpleNote k [t]) :
    DefNote ⟨s.toList, .type (.mk k (some [])), none⟩ [nm s, tk .assignment "::=", t] :=
  .type (a := tk .assignment "::=") hs rfl (.type (ts := [t]) (us := []) (.simple hk) .nil)

/-- `T ::= NULL T ::= BOOLEAN`: `T` is BOOLEAN. -/
example : ∃ defs, Parses (moduleOf ([nm "T", tk .assignment "::=", kw "NULL"] ++
      ([nm "T", tk .assignment "::=", kw "BOOLEAN"] ++ []))) (.ok [⟨"M".toList, [], defs⟩]) ∧
    get defs "T".toList = some ⟨"T".toList, .type (.mk .boolean (some [])), none⟩ := by
  obtain ⟨defs, h1, h2⟩ := C90_redefinition_violated (.cons (def_note "T" _ _ upperT (.null (kw_word _)))
    (.cons (def_note "T" _ _ upperT (.boolean (kw_word _))) .nil)) (by simp [NoComments, nm, kw, tk])
  exact ⟨defs, h1, by rw [h2]; rfl⟩

theorem nodup_unique {ds : List ParsedDef} (hn : (ds.map (·.id)).Nodup) {a b : ParsedDef} (ha : a ∈ ds) (hb : b ∈ ds)
    (h : a.id = b.id) : a = b := by
  induction ds with
  | nil => cases ha
  | cons d ds ih =>
    rw [List.map_cons, List.nodup_cons] at hn
    rcases List.mem_cons.mp ha with rfl | ha' <;> rcases List.mem_cons.mp hb with rfl | hb'
    · rfl
    · exact absurd (h ▸ List.mem_map_of_mem hb') hn.1
    · exact absurd (h ▸ List.mem_map_of_mem ha') hn.1
    · exact ih hn.2 ha' hb'

/-- **C90 (partial).** When no name is defined twice, all definitions are there, under their names.
Missing: refusal of a second definition. -/
theorem C90_definitions_partial {ds ts} (h : DefsNote ds ts) (hc : NoComments ts) (hn : (ds.map (·.id)).Nodup) :
    ∃ defs, Parses (moduleOf ts) (.ok [⟨"M".toList, [], defs⟩]) ∧
      (∀ d ∈ ds, get defs d.id = some d) ∧ ∀ x d, get defs x = some d → d ∈ ds ∧ d.id = x := by
  obtain ⟨defs, h1, h2⟩ := C90_redefinition_violated h hc
  refine ⟨defs, h1, fun d hd => ?_, fun x d hx => ?_⟩
  · rw [h2]
    have hmem : d ∈ ds.filter fun e => e.id == d.id := by simp [hd]
    have hall : ∀ e ∈ ds.filter fun e => e.id == d.id, e = d := by
      intro e he
      simp only [List.mem_filter, beq_iff_eq] at he
      exact nodup_unique hn he.1 hd he.2
    cases hl : (ds.filter fun e => e.id == d.id).getLast? with
    | none => rw [List.getLast?_eq_none_iff] at hl; rw [hl] at hmem; cases hmem
    | some e => rw [hall e (List.mem_of_getLast? hl)]
  · rw [h2] at hx
    have := List.mem_of_getLast? hx
    simpa using this

/-! ## C91 -/

/-- One element in round brackets. -/
theorem constraint_of_elements {b e : Token} {us rest : Tokens} {el : Elements} (hb : b.type = .roundBegin)
    (he : e.type = .roundEnd) (h : Ev fun n => parseElements n us = .ok (el, e :: rest)) (hr : Stop rest) :
    Ev fun n => parseConstraints n (b :: us) = .ok ([.subtype (.mk [[el]] none)], rest) := by
  have h1 : Ev fun n => parseConstraint n (b :: us) = .ok (.subtype (.mk [[el]] none), rest) := by
    refine Ev.step (Ev.step (Ev.step (Ev.step (h.imp fun n hn => ?_))))
    have hs := SetStop.is (z := e) (.inr he)
    simp [parseConstraint, parseElementSet, unionLoop, interLoop, need, skip, hn, Token.is, hb, he, hs, Out.attempt,
      Out.bind]
  refine Ev.step ((h1.and (constraints_stops fun t ht => (hr t ht).2.2)).imp fun n hn => ?_)
  simp [parseConstraints, hn, Out.attempt, Out.bind]

/-- **C91 (violated).** Malformed notation is accepted:
* `OCTET` followed by any token is OCTET STRING;
* `CHARACTER` followed by any token is CHARACTER STRING;
* `SEQUENCE { a A b B }` needs no comma;
* `SIZE 5` without brackets is the value 5;
* after `<` any token is taken for `..`. -/
theorem C91_malformed_violated :
    (∀ t u, Word "OCTET" t → u.type ≠ .comment →
      Parses (typeIn ([t, u] ++ [kw "END"])) (.ok (justT (.mk .octetString (some []))))) ∧
    (∀ t u, Word "CHARACTER" t → u.type ≠ .comment →
      Parses (typeIn ([t, u] ++ [kw "END"]))
        (.ok (justT (.mk (.characterString "CHARACTER-STRING".toList) (some []))))) ∧
    (∀ t b x i ty ts c us e, Word "SEQUENCE" t → b.type = .curlyBegin → LowerName x i → TypeNote ty ts →
      SeqCompNote c us → e.type = .curlyEnd → NoComments ts → NoComments us →
      Parses (typeIn (t :: b :: i :: (ts ++ (us ++ [e])) ++ [kw "END"]))
        (.ok (justT (.mk (.sequence [.mk x ty false none, c] [] false) (some []))))) ∧
    (∀ k ts b s v u e, SimpleNote k ts → b.type = .roundBegin → Word "SIZE" s → WordValue v u →
      e.type = .roundEnd → NoComments ts →
      Parses (typeIn (ts ++ [b, s, u, e] ++ [kw "END"]))
        (.ok (justT (.mk k (some [.subtype (.mk [[.single v]] none)]))))) ∧
    (∀ k ts b lo l m u hi h e, SimpleNote k ts → b.type = .roundBegin → WordValue lo l → m.type = .lessThan →
      u.type ≠ .comment → WordValue hi h → e.type = .roundEnd → NoComments ts →
      Parses (typeIn (ts ++ [b, l, m, u, h, e] ++ [kw "END"]))
        (.ok (justT (.mk k (some [.subtype (.mk [[.range lo false hi true]] none)]))))) := by
  refine ⟨?_, ?_, ?_, ?_, ?_⟩
  · intro t u ht hu
    refine reads_of_type (by simp [ht.type, hu]) ?_
    refine kind_to_type (ht.start (by decide)) stop_end (Ev.step (Ev.all fun n => ?_))
    simp [parseKind, ht.text, twoWords]
  · intro t u ht hu
    refine reads_of_type (by simp [ht.type, hu]) ?_
    refine kind_to_type (ht.start (by decide)) stop_end (Ev.step (Ev.all fun n => ?_))
    simp [parseKind, ht.text, twoWords]
  · intro t b x i ty ts c us e ht hb hi hty hc he h1 h2
    refine reads_of_type (show NoComments _ from .cons (by simp [ht.type]) (.cons (by simp [hb])
      (.cons (by simp [hi.type]) (h1.append (h2.append (.cons (by simp [he]) .nil)))))) ?_
    simp only [List.cons_append, List.append_assoc, List.nil_append]
    refine kind_to_type (ht.start (by decide)) stop_end (kind_of_seqLoop ht hb ?_)
    have hr := seqComp_reads hc e [kw "END"] (.inr (.inl he))
    obtain ⟨j, vs, rfl, hj⟩ := seqComp_head hc
    refine seqLoop_of_component (c := .mk x ty false none) (z := j)
      (vs := vs ++ e :: [kw "END"]) (by simp [hj]) ?_ ?_
    · refine Ev.step (Ev.step ((type_reads hty (j :: (vs ++ e :: [kw "END"])) (by
        intro t ht; simp at ht; subst ht; simp [hj])).imp fun n hn => ?_))
      simp [parseSeqComponent, parseComponent, need, hi.isValueRef, hi.text, Out.bind, Out.attempt, hn,
        parsePresence, skip, not_isKeyword (t := j) (by simp [hj])]
    · refine Ev.step ((seqLoop_of_component (root := [.mk x ty false none]) (adds := []) (m := 0) (by simp [he]) hr
        (seqAfter_end he)).imp fun n hn => ?_)
      simp [seqAfter, skip, parseMarker, Token.is, hj, Out.bind]
      simpa using hn
  · intro k ts b s v u e hk hb hs hv he hc
    have hu : u.type ≠ .comment ∧ u.type ≠ .roundBegin := by
      rcases hv.2 with h | h | h | h | h <;> simp [h]
    refine reads_of_type (show NoComments _ from hc.append (by simp [NoComments, hb, hs.type, hu, he])) ?_
    obtain ⟨t, us, rfl, ht, hr⟩ := simple_reads hk [b, s, u, e, kw "END"] (by
      intro t ht; simp at ht; subst ht; simp [hb])
    have h1 := single_reads (.word hv) (z := e) (by simp [he]) (by simp [he]) [kw "END"]
    have h2 : Ev fun n => parseElements n [s, u, e, kw "END"] = .ok (.single v, [e, kw "END"]) := by
      refine Ev.step ((Ev.down h1).imp fun n hn => ?_)
      have hnk : u.type ≠ .keyword := by rcases hv.2 with h | h | h | h | h <;> simp [h]
      simp [parseElements, not_isKeyword hnk] at hn
      simp [parseElements, hs.isKeyword, expect, Token.is, hu, Out.bind]
      exact hn
    simpa using type_of_kind ht hr (constraint_of_elements hb he h2 stop_end)
  · intro k ts b lo l m u hi h e hk hb hlo hm hu hhi he hc
    have hl : l.type ≠ .comment ∧ l.type ≠ .keyword := by
      rcases hlo.2 with h | h | h | h | h <;> simp [h]
    have hh : h.type ≠ .comment ∧ h.type ≠ .lessThan := by
      rcases hhi.2 with h | h | h | h | h <;> simp [h]
    refine reads_of_type (show NoComments _ from hc.append (by simp [NoComments, hb, hl, hm, hu, hh, he])) ?_
    obtain ⟨t, us, rfl, ht, hr⟩ := simple_reads hk [b, l, m, u, h, e, kw "END"] (by
      intro t ht; simp at ht; subst ht; simp [hb])
    have h2 : Ev fun n => parseElements n [l, m, u, h, e, kw "END"] = .ok (.range lo false hi true, [e, kw "END"]) := by
      refine Ev.step (Ev.step (Ev.all fun n => ?_))
      simp [parseElements, not_isKeyword hl.2, parseElementsRest, parseRange, parseEndPoint, wordValue_reads hlo,
        wordValue_reads hhi, parseLowerMark, skip, Token.is, hm, hh, Out.bind, Out.attempt]
    simpa using type_of_kind ht hr (constraint_of_elements hb he h2 stop_end)

/-- `SEQUENCE { a NULL b BOOLEAN }`. -/
example : Parses (typeIn (kw "SEQUENCE" :: tk .curlyBegin "{" :: nm "a" :: ([kw "NULL"] ++ ([nm "b", kw "BOOLEAN"] ++
      [tk .curlyEnd "}"])) ++ [kw "END"]))
    (.ok (justT (.mk (.sequence [.mk "a".toList (.mk .null (some [])) false none,
      .mk "b".toList (.mk .boolean (some [])) false none] [] false) (some [])))) :=
  C91_malformed_violated.2.2.1 _ _ _ _ _ _ _ _ _ (kw_word _) rfl (lower "a" ⟨_, _, rfl, rfl⟩)
    (.type (ts := [_]) (us := []) (.simple (.null (kw_word _))) .nil)
    (.required (lower "b" ⟨_, _, rfl, rfl⟩) (.type (ts := [_]) (us := []) (.simple (.boolean (kw_word _))) .nil)) rfl
    (by simp [NoComments, kw]) (by simp [NoComments, nm, kw])

/-- `IA5String (SIZE 5)`. -/
example : Parses (typeIn ([kw "IA5String"] ++ [tk .roundBegin "(", kw "SIZE", tk .numberInt "5", tk .roundEnd ")"] ++
      [kw "END"]))
    (.ok (justT (.mk (.characterString "IA5String".toList) (some [.subtype (.mk [[.single "5".toList]] none)])))) :=
  C91_malformed_violated.2.2.2.1 _ _ _ _ _ _ _ (.string (by decide) (kw_word _)) rfl (kw_word _)
    ⟨rfl, .inr (.inl rfl)⟩ rfl (by simp [NoComments, kw])

/-- `INTEGER (1 < END 5)`. -/
example : Parses (typeIn ([kw "INTEGER"] ++ [tk .roundBegin "(", tk .numberInt "1", tk .lessThan "<", kw "END",
      tk .numberInt "5", tk .roundEnd ")"] ++ [kw "END"]))
    (.ok (justT (.mk (.integer none) (some [.subtype (.mk [[.range "1".toList false "5".toList true]] none)])))) :=
  C91_malformed_violated.2.2.2.2 _ _ _ _ _ _ _ _ _ _ (.integer (kw_word _)) rfl ⟨rfl, .inr (.inl rfl)⟩ rfl
    (by simp [kw]) ⟨rfl, .inr (.inl rfl)⟩ rfl (by simp [NoComments, kw])

theorem bind_ok {ε α β : Type} {m : Out ε α} {f : α → Out ε β} {y : β} (h : m.bind f = .ok y) :
    ∃ x, m = .ok x ∧ f x = .ok y := by
  cases m with
  | ok x => exact ⟨x, rfl, h⟩
  | err => cases h
  | panic => cases h
  | diverge => cases h

theorem attempt_ok {ε α β : Type} {m : Out ε α} {f : Option α → Out ε β} {y : β} (h : m.attempt.bind f = .ok y) :
    (∃ x, m = .ok x ∧ f (some x) = .ok y) ∨ f none = .ok y := by
  cases m with
  | ok x => exact .inl ⟨x, rfl, h⟩
  | err => exact .inr h
  | panic => cases h
  | diverge => cases h

theorem need_ok {p : Token → Bool} {ts r : Tokens} {t : Token} (h : need p ts = .ok (t, r)) :
    ts = t :: r ∧ p t = true := by
  cases ts with
  | nil => cases h
  | cons u us =>
    rw [need] at h
    split at h
    · cases h; exact ⟨rfl, ‹_›⟩
    · cases h

/-- The definition begins with its name. -/
theorem definition_stands {n ts d rest} (h : parseDefinition n ts = .ok (d, rest)) :
    ∃ i us, ts = i :: (us ++ rest) ∧ i.type = .identifier ∧ i.text = d.id := by
  have key : ∀ {i : Token} {r : Tokens}, ts = i :: r → (i.isValueRef = true ∨ i.isTypeRef = true) → rest <:+ r →
      i.text = d.id → ∃ i us, ts = i :: (us ++ rest) ∧ i.type = .identifier ∧ i.text = d.id := by
    rintro i r rfl hi ⟨us, rfl⟩ hd
    refine ⟨i, us, rfl, ?_, hd⟩
    rcases hi with h | h
    · simp only [Token.isValueRef, Token.is, Bool.and_eq_true, beq_iff_eq] at h; exact h.1
    · simp only [Token.isTypeRef, Token.is, Bool.and_eq_true, beq_iff_eq] at h; exact h.1
  have hva : parseValueAssignment n ts = .ok (d, rest) → ∃ i us, ts = i :: (us ++ rest) ∧ i.type = .identifier ∧ i.text = d.id := by
    intro h
    obtain ⟨⟨i, r⟩, h1, h⟩ := bind_ok h
    obtain ⟨h1, hi⟩ := need_ok h1
    obtain ⟨⟨ty, r2⟩, h2, h⟩ := bind_ok h
    obtain ⟨⟨a, r3⟩, h3, h⟩ := bind_ok h
    obtain ⟨⟨v, r4⟩, h4, h⟩ := bind_ok h
    cases h
    have e2 := ((safeAt n).type _).1 _ _ h2
    have e3 := (need_safe _ _).1 _ _ h3
    have e4 := (parseValue_safe _).1 _ _ h4
    exact key h1 (.inl hi) (e4.trans (e3.trans e2)) rfl
  have hta : parseTypeAssignment n ts = .ok (d, rest) → ∃ i us, ts = i :: (us ++ rest) ∧ i.type = .identifier ∧ i.text = d.id := by
    intro h
    obtain ⟨⟨i, r⟩, h1, h⟩ := bind_ok h
    obtain ⟨h1, hi⟩ := need_ok h1
    have fin : ∀ (p : Option (List Text × Tokens)) r', r' <:+ r →
        ((need (Token.is .assignment) r').bind fun a => (parseType n a.2).bind fun ty =>
          .ok (⟨i.text, .type ty.1, p.map fun p => (p.1, (a.2.take (a.2.length - ty.2.length)).map Token.unplaced)⟩, ty.2)) = .ok (d, rest) →
        ∃ i us, ts = i :: (us ++ rest) ∧ i.type = .identifier ∧ i.text = d.id := by
      intro p r' hr' h
      obtain ⟨⟨a, r3⟩, h3, h⟩ := bind_ok h
      obtain ⟨⟨ty, r4⟩, h4, h⟩ := bind_ok h
      cases h
      have e3 := (need_safe _ _).1 _ _ h3
      have e4 := ((safeAt n).type _).1 _ _ h4
      exact key h1 (.inr hi) (e4.trans (e3.trans hr')) rfl
    rcases attempt_ok h with ⟨p, hp, h⟩ | h
    · obtain ⟨⟨b, r5⟩, h5, h6⟩ := bind_ok hp
      have e5 := (need_safe _ _).1 _ _ h5
      have e6 := (paramsLoop_safe _ _ _).1 _ _ h6
      exact fin (some p) p.2 (e6.trans e5) h
    · exact fin none r (List.suffix_refl r) h
  have hca : parseClassAssignment n ts = .ok (d, rest) → ∃ i us, ts = i :: (us ++ rest) ∧ i.type = .identifier ∧ i.text = d.id := by
    intro h
    obtain ⟨⟨i, r⟩, h1, h⟩ := bind_ok h
    obtain ⟨h1, hi⟩ := need_ok h1
    obtain ⟨⟨a, r3⟩, h3, h⟩ := bind_ok h
    obtain ⟨⟨c, r4⟩, h4, h⟩ := bind_ok h
    cases h
    have e3 := (need_safe _ _).1 _ _ h3
    have e4 := (parseClass_safe _ _).1 _ _ h4
    simp only [Token.isClassRef, Bool.and_eq_true] at hi
    exact key h1 (.inr hi.1) (e4.trans e3) rfl
  have hoa : parseObjectSetAssignment n ts = .ok (d, rest) → ∃ i us, ts = i :: (us ++ rest) ∧ i.type = .identifier ∧ i.text = d.id := by
    intro h
    obtain ⟨⟨i, r⟩, h1, h⟩ := bind_ok h
    obtain ⟨h1, hi⟩ := need_ok h1
    obtain ⟨⟨c, r2⟩, h2, h⟩ := bind_ok h
    obtain ⟨⟨a, r3⟩, h3, h⟩ := bind_ok h
    obtain ⟨⟨s, r4⟩, h4, h⟩ := bind_ok h
    obtain ⟨⟨b, r5⟩, h5, h6⟩ := bind_ok h4
    cases h
    have e2 := (need_safe _ _).1 _ _ h2
    have e3 := (need_safe _ _).1 _ _ h3
    have e5 := (need_safe _ _).1 _ _ h5
    have e6 := (objectSetLoop_safe _ _ _ _ _).1 _ _ h6
    exact key h1 (.inr hi) (e6.trans (e5.trans (e3.trans e2))) rfl
  have hob : parseObjectAssignment ts = .ok (d, rest) → ∃ i us, ts = i :: (us ++ rest) ∧ i.type = .identifier ∧ i.text = d.id := by
    intro h
    obtain ⟨b, h1, h⟩ := bind_ok h
    cases b with
    | false => cases h
    | true =>
      rw [if_pos rfl] at h
      obtain ⟨⟨a, r3⟩, h3, h⟩ := bind_ok h
      obtain ⟨⟨v, r4⟩, h4, h⟩ := bind_ok h
      cases h
      have e3 := (need_safe _ _).1 _ _ h3
      have e4 := (parseSetIsh_safe _).1 _ _ h4
      cases ts with
      | nil => cases h3
      | cons i r =>
        have hi : i.isValueRef = true := by
          unfold expectAll at h1
          split at h1
          · cases h1
          · cases r with
            | nil => rename_i hl; simp at hl
            | cons c r =>
              simp only [Out.ok.injEq, List.zip_cons_cons, List.all_cons, Bool.and_eq_true] at h1
              exact h1.1
        exact key rfl (.inl hi) ((e4.trans e3).trans (List.drop_suffix 1 r)) rfl
  cases ts with
  | nil => cases h
  | cons t ts =>
    rw [parseDefinition] at h
    split at h
    · rcases attempt_ok h with ⟨x, hx, h⟩ | h
      · cases h; exact hob hx
      · rcases attempt_ok h with ⟨x, hx, h⟩ | h
        · cases h; exact hva hx
        · cases h
    · split at h
      · rcases attempt_ok h with ⟨x, hx, h⟩ | h
        · cases h; exact hta hx
        · rcases attempt_ok h with ⟨x, hx, h⟩ | h
          · cases h; exact hca hx
          · rcases attempt_ok h with ⟨x, hx, h⟩ | h
            · cases h; exact hoa hx
            · cases h
      · cases h

/-- Definitions with their names at the beginning, one after the other, then `END`. -/
inductive DefsStand : List ParsedDef → Tokens → Prop
  | done {e} : Word "END" e → DefsStand [] [e]
  | next {d i us ds ts} : i.type = .identifier → i.text = d.id → DefsStand ds ts →
      DefsStand (d :: ds) (i :: (us ++ ts))

/-- `Name ... DEFINITIONS ... ::= BEGIN ... END`, with definitions that begin with their names. -/
def ModuleStands (m : ParsedModule) (ts : Tokens) : Prop :=
  ∃ i os d gs a b is ds body, ts = i :: (os ++ d :: (gs ++ a :: b :: (is ++ body))) ∧
    i.type = .identifier ∧ i.text = m.name ∧ Word "DEFINITIONS" d ∧ a.type = .assignment ∧ Word "BEGIN" b ∧
    DefsStand ds body ∧ ∀ x, get m.definitions x = (ds.filter fun d => d.id == x).getLast?

theorem isKeyword_word {t : Token} {w : String} (h : t.isKeyword w = true) : Word w t := by
  simp only [Token.isKeyword, Token.is, Bool.and_eq_true, beq_iff_eq] at h
  exact h

theorem definitions_stand {n} : ∀ {acc ts defs rest}, definitionsLoop n acc ts = .ok (defs, rest) →
    ∃ ds body, ts = body ++ rest ∧ DefsStand ds body ∧
      ∀ x, get defs x = ((ds.filter fun d => d.id == x).getLast?).or (get acc x) := by
  induction n with
  | zero => intro acc ts defs rest h; cases h
  | succ n ih =>
    intro acc ts defs rest h
    rw [definitionsLoop] at h
    obtain ⟨z, hz, h⟩ := bind_ok h
    cases ts with
    | nil => cases hz
    | cons t ts =>
      rw [skip] at hz
      split at hz
      · rename_i hk
        cases hz
        rw [if_pos rfl] at h
        cases h
        exact ⟨[], [t], rfl, .done (isKeyword_word hk), fun x => by simp⟩
      · cases hz
        rw [if_neg (by simp)] at h
        obtain ⟨⟨d, r⟩, hd, h⟩ := bind_ok h
        obtain ⟨i, us, hi, h1, h2⟩ := definition_stands hd
        obtain ⟨ds, body, rfl, hs, hg⟩ := ih h
        refine ⟨d :: ds, i :: (us ++ body), by rw [hi]; simp, .next h1 h2 hs, fun x => ?_⟩
        rw [hg, get_put]
        by_cases he : d.id = x
        · rw [List.filter_cons_of_pos (by simpa using he), if_pos he, List.getLast?_cons]
          cases (ds.filter fun e => e.id == x).getLast? <;> simp
        · rw [List.filter_cons_of_neg (by simpa using he), if_neg he]

theorem module_stands {n ts m rest} (h : parseModule n ts = .ok (m, rest)) :
    ∃ p, ts = p ++ rest ∧ ModuleStands m p := by
  obtain ⟨⟨name, r1⟩, h1, h⟩ := bind_ok h
  obtain ⟨⟨d, r2⟩, h2, h⟩ := bind_ok h
  obtain ⟨⟨t, r3⟩, h3, h⟩ := bind_ok h
  obtain ⟨⟨a, r4⟩, h4, h⟩ := bind_ok h
  obtain ⟨⟨b, r5⟩, h5, h⟩ := bind_ok h
  obtain ⟨⟨i, r6⟩, h6, h⟩ := bind_ok h
  obtain ⟨⟨defs, r7⟩, h7, h⟩ := bind_ok h
  cases h
  cases ts with
  | nil => cases h1
  | cons u us =>
    rw [parseModuleName] at h1
    split at h1
    · rename_i hu
      obtain ⟨⟨o, r⟩, ho, h1⟩ := bind_ok h1
      cases h1
      obtain ⟨os, rfl⟩ : r <:+ us := by
        unfold parseMaybeOid at ho
        split at ho
        · cases ho; exact List.suffix_refl _
        · split at ho
          · obtain ⟨⟨c, r'⟩, hc, ho⟩ := bind_ok ho
            cases ho
            exact ((oidLoop_safe _ _ _).1 _ _ hc).trans (List.suffix_cons _ _)
          · cases ho; exact List.suffix_refl _
      obtain ⟨rfl, hd⟩ := need_ok h2
      obtain ⟨gs, rfl⟩ := (parseTags_safe _).1 _ _ h3
      obtain ⟨rfl, ha⟩ := need_ok h4
      obtain ⟨rfl, hb⟩ := need_ok h5
      obtain ⟨is, rfl⟩ : r6 <:+ r5 := by
        obtain ⟨⟨k, r'⟩, hk, h6⟩ := bind_ok h6
        have e := (skip_safe _ _).1 _ _ hk
        dsimp only at h6
        split at h6
        · exact ((importsLoop_safe _ _ _).1 _ _ h6).trans e
        · cases h6; exact e
      obtain ⟨ds, body, rfl, hs, hg⟩ := definitions_stand h7
      have hu' : u.type = .identifier := by
        simp only [Token.isTypeRef, Token.is, Bool.and_eq_true, beq_iff_eq] at hu; exact hu.1
      exact ⟨u :: (os ++ d :: (gs ++ a :: b :: (is ++ body))), by simp, u, os, d, gs, a, b, is, ds, body, rfl, hu',
        rfl, isKeyword_word hd, by simpa [Token.is] using ha, isKeyword_word hb, hs, fun x =>
          (hg x).trans (by rw [show get ([] : List (Text × ParsedDef)) x = none from rfl, Option.or_none])⟩
    · cases h1

theorem modules_stand {n} : ∀ {acc ts ms}, modulesLoop n acc ts = .ok ms →
    ∃ ps l, ts = List.flatten ps ∧ ms = acc ++ l ∧ All2 ModuleStands l ps := by
  induction n with
  | zero => intro acc ts ms h; cases h
  | succ n ih =>
    intro acc ts ms h
    rw [modulesLoop] at h
    obtain ⟨⟨m, r⟩, hm, hmr⟩ := bind_ok h
    clear h
    obtain ⟨p, rfl, hp⟩ := module_stands hm
    have h := hmr
    dsimp only at h
    split at h
    · rename_i hr
      cases h
      have : r = [] := by simpa using hr
      subst this
      exact ⟨[p], [m], by simp, rfl, .cons hp .nil⟩
    · obtain ⟨ps, l, rfl, rfl, ha⟩ := ih h
      exact ⟨p :: ps, m :: l, by simp, by simp, .cons hp ha⟩

/-- **C91 (partial).** Whatever is accepted consists of one piece `Name ... DEFINITIONS ... ::= BEGIN ...
END` for each module of the result, in order, and in each piece of definitions that begin with their
names, one after the other; the result holds no other definitions. Missing: that what stands between
them is well formed. -/
theorem C91_structure_partial {n ts ms} (h : parse n ts = .ok ms) :
    ∃ ps, ts.filter (fun t => !t.is .comment) = List.flatten ps ∧ All2 ModuleStands ms ps := by
  obtain ⟨ps, l, h1, rfl, h2⟩ := modules_stand h
  exact ⟨ps, h1, h2⟩

example : ∃ n, parse n exampleText = .ok [⟨"M".toList, [], [("T".toList, ⟨"T".toList, .type exampleType, none⟩)]⟩] :=
  let ⟨_, n, h⟩ := C85_written_is_read example_note; ⟨n, h n (Nat.le_refl _)⟩

/-! ## C92 -/

theorem importNames_fails (n : Nat) : ∀ (ts : Tokens) (names : List Text), ts.length ≤ n →
    (∀ t ∈ ts, t.isKeyword "FROM" = false) → importNames (n + 1) names ts = .err .unexpectedEnd := by
  induction n with
  | zero =>
    intro ts names hn _
    cases ts with
    | nil => rfl
    | cons => simp at hn
  | succ n ih =>
    intro ts names hn hf
    cases ts with
    | nil => rfl
    | cons t ts =>
      rw [importNames, if_neg (by simp [hf t (.head _)])]
      cases ts with
      | nil => rfl
      | cons u us =>
        rw [skip]
        by_cases hu : Token.is .comma u = true
        · rw [if_pos hu, Out.bind]
          exact ih _ _ (by simp at hn ⊢; omega) fun t ht => hf t (.tail _ (.tail _ ht))
        · rw [if_neg hu, Out.bind]
          exact ih _ _ (by simp at hn ⊢; omega) fun t ht => hf t (.tail _ ht)

/-- **C92 (violated).** Legal modules are refused:
* with a class without `WITH SYNTAX` as the last definition of the file;
* with EXPORTS;
* with an empty list of imports, `IMPORTS ;`;
* with `EXTENSIBILITY IMPLIED`;
* with a value TRUE, FALSE or NULL;
* with a tagged type, `[0] INTEGER`;
* with `SEQUENCE SIZE (1..5) OF`;
* with a REAL, an EXTERNAL, or any other type of one word that is not among the supported ones. -/
theorem C92_refused_violated :
    (∀ d ts, BareClassNote d ts → NoComments ts → Parses (moduleOf ts) (.err .parse)) ∧
    (∀ e ts, Word "EXPORTS" e → NoComments ts → Parses (header ++ e :: ts) (.err .parse)) ∧
    (∀ i z ts, Word "IMPORTS" i → z.type = .semiColon → NoComments ts →
      (∀ t ∈ ts, t.isKeyword "FROM" = false) → Parses (header ++ i :: z :: ts) (.err .unexpectedEnd)) ∧
    (∀ e i ts, Word "EXTENSIBILITY" e → Word "IMPLIED" i → NoComments ts →
      Parses (nm "M" :: kw "DEFINITIONS" :: e :: i :: ts) (.err .unexpectedToken)) ∧
    (∀ x i ty ts a v us, LowerName x i → TypeNote ty ts → a.type = .assignment →
      Word "TRUE" v ∨ Word "FALSE" v ∨ Word "NULL" v → NoComments (ts ++ us) →
      Parses (header ++ i :: (ts ++ a :: v :: us)) (.err .parse)) ∧
    (∀ t ts, t.type = .squareBegin → t.text = ['['] → NoComments ts → Parses (typeIn (t :: ts)) (.err .parse)) ∧
    (∀ t s ts, Word "SEQUENCE" t → Word "SIZE" s → NoComments ts →
      Parses (typeIn (t :: s :: ts)) (.err .parse)) ∧
    (∀ w t ts, w ∉ ["INTEGER", "BOOLEAN", "ENUMERATED", "NULL", "UTF8String", "IA5String", "PrintableString",
        "VisibleString", "OBJECT", "OCTET", "BIT", "CHARACTER", "SEQUENCE", "SET", "CHOICE", "CLASS"] →
      Word w t → NoComments ts → Parses (typeIn (t :: ts)) (.err .parse)) := by
  refine ⟨?_, ?_, ?_, ?_, ?_, ?_, ?_, ?_⟩
  · intro d ts h hc
    cases h with
    | @mk x i a k b fs ts e m hi ha hk hb hf he ht =>
      have hnt : Ev fun n => parseType n (k :: b :: (ts ++ e :: [kw "END"])) = .err .unexpectedToken := by
        have h1 := not_isTypeRef (t := k) (by simp [hk.type])
        have h2 := not_isClassRef (t := k) (by simp [hk.type])
        have h3 : k.isBuiltin = false := by simp only [Token.isBuiltin, hk.text]; decide
        exact Ev.step (Ev.all fun n => by simp [parseType, h1, h2, h3])
      refine ⟨nofun, Ev.step (Ev.step ((hnt.and (fields_reads hf [] e [kw "END"] he)).imp fun n hn => ?_))⟩
      rw [moduleOf, parse_header (n + 1) (hc.append (.cons (by simp [kw]) .nil)) (by
        intro t ht; simp at ht; subst ht; exact not_isKeyword (by simp [hi.1.type])) (by simp)]
      simp only [List.cons_append, List.append_assoc, List.nil_append]
      have h1 : parseTypeAssignment n (i :: a :: k :: b :: (ts ++ e :: [kw "END"])) = .err .unexpectedToken := by
        simp [parseTypeAssignment, need, hi.1.isTypeRef, Out.bind, parseParams, Token.is, ha, Out.attempt, hn.1]
      have h2 : parseClassAssignment n (i :: a :: k :: b :: (ts ++ e :: [kw "END"])) = .err .unexpectedEnd := by
        simp [parseClassAssignment, need, hi.isClassRef, Out.bind, Token.is, ha, parseClass, hk.isKeyword, hb, hn.2,
          parseWithSyntax, expectAll]
      have h3 : parseObjectSetAssignment n (i :: a :: k :: b :: (ts ++ e :: [kw "END"])) = .err .unexpectedToken := by
        simp [parseObjectSetAssignment, need, hi.1.isTypeRef, Out.bind, not_isClassRef (t := a) (by simp [ha])]
      simp [definitionsLoop, skip, not_isKeyword (t := i) (by simp [hi.1.type]), parseDefinition,
        hi.1.isTypeRef, hi.1.not_isValueRef, parseTypeish, h1, h2, h3, Out.attempt, Out.bind]
  · intro e ts he hc
    refine ⟨nofun, Ev.step (Ev.step (Ev.all fun n => ?_))⟩
    rw [parse_header _ (.cons (by simp [he.type]) hc) (by
      intro t ht; simp at ht; subst ht; simp [Token.isKeyword, he.text]) (by simp)]
    have h1 : e.isKeyword "END" = false := by simp [Token.isKeyword, he.text]
    simp [definitionsLoop, skip, h1, parseDefinition, not_isValueRef (t := e) (by simp [he.type]),
      not_isTypeRef (t := e) (by simp [he.type]), Out.bind]
  · intro i z ts hi hz hc hf
    refine ⟨nofun, ts.length + 4, fun n hn => ?_⟩
    obtain ⟨n, rfl⟩ : ∃ m, n = m + 3 := ⟨n - 3, by omega⟩
    have hf' : (i :: z :: ts).filter (fun t => !t.is .comment) = i :: z :: ts :=
      filter_noComments (.cons (by simp [hi.type]) (.cons (by simp [hz]) hc))
    have h1 : (nm "M").isTypeRef = true := upperM.isTypeRef
    have h2 : parseImports (n + 2) (i :: z :: ts) = .err .unexpectedEnd := by
      have : importNames (n + 1) [] (z :: ts) = .err .unexpectedEnd :=
        importNames_fails _ _ _ (by simp at hn ⊢; omega) (by
          intro t ht
          rcases List.mem_cons.mp ht with rfl | ht
          · exact not_isKeyword (by simp [hz])
          · exact hf t ht)
      simp [parseImports, skip, hi.isKeyword, importsLoop, this, Out.bind]
    have h3 : parseTags (tk .assignment "::=" :: kw "BEGIN" :: i :: z :: ts) =
        .ok ((), tk .assignment "::=" :: kw "BEGIN" :: i :: z :: ts) := rfl
    have h4 : parseMaybeOid (n + 2) (kw "DEFINITIONS" :: tk .assignment "::=" :: kw "BEGIN" :: i :: z :: ts) =
        .ok (none, kw "DEFINITIONS" :: tk .assignment "::=" :: kw "BEGIN" :: i :: z :: ts) := rfl
    have h5 : Token.is .assignment (tk .assignment "::=") = true := rfl
    rw [parse, header_noComments, hf', modulesLoop]
    simp only [header, List.cons_append, List.nil_append, parseModule, parseModuleName, h1, if_true, h4, h5, Out.bind,
      need, (kw_word "DEFINITIONS").isKeyword, (kw_word "BEGIN").isKeyword, h3, h2]
  · intro e i ts he hi hc
    refine ⟨nofun, Ev.step (Ev.all fun n => ?_)⟩
    have hf : (nm "M" :: kw "DEFINITIONS" :: e :: i :: ts).filter (fun t => !t.is .comment) =
        nm "M" :: kw "DEFINITIONS" :: e :: i :: ts :=
      filter_noComments (.cons (by simp [nm]) (.cons (by simp [kw]) (.cons (by simp [he.type])
        (.cons (by simp [hi.type]) hc))))
    have h1 : (nm "M").isTypeRef = true := upperM.isTypeRef
    have h4 : parseMaybeOid n (kw "DEFINITIONS" :: e :: i :: ts) = .ok (none, kw "DEFINITIONS" :: e :: i :: ts) := rfl
    have h3 : parseTags (e :: i :: ts) = .ok ((), e :: i :: ts) := by
      simp [parseTags, skip, Token.isKeyword, he.text, Out.bind]
    rw [parse, hf, modulesLoop]
    simp only [parseModule, parseModuleName, h1, if_true, h4, Out.bind,
      need, (kw_word "DEFINITIONS").isKeyword, h3]
    simp [Token.is, he.type]
  · intro x i ty ts a v us hi hty ha hv hc
    have hvk : v.type = .keyword := by rcases hv with h | h | h <;> exact h.type
    have hcts : NoComments ts := fun t ht => hc t (List.mem_append_left _ ht)
    have hcus : NoComments us := fun t ht => hc t (List.mem_append_right _ ht)
    obtain ⟨e, ho⟩ := not_object (i := i) hty ha (v :: us) (.inr ⟨_, _, rfl, by simp [hvk], by simp [hvk]⟩)
    have ht := type_reads hty (a :: v :: us) (by intro t ht; simp at ht; subst ht; simp [ha])
    refine ⟨nofun, Ev.step (Ev.step (ht.imp fun n hn => ?_))⟩
    rw [parse_header _ (.cons (by simp [hi.type]) (hcts.append (.cons (by simp [ha]) (.cons (by simp [hvk]) hcus)))) (by
      intro t ht; simp at ht; subst ht; exact not_isKeyword (by simp [hi.type])) (by simp)]
    have hv' : parseValue (v :: us) = .err .unexpectedToken := by
      simp [parseValue, Token.isSimpleValue, Token.is, hvk]
    have h1 : parseValueAssignment n (i :: (ts ++ a :: v :: us)) = .err .unexpectedToken := by
      simp [parseValueAssignment, need, hi.isValueRef, hn, Token.is, ha, hv', Out.bind]
    simp [definitionsLoop, skip, not_isKeyword (t := i) (by simp [hi.type]), parseDefinition, hi.isValueRef,
      parseValueish, ho, h1, Out.attempt, Out.bind]
  · intro t ts ht htt hc
    refine fails_of_type (not_isKeyword (by simp [ht])) hc (by simp [ht]) (Ev.step (Ev.all fun n => ⟨.unexpectedToken, ?_⟩))
    have h3 : t.isBuiltin = false := by simp only [Token.isBuiltin, htt]; decide
    simp [parseType, not_isTypeRef (t := t) (by simp [ht]), not_isClassRef (t := t) (by simp [ht]), h3]
  · intro t s ts ht hs hc
    have hst : ∀ t ∈ (s :: ts).head?, t.type ≠ .roundBegin := by intro t ht; simp at ht; subst ht; simp [hs.type]
    refine fails_of_type (by simp [Token.isKeyword, ht.text]) (show NoComments _ from .cons (by simp [hs.type]) hc)
      (by simp [ht.type]) (Ev.step (Ev.step (Ev.step (Ev.step ((constraint_stops hst).imp
        fun n hn => ⟨.unexpectedToken, ?_⟩)))))
    have h1 := ht.start (by decide)
    unfold TypeStart at h1
    have h2 : s.isKeyword "OF" = false := by simp [Token.isKeyword, hs.text]
    rw [parseType, if_pos h1]
    simp [parseKind, ht.text, isStringType, parseSeqOrSeqOf, need, ht.isKeyword, expect, Token.is, hs.type, parseSeqOf,
      hn, h2, Out.attempt, Out.bind]
  · intro w t ts hw ht hc
    have hcl : t.isKeyword "CLASS" = false := by
      simp only [Token.isKeyword, ht.text, Bool.and_eq_false_iff, beq_eq_false_iff_ne]
      refine .inr fun h => hw ?_
      rw [String.ext h]
      simp
    refine fails_of_type hcl hc (by simp [ht.type]) (Ev.step (Ev.all fun n => ⟨.unexpectedToken, ?_⟩))
    have h3 : t.isBuiltin = false := by
      rw [Token.isBuiltin, List.any_eq_false]
      intro s hs
      simp only [beq_iff_eq, ht.text]
      intro h
      refine hw ?_
      rw [String.ext h]
      simp only [BUILTIN_TYPES, List.mem_cons] at hs ⊢
      rcases hs with h | h | h | h | h | h | h | h | h | h | h | h | h | h | h | h <;> simp [h] at *
    simp [parseType, not_isTypeRef (t := t) (by simp [ht.type]), not_isClassRef (t := t) (by simp [ht.type]), h3]

/-- `T ::= REAL END`. -/
example : Parses (typeIn [kw "REAL", kw "END"]) (.err .parse) :=
  C92_refused_violated.2.2.2.2.2.2.2 "REAL" _ _ (by decide) (kw_word _) (by simp [NoComments, kw])

/-- `on BOOLEAN ::= TRUE END`. -/
example : Parses (header ++ nm "on" :: ([kw "BOOLEAN"] ++ tk .assignment "::=" :: kw "TRUE" :: [kw "END"])) (.err .parse) :=
  C92_refused_violated.2.2.2.2.1 _ _ _ _ _ _ _ (lower "on" ⟨_, _, rfl, rfl⟩)
    (.type (ts := [_]) (us := []) (.simple (.boolean (kw_word _))) .nil) rfl (.inl (kw_word _)) (by simp [NoComments, kw])

/-- `C ::= CLASS { &id INTEGER UNIQUE } END`. -/
example : Parses (moduleOf (nm "C" :: tk .assignment "::=" :: kw "CLASS" :: tk .curlyBegin "{" ::
    ([tk .andIdentifier "&id", kw "INTEGER", kw "UNIQUE"] ++ [tk .curlyEnd "}"]))) (.err .parse) := by
  refine C92_refused_violated.1 _ _ (.mk (x := "C".toList) (m := [(_, _)]) ⟨⟨rfl, rfl, ⟨_, _, rfl, rfl⟩, by decide⟩, by decide⟩ rfl
    (kw_word _) rfl (.one (.value (x := "&id".toList) (ts := [_]) (us := [_]) (vs := []) ⟨rfl, rfl, _, _, rfl, rfl⟩
      (.type (ts := [_]) (us := []) (.simple (.integer (kw_word _))) .nil) (.unique (kw_word _)) .none (by simp))) rfl
    ⟨.refl _, by simp⟩) (by simp [NoComments, kw, nm, tk])

/-- **C92 (partial).** Every module in the supported notation is accepted. Missing: the rest of the
standards' notation. -/
theorem C92_accepted_partial {ms : List ParsedModule} {ts : Tokens}
    (h : ModulesNote ms (ts.filter fun t => !t.is .comment)) : ∀ n, parse n ts = .diverge ∨ ∃ ms, parse n ts = .ok ms := by
  intro n
  rcases below (fun n => parse_mono n ts) (C85_written_is_read h).2 n with h | h
  · exact .inl h
  · exact .inr ⟨_, h⟩

end Hampi.Compiler.Props
