import Verif.Spec.ObjectNotation
import Verif.Props.TokenizerBack
import Verif.Lemmas.ParserReadsDefs
import Verif.Lemmas.Refine
import Verif.Lemmas.Ready
import Verif.Lemmas.Bare
/-!
# Objects (C104)
-/
namespace Hampi.Compiler.Props
open _root_.Hampi.Compiler.Spec
open _root_.Hampi.Spec (Tiles Same Shape Kept)

/-! ## The words of a phrase -/

theorem splitAt'_none {α : Type} {p : α → Bool} (xs : List α) (h : ∀ x ∈ xs, p x = false) : splitAt' p xs = [xs] := by
  induction xs with
  | nil => rfl
  | cons x xs ih =>
    rw [splitAt', h x List.mem_cons_self, ih fun y hy => h y (List.mem_cons_of_mem _ hy)]
    rfl

theorem splitAt'_append {α : Type} {p : α → Bool} (xs : List α) (h : ∀ x ∈ xs, p x = false) (y : α) (hy : p y = true)
    (ys : List α) : splitAt' p (xs ++ y :: ys) = xs :: splitAt' p ys := by
  induction xs with
  | nil => rw [List.nil_append, splitAt', hy]; rfl
  | cons x xs ih =>
    rw [List.cons_append, splitAt', h x List.mem_cons_self, ih fun y hy => h y (List.mem_cons_of_mem _ hy)]
    rfl

theorem splitAt'_all {α : Type} {p : α → Bool} (xs : List α) (h : ∀ x ∈ xs, p x = true) (ys : List α) :
    splitAt' p (xs ++ ys) = List.replicate xs.length [] ++ splitAt' p ys := by
  induction xs with
  | nil => rfl
  | cons x xs ih =>
    rw [List.cons_append, splitAt', h x List.mem_cons_self, ih fun y hy => h y (List.mem_cons_of_mem _ hy)]
    rfl

theorem intercalate_cons (w v : Text) (ws : List Text) :
    [' '].intercalate (w :: v :: ws) = w ++ ' ' :: [' '].intercalate (v :: ws) := by
  simp [List.intercalate]

theorem phrase_words {s : Text} {ws : List Text} (h : Phrase s ws) : wordsOf s = ws := by
  obtain ⟨hne, hw, rfl⟩ := h
  unfold wordsOf
  have : splitAt' isBlank ([' '].intercalate ws) = ws := by
    induction ws with
    | nil => exact absurd rfl hne
    | cons w ws ih =>
      have hb : ∀ c ∈ w, isBlank c = false := (hw w List.mem_cons_self).2
      cases ws with
      | nil => rw [show [' '].intercalate [w] = w by simp [List.intercalate]]; exact splitAt'_none w hb
      | cons v ws =>
        rw [intercalate_cons, splitAt'_append w hb ' ' (by decide), ih (by simp) fun x hx => hw x (.tail _ hx)]
  rw [this]
  exact List.filter_eq_self.mpr fun w hw' => by
    have := (hw w hw').1
    cases w <;> simp_all

/-! ## The loop -/

theorem syntaxWords_eq (f : ClassField) : f.syntaxWords = syntaxOf f := by cases f <;> rfl

/-- Is the token not a word of the syntax. -/
def notWord (cls : List (Text × ClassField)) (t : Token) : Bool :=
  !(cls.filterMap fun f => f.2.syntaxWords).any fun f => (wordsOf f).any fun w => t.text == w

theorem notWord_false {cls : List (Text × ClassField)} (hc : ClearSyntax cls) {t : Token} :
    notWord cls t = false ↔ ClassWord cls t.text := by
  simp only [notWord, Bool.not_eq_false', List.any_eq_true, List.mem_filterMap, beq_iff_eq, syntaxWords_eq]
  constructor
  · rintro ⟨s, ⟨f, hf, hs⟩, w, hw, rfl⟩
    obtain ⟨ws, hp⟩ := hc.words f hf s hs
    rw [phrase_words hp] at hw
    exact ⟨f, hf, s, ws, hs, hp, hw⟩
  · rintro ⟨f, hf, s, ws, hs, hp, hw⟩
    exact ⟨s, ⟨f, hf, hs⟩, _, (by rw [phrase_words hp]; exact hw), rfl⟩

theorem notWord_true {cls : List (Text × ClassField)} (hc : ClearSyntax cls) {t : Token} (h : ¬ ClassWord cls t.text) :
    notWord cls t = true := by
  cases e : notWord cls t with
  | true => rfl
  | false => exact absurd ((notWord_false hc).mp e) h

theorem fieldOfWords_nil {cls : List (Text × ClassField)} (hc : ClearSyntax cls) :
    fieldOfWords cls (concatTexts [] [' ']) = none := by
  unfold fieldOfWords
  rw [List.find?_eq_none]
  intro f hf h
  simp only [beq_iff_eq, syntaxWords_eq] at h
  obtain ⟨ws, hne, hw, e⟩ := hc.words f hf _ h
  obtain ⟨w, ws, rfl⟩ := List.exists_cons_of_ne_nil hne
  have hw' := (hw w List.mem_cons_self).1
  cases ws with
  | nil => simp [List.intercalate, concatTexts] at e; exact hw' e
  | cons v ws => rw [intercalate_cons] at e; simp [concatTexts, List.intercalate] at e

theorem fieldOfWords_some {cls : List (Text × ClassField)} (hc : ClearSyntax cls) {f : Text × ClassField} (hf : f ∈ cls)
    {s : Text} (hs : syntaxOf f.2 = some s) : fieldOfWords cls s = some f := by
  unfold fieldOfWords
  cases h : cls.find? fun f => f.2.syntaxWords == some s with
  | none =>
    have := List.find?_eq_none.mp h f hf
    simp [syntaxWords_eq, hs] at this
  | some g =>
    have h1 := List.find?_some h
    simp only [beq_iff_eq, syntaxWords_eq] at h1
    rw [hc.distinct g (List.mem_of_find?_eq_some h) f hf s h1 hs]

theorem objectLoop_empty {cls : List (Text × ClassField)} (hc : ClearSyntax cls) (n : Nat) (tokens : List Token)
    (k : Nat) (groups : List (List Token)) (consumed : Nat) (fields : List (Text × ObjectField)) :
    objectLoop n cls tokens (List.replicate k [] ++ groups) consumed fields =
      objectLoop n cls tokens groups consumed fields := by
  induction k with
  | zero => rfl
  | succ k ih =>
    rw [List.replicate_succ, List.cons_append, objectLoop, fieldOfWords_nil hc]
    exact ih

theorem type_ne_nil {ty : AsnType} {ts : Tokens} (h : TypeNote ty ts) : ts ≠ [] := by
  rintro rfl
  obtain ⟨n, hn⟩ := type_reads h [] (fun t ht => nomatch ht)
  have := hn (n + 1) (by omega)
  rw [List.nil_append, parseType] at this
  cases this

theorem value_ne_nil {v : Text} {ts : Tokens} (h : ValueNote v ts) : ts ≠ [] := by
  rintro rfl
  have := value_reads h []
  rw [List.nil_append, parseValue] at this
  cases this

/-- What `objectLoop` needs to know of a setting. -/
theorem setting_parts {cls : List (Text × ClassField)} {s : Text × ObjectField} {ts : Tokens} (h : SettingNote cls s ts) :
    ∃ f w hs vs, ts = hs ++ vs ∧ (s.1, f) ∈ cls ∧ syntaxOf f = some w ∧ Phrase w (hs.map Token.text) ∧
      (∀ h ∈ hs, h.type = .identifier ∨ h.type = .keyword) ∧ vs ≠ [] ∧ (∀ t ∈ vs, ¬ ClassWord cls t.text) ∧
      ∀ rest, Stop rest → Ev fun n => parseFieldValue n f (vs ++ rest) = .ok (s.2, rest) := by
  cases h with
  | type hf hp ht hy hw =>
    refine ⟨_, _, _, _, rfl, hf, rfl, hp, ht, type_ne_nil hy, hw, fun rest hr => (type_reads hy rest hr).imp fun n h => ?_⟩
    rw [parseFieldValue, h]; rfl
  | value hf hp ht hy hw =>
    refine ⟨_, _, _, _, rfl, hf, rfl, hp, ht, value_ne_nil hy, hw, fun rest _ => Ev.all fun n => ?_⟩
    rw [parseFieldValue, value_reads hy]; rfl

theorem settings_stop {cls : List (Text × ClassField)} {l : List (Text × ObjectField)} {ts : Tokens}
    (h : SettingsNote cls l ts) : Stop ts := by
  cases h with
  | nil => exact fun t ht => nomatch ht
  | cons h _ =>
    obtain ⟨f, w, hs, vs, rfl, -, -, ⟨hne, -⟩, ht, -⟩ := setting_parts h
    cases hs with
    | nil => exact absurd rfl hne
    | cons t hs =>
      intro t' e
      cases e
      rcases ht t List.mem_cons_self with h | h <;> simp [h]

theorem settings_nil {cls : List (Text × ClassField)} {l : List (Text × ObjectField)} {ts : Tokens}
    (h : SettingsNote cls l ts) (e : ts = []) : l = [] := by
  cases h with
  | nil => rfl
  | cons h _ =>
    obtain ⟨f, w, hs, vs, rfl, -, -, -, -, hne, -⟩ := setting_parts h
    simp [hne] at e

theorem objectLoop_reads {cls : List (Text × ClassField)} (hc : ClearSyntax cls) {l : List (Text × ObjectField)}
    {ts : Tokens} (h : SettingsNote cls l ts) : ∀ (pre : Tokens) (fields : List (Text × ObjectField)),
    Ev fun n => objectLoop n cls (pre ++ ts) (splitAt' (notWord cls) ts) pre.length fields = .ok (putAll fields l) := by
  induction h with
  | nil =>
    intro pre fields
    refine Ev.all fun n => ?_
    rw [splitAt', objectLoop, fieldOfWords_nil hc]
    rfl
  | @cons s ts l us h hs ih =>
    intro pre fields
    obtain ⟨f, w, ws, vs, rfl, hf, hw, hp, ht, hvne, hv, hr⟩ := setting_parts h
    obtain ⟨v, vs, rfl⟩ := List.exists_cons_of_ne_nil hvne
    have hv' := fun t ht => notWord_true hc (hv t ht)
    have hws : ∀ t ∈ ws, notWord cls t = false := fun t ht =>
      (notWord_false hc).mpr ⟨_, hf, w, _, hw, hp, List.mem_map.mpr ⟨t, ht, rfl⟩⟩
    have e : splitAt' (notWord cls) (ws ++ v :: vs ++ us) =
        ws :: (List.replicate vs.length [] ++ splitAt' (notWord cls) us) := by
      rw [List.append_assoc, List.cons_append, splitAt'_append ws hws v (hv' v List.mem_cons_self),
        splitAt'_all vs fun t ht => hv' t (.tail _ ht)]
    have hsp : concatTexts ws [' '] = w := hp.2.2.symm
    refine (Ev.and (hr us (settings_stop hs)) (ih (pre ++ (ws ++ v :: vs)) (put fields s.1 s.2))).imp fun n ⟨h1, h2⟩ => ?_
    rw [e, objectLoop, hsp, fieldOfWords_some hc hf hw]
    have hd : (pre ++ (ws ++ v :: vs ++ us)).drop (pre.length + ws.length) = v :: vs ++ us := by
      rw [← List.length_append, ← List.append_assoc, ← List.append_assoc, List.append_assoc (pre ++ ws),
        List.drop_left]
    dsimp only
    rw [if_neg (by simp), hd, h1]
    by_cases hu : us = []
    · subst hu
      rw [settings_nil hs rfl]
      rfl
    · have hl : (pre ++ (ws ++ v :: vs ++ us)).length - us.length = (pre ++ (ws ++ v :: vs)).length := by
        simp only [List.length_append]
        omega
      have he : us.isEmpty = false := by simpa using hu
      show (if us.isEmpty = true then _ else objectLoop n cls _ _ ((pre ++ (ws ++ v :: vs ++ us)).length - us.length) _) = _
      rw [he, if_neg (by decide), objectLoop_empty hc, hl]
      show _ = Out.ok (putAll (put fields s.1 s.2) l)
      simpa using h2

theorem get_addDefault {cls : List (Text × ClassField)} (hn : (cls.map (·.1)).Nodup)
    (fields : List (Text × ObjectField)) (x : Text) :
    get (cls.foldl addDefault fields) x =
      match get fields x with
      | some v => some v
      | none => (get cls x).bind defaultOf := by
  induction cls generalizing fields with
  | nil => rw [List.foldl_nil]; cases get fields x <;> rfl
  | cons f cls ih =>
    rw [List.map_cons, List.nodup_cons] at hn
    rw [List.foldl_cons, ih hn.2, get_cons]
    have hstep : get (addDefault fields f) x = if f.1 = x then
        (match get fields x with | some v => some v | none => defaultOf f.2) else get fields x := by
      unfold addDefault
      cases hg : get fields f.1 with
      | some v =>
        rw [if_pos (by rfl)]
        split
        · rename_i e; subst e; rw [hg]
        · rfl
      | none =>
        rw [if_neg (by simp)]
        obtain ⟨y, f⟩ := f
        have hd : ∀ v, get (put fields y v) x = if y = x then some v else get fields x := fun v => get_put ..
        dsimp only at hg ⊢
        split
        · rename_i d _; rw [hd]; split
          · rename_i e; subst e; rw [hg]; rfl
          · rfl
        · rename_i ty _ _ d _; rw [hd]; split
          · rename_i e; subst e; rw [hg]; rfl
          · rfl
        · rename_i h1 h2
          split
          · rename_i e; subst e; rw [hg]
            cases f with
            | type i o d w =>
              cases d with
              | none => rfl
              | some d => exact absurd rfl (h1 i o d w)
            | fixedTypeValue i ty u o d w =>
              cases d with
              | none => rfl
              | some d => exact absurd rfl (h2 i ty u o d w)
          · rfl
    rw [hstep]
    by_cases e : f.1 = x
    · subst e
      have : get cls f.1 = none := by
        cases h : get cls f.1 with
        | none => rfl
        | some v => exact absurd (List.mem_map.mpr ⟨_, get_mem h, rfl⟩) hn.1
      rw [if_pos rfl, if_pos rfl, this]
      cases get fields f.1 with
      | some v => rfl
      | none =>
        show (match defaultOf f.2 with | some v => some v | none => none) = defaultOf f.2
        cases defaultOf f.2 <;> rfl
    · rw [if_neg e, if_neg e]

theorem addDefault_sorted (cls : List (Text × ClassField)) {fields : List (Text × ObjectField)} (h : KeySorted fields) :
    KeySorted (cls.foldl addDefault fields) := by
  induction cls generalizing fields with
  | nil => exact h
  | cons f cls ih =>
    refine ih ?_
    unfold addDefault
    split
    · exact h
    · split
      · exact h.put ..
      · exact h.put ..
      · exact h

theorem fields_of {cls : List (Text × ClassField)} (hn : (cls.map (·.1)).Nodup) {l : List (Text × ObjectField)}
    (hl : (l.map (·.1)).Nodup) : FieldsOf cls l (cls.foldl addDefault (putAll [] l)) := by
  have hs := addDefault_sorted cls (putAll_sorted (List.Pairwise.nil (R := fun a b : Text × ObjectField => a.1 < b.1)) l)
  refine ⟨hs, fun x v => ?_⟩
  have hg : get (putAll [] l) x = get l x := by
    rw [get_putAll _ _ hl]
    cases get l x <;> rfl
  have : (x, v) ∈ cls.foldl addDefault (putAll [] l) ↔ get (cls.foldl addDefault (putAll [] l)) x = some v :=
    ⟨get_of_mem (KeySorted.nodup hs), get_mem⟩
  rw [this, get_addDefault hn, hg]
  cases h : get l x with
  | some w =>
    have hw := get_mem h
    constructor
    · intro e
      cases e
      exact .inl hw
    · rintro (h1 | ⟨h1, -⟩)
      · rw [get_of_mem hl h1] at h
        exact h.symm
      · exact absurd hw (h1 w)
  | none =>
    have hno : ∀ w, (x, w) ∉ l := fun w hw => by
      rw [get_of_mem hl hw] at h
      cases h
    constructor
    · intro e
      obtain ⟨f, h1, h2⟩ := Option.bind_eq_some_iff.mp e
      exact .inr ⟨hno, f, get_mem h1, h2⟩
    · rintro (h1 | ⟨-, f, h1, h2⟩)
      · exact absurd h1 (hno v)
      · show (get cls x).bind defaultOf = some v
        rw [get_of_mem hn h1]
        exact h2

theorem same_refl (ts : List Token) : All2 Same ts ts := by
  induction ts with
  | nil => exact .nil
  | cons t ts ih => exact .cons ⟨rfl, by cases t.type <;> first | rfl | exact .inl rfl⟩ ih

theorem object_reads (u : Unicode) {cls : List (Text × ClassField)} (hc : ClearSyntax cls) {text : Text}
    {l : List (Text × ObjectField)} (h : SpellsObject u cls text l) :
    Ev fun n => parseObject u n text cls = .ok (.fields (cls.foldl addDefault (putAll [] l))) := by
  obtain ⟨ts, ht, hn⟩ := h
  have hself : ObjectNote cls l ts := hn ts (same_refl ts)
  have hne : text ≠ [] := by
    rintro rfl
    have := tiles_nil ht
    subst this
    cases hself
  obtain ⟨ts', e, hs⟩ := C94_accepted_partial ht hne (.inr fun t hl => by
    obtain ⟨raw, rest, h1, h2⟩ := ht.shapes t (List.mem_of_getLast? hl)
    have : t.type = .curlyEnd := by
      cases hself with
      | mk _ _ _ he =>
        rw [← List.cons_append, List.getLast?_concat] at hl
        cases hl
        exact he
    rw [this] at h1 h2
    have e1 : raw = ['}'] := h1
    have e2 : t.text = raw := h2
    rw [e2, e1]
    decide)
  cases hn ts' hs with
  | @mk b l inner z hb hi hl hz =>
    refine (objectLoop_reads hc hi [] []).imp fun n h => ?_
    unfold parseObject
    rw [e]
    dsimp only
    rw [if_neg (by simp)]
    have : ((b :: (inner ++ [z])).drop 1).dropLast = inner := by simp
    rw [this]
    have h' : objectLoop n cls inner (splitAt' (notWord cls) inner) 0 [] = .ok (putAll [] l) := h
    unfold notWord at h'
    rw [h']
    rfl

/-- **C104 (partial).** An object that is written in the syntax of its class has the fields that it sets, with the
types and values they are set to, and the defaults of the others. Missing: a syntax in which a field has no words
before it, or in which the words of two fields are the same; a type or value that contains a word of the syntax;
values that are bit, hexadecimal or character strings. -/
theorem C104_object_partial (u : Unicode) {cls : List (Text × ClassField)} (hc : ClearSyntax cls) {text : Text}
    {l : List (Text × ObjectField)} (h : SpellsObject u cls text l) :
    ∃ fields, FieldsOf cls l fields ∧ ∃ n₀, ∀ n, n₀ ≤ n → parseObject u n text cls = .ok (.fields fields) := by
  obtain ⟨ts, -, hn⟩ := id h
  have hself : ObjectNote cls l ts := hn ts (same_refl ts)
  cases hself with
  | mk _ _ hl _ => exact ⟨_, fields_of hc.names hl, object_reads u hc h⟩

/-! ## Object sets -/

theorem element_reads (u : Unicode) {cls : List (Text × ClassField)} (hc : ClearSyntax cls) {e e' : SetElement}
    (h : ElementRead u cls e e') : Ev fun n => parseElementOfClass u n cls e = .ok e' := by
  cases h with
  | @object text l fields hs hf =>
    obtain ⟨fields', hf', n₀, hn⟩ := C104_object_partial u hc hs
    have : fields' = fields := by
      refine KeySorted.ext hf'.sorted hf.sorted fun k => ?_
      have key : ∀ {a b : List (Text × ObjectField)}, FieldsOf cls l a → FieldsOf cls l b → ∀ v,
          get a k = some v → get b k = some v := fun ha hb v h =>
        get_of_mem (KeySorted.nodup hb.sorted) ((hb.each k v).mpr ((ha.each k v).mp (get_mem h)))
      cases h1 : get fields' k with
      | some v => exact (key hf' hf v h1).symm
      | none =>
        cases h2 : get fields k with
        | none => rfl
        | some v => rw [key hf hf' v h2] at h1; cases h1
    subst this
    refine ⟨n₀, fun n h => ?_⟩
    show (parseObject u n text cls).bind _ = _
    rw [hn n h]
    rfl
  | objectRef => exact Ev.all fun n => rfl
  | setRef => exact Ev.all fun n => rfl

theorem elements_read (u : Unicode) {cls : List (Text × ClassField)} (hc : ClearSyntax cls) {l l' : List SetElement}
    (h : All2 (ElementRead u cls) l l') : Ev fun n => mapOut (parseElementOfClass u n cls) l = .ok l' := by
  induction h with
  | nil => exact Ev.all fun n => rfl
  | cons h _ ih =>
    refine ((element_reads u hc h).and ih).imp fun n ⟨h1, h2⟩ => ?_
    rw [mapOut, h1]
    show (mapOut _ _).bind _ = _
    rw [h2]
    rfl

theorem All2.reverse {α β : Type} {P : α → β → Prop} {l : List α} {r : List β} (h : All2 P l r) :
    All2 P l.reverse r.reverse := by
  induction h with
  | nil => exact .nil
  | cons h _ ih => simpa using ih.append (.cons h .nil)

/-- **C104 (partial).** The elements of an object set are read one by one, in the reverse order: the objects that are
written in it as in `C104_object_partial`, and references are kept. Missing: what is missing there. -/
theorem C104_set_partial (u : Unicode) {cls : List (Text × ClassField)} (hc : ClearSyntax cls)
    {root root' add add' : List SetElement} (hr : All2 (ElementRead u cls) root root')
    (ha : All2 (ElementRead u cls) add add') :
    ∃ n₀, ∀ n, n₀ ≤ n → parseObjectsOfSet u n (root, add) cls = .ok (root'.reverse, add'.reverse) := by
  refine ((elements_read u hc (All2.reverse hr)).and (elements_read u hc (All2.reverse ha))).imp fun n ⟨h1, h2⟩ => ?_
  rw [parseObjectsOfSet, h1]
  show (mapOut _ _).bind _ = _
  rw [h2]
  rfl

/-! ## The text of an object -/

theorem shape_before {u : Unicode} (hu : u.isNumeric ' ' = false) {ty : TokenType} {raw rest : List Char}
    (hc : ty ≠ .comment) (h : Shape u ty raw rest) (rest' : List Char) (hr : rest' = [] ∨ rest'.head? = some ' ') :
    Shape u ty raw rest' := by
  have hn : ∀ p : Char → Prop, ¬ p ' ' → Hampi.Spec.NotNext p rest' := by
    intro p hp c hc
    rcases hr with rfl | hr
    · cases hc
    · rw [hr] at hc
      cases hc
      exact hp
  cases ty
  case comment => exact absurd rfl hc
  case squareBegin => exact ⟨h.1, hn _ (by decide)⟩
  case squareEnd => exact ⟨h.1, hn _ (by decide)⟩
  case rangeSeparator => exact ⟨h.1, hn _ (by decide)⟩
  case dot => exact ⟨h.1, hn _ (by decide)⟩
  case colon => exact ⟨h.1, hn _ (by decide)⟩
  case identifier => exact ⟨h.1, h.2.1, hn _ (by simp [Hampi.Spec.WordChar]), h.2.2.2⟩
  case keyword => exact ⟨h.1, h.2.1, hn _ (by simp [Hampi.Spec.WordChar]), h.2.2.2⟩
  case andIdentifier =>
    obtain ⟨w, h1, h2, -⟩ := h
    exact ⟨w, h1, h2, hn _ (by simp [Hampi.Spec.WordChar])⟩
  case numberInt =>
    obtain ⟨sign, digits, h1, h2, h3, -⟩ := h
    refine ⟨sign, digits, h1, ?_, h3, hn _ (by simp [hu])⟩
    rcases h2 with ⟨h2, h4⟩ | h2
    · refine .inl ⟨h2, ?_⟩
      cases digits with
      | nil => exact hn _ (by decide)
      | cons d ds => exact h4
    · exact .inr h2
  case atComponentIdList =>
    obtain ⟨w, h1, h2, h3, h4, -⟩ := h
    exact ⟨w, h1, h2, h3, h4, hn _ (by simp [Hampi.Spec.WordChar])⟩
  case tString =>
    obtain ⟨w, h1, h2, -⟩ := h
    exact ⟨w, h1, h2, hn _ (by decide)⟩
  all_goals exact h

theorem spaced_tiles {u : Unicode} (hu : u.isNumeric ' ' = false) (ts : Tokens) (h : ∀ t ∈ ts, Lexeme u t) :
    ∀ before, Tiles u (fun _ _ => True) before (spaced ts) ts := by
  have key : ∀ t : Token, Lexeme u t → ∀ rest, (rest = [] ∨ rest.head? = some ' ') →
      t.text ≠ [] ∧ Shape u t.type t.text rest ∧ Kept t.type t.text t.text := by
    rintro t ⟨h1, h2, r, h3⟩ rest hr
    refine ⟨h2, shape_before hu (by rintro e; simp [e] at h1) h3 rest hr, ?_⟩
    generalize t.type = ty at h1
    cases ty <;> first | rfl | simp at h1
  cases ts with
  | nil => exact fun before => .done nofun
  | cons t ts =>
    have gen : ∀ (t : Token) (ts : Tokens), (∀ t' ∈ t :: ts, Lexeme u t') → ∀ gap : List Char, (∀ c ∈ gap, Hampi.Spec.Blank c) →
        ∀ before, Tiles u (fun _ _ => True) before (gap ++ spaced (t :: ts)) (t :: ts) := by
      intro t ts
      induction ts generalizing t with
      | nil =>
        intro h gap hg before
        obtain ⟨h1, h2, h3⟩ := key t (h t List.mem_cons_self) [] (.inl rfl)
        have e : gap ++ spaced [t] = gap ++ t.text ++ [] := by simp [spaced, List.intercalate]
        rw [e]
        exact .token hg h1 h2 h3 trivial (.done nofun)
      | cons s ts ih =>
        intro h gap hg before
        have e : gap ++ spaced (t :: s :: ts) = gap ++ t.text ++ ([' '] ++ spaced (s :: ts)) := by
          unfold spaced
          rw [List.map_cons, List.map_cons, intercalate_cons]
          simp
        obtain ⟨h1, h2, h3⟩ := key t (h t List.mem_cons_self) ([' '] ++ spaced (s :: ts)) (.inr rfl)
        rw [e]
        refine .token hg h1 h2 h3 trivial (ih s (fun t' ht => h t' (.tail _ ht)) [' '] ?_ _)
        intro c hc
        rw [List.mem_singleton.mp hc]
        exact .inl rfl
    exact gen t ts h [] nofun

/-- **C104 (partial).** From the tokens in a file: an object is kept as text and read again when its class is known,
and that gives the object that the tokens write. -/
theorem C104_tokens_partial (u : Unicode) (hu : u.isNumeric ' ' = false) {cls : List (Text × ClassField)}
    (hc : ClearSyntax cls) {text : Text} {ts : Tokens} (hb : BracedValue text ts) (ht : ∀ t ∈ ts, Lexeme u t)
    {l : List (Text × ObjectField)} (hn : ∀ ts', All2 Same ts ts' → ObjectNote cls l ts') (rest : Tokens) :
    parseSetIsh (ts ++ rest) = .ok (text, rest) ∧
    ∃ fields, FieldsOf cls l fields ∧ ∃ n₀, ∀ n, n₀ ≤ n → parseObject u n text cls = .ok (.fields fields) := by
  refine ⟨setish_reads hb rest, C104_object_partial u hc ⟨ts, ?_, hn⟩⟩
  cases hb with
  | mk _ _ _ => exact spaced_tiles hu _ ht []

/-! ## What is missing -/

/-- **C104 is violated** for a class without a syntax of its own: whatever is written between the brackets of an
object, it has the defaults only. -/
theorem C104_no_syntax_violated (u : Unicode) (n : Nat) {cls : List (Text × ClassField)}
    (hc : ∀ f ∈ cls, syntaxOf f.2 = none) {text : Text} {ts : List Token} (ht : tokenize u text = .ok ts)
    (hl : 2 ≤ ts.length) : parseObject u n text cls = .ok (.fields (cls.foldl addDefault [])) := by
  unfold parseObject
  rw [ht]
  dsimp only
  rw [if_neg (by omega)]
  have hw : (cls.filterMap fun f => f.2.syntaxWords) = [] :=
    List.filterMap_eq_nil_iff.mpr fun f hf => (syntaxWords_eq f.2).trans (hc f hf)
  have hf : ∀ s, fieldOfWords cls s = none := fun s => List.find?_eq_none.mpr fun f hf => by
    simp [syntaxWords_eq, hc f hf]
  have hloop : ∀ groups tokens consumed, objectLoop n cls tokens groups consumed [] = .ok [] := by
    intro groups
    induction groups with
    | nil => exact fun _ _ => rfl
    | cons g gs ih => intro tokens consumed; rw [objectLoop, hf]; exact ih _ _
  rw [hloop]
  rfl

/-- `CLASS { &id INTEGER UNIQUE, &Value } WITH SYNTAX { ID &id TYPE &Value }`. -/
def exClass : List (Text × ClassField) :=
  [("&Value".toList, .type "&Value".toList false none (some "TYPE".toList)),
   ("&id".toList, .fixedTypeValue "&id".toList (.mk (.integer none) (some [])) true false none (some "ID".toList))]

/-- **C104 is violated** by an object with a type whose name is a word of the syntax: the type is lost. -/
theorem C104_word_violated :
    parseObject ascii 30 "{ ID id-A TYPE TYPE }".toList exClass =
      .ok (.fields [("&id".toList, .fixedTypeValue (.mk (.integer none) (some [])) (some "id-A".toList))]) := by
  with_unfolding_all rfl

/-- **C104 is violated** by an object that leaves out a field without a default, and has words that are not in the
syntax: it is accepted. -/
theorem C104_wrong_object_violated :
    parseObject ascii 30 "{ ID id-A SPEED fast }".toList exClass =
      .ok (.fields [("&id".toList, .fixedTypeValue (.mk (.integer none) (some [])) (some "id-A".toList))]) := by
  with_unfolding_all rfl

/-- **C104 is violated** by a bit string: the text that is kept has lost its last letter, and is rejected. -/
theorem C104_bit_string_violated :
    ∃ ts text, tokenize ascii "{ ID '01'B TYPE A }".toList = .ok ts ∧ parseSetIsh ts = .ok (text, []) ∧
      parseObject ascii 30 text exClass = .err .tokenize := by
  exact ⟨_, _, by with_unfolding_all rfl, by with_unfolding_all rfl, by with_unfolding_all rfl⟩

/-- `TYPE-IDENTIFIER` (X.681 annex A): `CLASS { &id OBJECT IDENTIFIER UNIQUE, &Type } WITH SYNTAX { &Type IDENTIFIED
BY &id }`. -/
def typeIdentifier : List (Text × ClassField) :=
  [("&Type".toList, .type "&Type".toList false none (some [])),
   ("&id".toList, .fixedTypeValue "&id".toList (.mk .objectIdentifier (some [])) true false none
      (some "IDENTIFIED BY".toList))]

/-- **C104 is violated** by an object that starts with a type of two tokens: it is rejected. -/
theorem C104_identified_by_violated :
    (∃ e, parseObject ascii 30 "{ OCTET STRING IDENTIFIED BY id-x }".toList typeIdentifier = .err e) ∧
    parseObject ascii 30 "{ INTEGER IDENTIFIED BY id-x }".toList typeIdentifier =
      .ok (.fields [("&Type".toList, .type (some (.mk (.integer none) (some [])))),
        ("&id".toList, .fixedTypeValue (.mk .objectIdentifier (some [])) (some "id-x".toList))]) := by
  exact ⟨⟨_, by with_unfolding_all rfl⟩, by with_unfolding_all rfl⟩

/-! ## An example -/

theorem exClass_clear : ClearSyntax exClass := by
  constructor
  · decide
  · intro f hf s hs
    rcases List.mem_cons.mp hf with rfl | hf
    · cases hs; exact ⟨["TYPE".toList], by simp, by decide, by decide⟩
    · cases List.mem_singleton.mp hf; cases hs; exact ⟨["ID".toList], by simp, by decide, by decide⟩
  · intro f hf g hg s h1 h2
    rcases List.mem_cons.mp hf with rfl | hf <;> rcases List.mem_cons.mp hg with rfl | hg
    · rfl
    · cases List.mem_singleton.mp hg; cases h1; exact absurd h2 (by decide)
    · cases List.mem_singleton.mp hf; cases h1; exact absurd h2 (by decide)
    · rw [List.mem_singleton.mp hf, List.mem_singleton.mp hg]

/-- The settings of `{ ID id-A TYPE A }`. -/
def exSettings : List (Text × ObjectField) :=
  [("&id".toList, .fixedTypeValue (.mk (.integer none) (some [])) (some "id-A".toList)),
   ("&Value".toList, .type (some (.mk (.reference "A".toList) (some []))))]

theorem exClass_word {w : Text} (h : ClassWord exClass w) : w = "TYPE".toList ∨ w = "ID".toList := by
  obtain ⟨f, hf, s, ws, hs, hp, hw⟩ := h
  have := phrase_words hp
  rcases List.mem_cons.mp hf with rfl | hf
  · cases hs
    rw [show wordsOf "TYPE".toList = ["TYPE".toList] by decide] at this
    subst this
    exact .inl (List.mem_singleton.mp hw)
  · cases List.mem_singleton.mp hf
    cases hs
    rw [show wordsOf "ID".toList = ["ID".toList] by decide] at this
    subst this
    exact .inr (List.mem_singleton.mp hw)

/-- The tokens of `{ ID id-A TYPE A }`. -/
def exTokens : List (TokenType × Text) :=
  [(.curlyBegin, "{".toList), (.identifier, "ID".toList), (.identifier, "id-A".toList),
    (.identifier, "TYPE".toList), (.identifier, "A".toList), (.curlyEnd, "}".toList)]

theorem exTokens_found : ∃ ts, tokenize ascii "{ ID id-A TYPE A }".toList = .ok ts ∧ ts.map Token.bare = exTokens :=
  ⟨_, by with_unfolding_all rfl, rfl⟩

theorem exSettings_note (ts : List Token) (h : ts.map Token.bare = exTokens) : ObjectNote exClass exSettings ts := by
  obtain ⟨t1, ts, rfl, a1, b1, h⟩ := bare_cons h
  obtain ⟨t2, ts, rfl, a2, b2, h⟩ := bare_cons h
  obtain ⟨t3, ts, rfl, a3, b3, h⟩ := bare_cons h
  obtain ⟨t4, ts, rfl, a4, b4, h⟩ := bare_cons h
  obtain ⟨t5, ts, rfl, a5, b5, h⟩ := bare_cons h
  obtain ⟨t6, ts, rfl, a6, b6, h⟩ := bare_cons h
  rw [List.map_eq_nil_iff] at h
  subst h
  refine .mk (ts := [t2, t3, t4, t5]) a1 (.cons (ts := [t2, t3]) ?_ (.cons (ts := [t4, t5]) (us := []) ?_ .nil)) (by decide) a6
  · refine .value (hs := [t2]) (ts := [t3]) (.tail _ (.head _)) ⟨by simp, ?_, by simp [b2, List.intercalate]⟩ ?_
      (.word ⟨b3, .inl a3⟩) ?_
    · simp only [List.map, List.mem_singleton, b2]; rintro w rfl; decide
    · simp [a2]
    · simp only [List.mem_singleton]
      rintro t rfl h
      rw [b3] at h
      rcases exClass_word h with h | h <;> revert h <;> decide
  · refine .type (hs := [t4]) (ts := [t5]) (.head _) ⟨by simp, ?_, by simp [b4, List.intercalate]⟩ ?_
      (.type (ts := [t5]) (us := []) (.simple (.reference (upper a5 b5 ⟨_, _, rfl, rfl⟩ (by decide)))) .nil) ?_
    · simp only [List.map, List.mem_singleton, b4]; rintro w rfl; decide
    · simp [a4]
    · simp only [List.mem_singleton]
      rintro t rfl h
      rw [b5] at h
      rcases exClass_word h with h | h <;> revert h <;> decide

theorem exTokens_note {ts : List Token} (h : ts.map Token.bare = exTokens) :
    ∀ ts', All2 Same ts ts' → ObjectNote exClass exSettings ts' := fun ts' hs =>
  exSettings_note ts' ((same_bare hs (bare_types h (P := fun t => t ≠ .comment ∧ t ≠ .tString) (by decide))).trans h)

theorem exSettings_spelled : SpellsObject ascii exClass "{ ID id-A TYPE A }".toList exSettings := by
  obtain ⟨ts, ht, hb⟩ := exTokens_found
  exact ⟨ts, C50_lossless ascii _ ts ht, exTokens_note hb⟩

/-- `C104_object_partial` for `{ ID id-A TYPE A }`. -/
example : ∃ fields, FieldsOf exClass exSettings fields ∧
    ∃ n₀, ∀ n, n₀ ≤ n → parseObject ascii n "{ ID id-A TYPE A }".toList exClass = .ok (.fields fields) :=
  C104_object_partial ascii exClass_clear exSettings_spelled

/-- `C104_set_partial` for `{ { ID id-A TYPE A } | Others, ..., another }`. -/
example : ∃ n₀, ∀ n, n₀ ≤ n →
    parseObjectsOfSet ascii n ([.object (.input "{ ID id-A TYPE A }".toList), .setRef "Others".toList],
      [.objectRef "another".toList]) exClass =
    .ok ([.setRef "Others".toList, .object (.fields (exClass.foldl addDefault (putAll [] exSettings)))],
      [.objectRef "another".toList]) :=
  C104_set_partial ascii exClass_clear
    (.cons (.object exSettings_spelled (fields_of exClass_clear.names (by decide))) (.cons .setRef .nil))
    (.cons .objectRef .nil)

/-- `C104_tokens_partial` for the tokens of `{ ID id-A TYPE A }`. -/
example : ∃ ts, tokenize ascii "{ ID id-A TYPE A }".toList = .ok ts ∧ BracedValue "{ ID id-A TYPE A }".toList ts ∧
    (∀ t ∈ ts, Lexeme ascii t) ∧ ∀ ts', All2 Same ts ts' → ObjectNote exClass exSettings ts' := by
  obtain ⟨ts, ht, h⟩ := exTokens_found
  refine ⟨ts, ht, ?_, fun t hm => ?_, exTokens_note h⟩
  · obtain ⟨t1, ts, rfl, a1, b1, h⟩ := bare_cons h
    obtain ⟨t2, ts, rfl, a2, b2, h⟩ := bare_cons h
    obtain ⟨t3, ts, rfl, a3, b3, h⟩ := bare_cons h
    obtain ⟨t4, ts, rfl, a4, b4, h⟩ := bare_cons h
    obtain ⟨t5, ts, rfl, a5, b5, h⟩ := bare_cons h
    obtain ⟨t6, ts, rfl, a6, b6, h⟩ := bare_cons h
    rw [List.map_eq_nil_iff] at h
    subst h
    have e : "{ ID id-A TYPE A }".toList = spaced (t1 :: ([t2, t3, t4, t5] ++ [t6])) := by
      simp [spaced, b1, b2, b3, b4, b5, b6, List.intercalate]
    rw [e]
    exact .mk a1 (.other (by simp [a2]) (by simp [a2]) (.other (by simp [a3]) (by simp [a3])
      (.other (by simp [a4]) (by simp [a4]) (.other (by simp [a5]) (by simp [a5]) .nil)))) a6
  · have hk := bare_types h (P := fun t => t ∉ [.comment, .tString, .bitString, .hexString]) (by decide) t hm
    obtain ⟨raw, rest, h1, h2⟩ := (C50_lossless ascii _ ts ht).shapes t hm
    have e : t.text = raw := by
      generalize t.type = ty at hk h2
      cases ty <;> first | exact h2 | (simp at hk)
    refine ⟨hk, ?_, rest, e ▸ h1⟩
    have : ∀ p ∈ exTokens, p.2 ≠ [] := by decide
    exact this _ (h ▸ List.mem_map.mpr ⟨t, hm, rfl⟩)

end Hampi.Compiler.Props
