import Verif.Props.Main
import Verif.Lemmas.Names
/-!
# The derive macro (C100, C101, C102)

`derive i` (Derive/Macro.lean): what `#[derive(AperCodec)]` makes of the Rust item `i`. `Renders item r`
(Compiler/Rust.lean): the tokens generated for `item` are the Rust item `r`. `Codes file x t` (Spec/Rust.lean):
in the Rust file, the derived codec of the type called `x` is the one `t` describes.
-/
namespace Hampi.Compiler.Props
open Hampi.Derive
open _root_.Hampi.Compiler.Spec

/-! ## C100 -/

/-- **C100.** The derive macro gives a generated type exactly the codec that the generated attributes say, if no
type is called `Option` and the bounds are numbers of the type `i128`. -/
theorem C100_macro_reads_attributes (items : List Item) (file : List RustItem) (hr : All2 Renders items file)
    (ho : ∀ r ∈ file, r.ident ≠ "Option".toList) (x : Text) (t : Ty) (hb : Bounds128 t) :
    Codes file x t ↔ Stands items x t :=
  ⟨codes_stands hr, fun h => stands_codes hr ho h hb⟩

/-- **C100** The eight integer types a generated file may name are Rust's: the name, and the values the model lets
it hold. -/
theorem C100_integer_types (v : Int) :
    (widthName .i8 = "i8".toList ∧ (Width.Fits .i8 v ↔ -128 ≤ v ∧ v ≤ 127)) ∧
    (widthName .u8 = "u8".toList ∧ (Width.Fits .u8 v ↔ 0 ≤ v ∧ v ≤ 255)) ∧
    (widthName .i16 = "i16".toList ∧ (Width.Fits .i16 v ↔ -32768 ≤ v ∧ v ≤ 32767)) ∧
    (widthName .u16 = "u16".toList ∧ (Width.Fits .u16 v ↔ 0 ≤ v ∧ v ≤ 65535)) ∧
    (widthName .i32 = "i32".toList ∧ (Width.Fits .i32 v ↔ -2147483648 ≤ v ∧ v ≤ 2147483647)) ∧
    (widthName .u32 = "u32".toList ∧ (Width.Fits .u32 v ↔ 0 ≤ v ∧ v ≤ 4294967295)) ∧
    (widthName .i64 = "i64".toList ∧
      (Width.Fits .i64 v ↔ -9223372036854775808 ≤ v ∧ v ≤ 9223372036854775807)) ∧
    (widthName .u64 = "u64".toList ∧ (Width.Fits .u64 v ↔ 0 ≤ v ∧ v ≤ 18446744073709551615)) := by
  refine ⟨⟨rfl, ?_⟩, ⟨rfl, ?_⟩, ⟨rfl, ?_⟩, ⟨rfl, ?_⟩, ⟨rfl, ?_⟩, ⟨rfl, ?_⟩, ⟨rfl, ?_⟩, ⟨rfl, ?_⟩⟩ <;>
    simp [Width.Fits, Width.signed, Width.bits] <;> omega

example : Width.Fits .i16 (-32768) ∧ ¬ Width.Fits .i16 32768 := by decide

/-- **C100**, from the text of a schema to the codecs: for a schema in which every definition has a meaning the program generates a Rust file, and
if rustc accepts its names, every type of the schema has in it the codec that the schema means by it, and no
other. -/
theorem C100_text_to_codec (u : Unicode) (sp : Spelling) (files : List (List Char × List ParsedModule))
    (hf : ∀ f ∈ files, Spells u f.1 f.2) (n₁ : Nat) (ms : List Module) (hread : ReadAs (spelled u n₁ files) ms)
    (hs : ProperSchema ms) :
    ∃ n₀, ∀ n, n₀ ≤ n → (∃ r, Runs u sp n (files.map fun f => .text f.1) r) ∧
      ∀ r, Runs u sp n (files.map fun f => .text f.1) r → ∃ items, r = .ok items ∧
        (∃ file, All2 Renders items file) ∧
        ∀ file, All2 Renders items file → NamesFit file →
          ∀ M ∈ ms, ∀ x ty lax t, (x, ⟨.type ty, none⟩) ∈ M.definitions →
            Describes lax ms (.module M) ty t → Bounds128 t →
            Codes file (typeIdent x) t ∧ ∀ w, Codes file (typeIdent x) w → w = t := by
  obtain ⟨n₀, h⟩ := text_items u sp files hf n₁ ms hread hs
  refine ⟨n₀, fun n hn => ⟨(h n hn).1, fun r hr => ?_⟩⟩
  obtain ⟨items, h1, h2, h3⟩ := (h n hn).2 r hr
  refine ⟨items, h1, h2, fun file hfile hfit M hM x ty lax t hx ht hb => ?_⟩
  obtain ⟨h4, h5⟩ := h3 M hM x ty lax t hx ht
  have hd : DistinctNames items := by
    have := hfit.items
    rw [renders_idents hfile] at this
    exact this
  exact ⟨stands_codes hfile (fun r hr => hfit.used r hr "Option" (by decide)) h4 hb,
    fun w hw => h5 hd w (codes_stands hfile hw)⟩

/-- The two files of `Props/Main.lean`, if the program is given them: a file comes out, and if rustc accepts its
names, `S` has the codec of a SEQUENCE with one optional component, and no other. -/
example : ∃ n₀, ∀ n, n₀ ≤ n → ∀ r, Runs ascii plainSpelling n [.text file1, .text file2] r →
    ∃ items, r = .ok items ∧ (∃ file, All2 Renders items file) ∧ ∀ file, All2 Renders items file → NamesFit file →
      ∀ w, Codes file "S".toList w ↔ w = .sequence false 1 (.optional 0 (.integer .u8 (some 0) (some 7) false) .nil) := by
  obtain ⟨n₀, h⟩ := C100_text_to_codec ascii plainSpelling exampleFiles
    (by
      intro f hf
      rcases List.mem_cons.mp hf with rfl | hf
      · exact file1_spells
      · cases List.eq_of_mem_singleton hf
        exact file2_spells)
    0 _ example_read example_proper
  refine ⟨n₀, fun n hn r hr => ?_⟩
  obtain ⟨items, h1, h2, h3⟩ := (h n hn).2 r hr
  refine ⟨items, h1, h2, fun file a b w => ?_⟩
  obtain ⟨h4, h5⟩ := h3 file a b (parsed2.toModule ascii 0) (List.mem_cons_of_mem _ List.mem_cons_self) "S".toList _ false _
    List.mem_cons_self s_described (by simp [Bounds128, FieldBounds128, Bound128, fits128])
  exact ⟨h5 w, fun e => e ▸ h4⟩

/-- A file such as the one above, with names that rustc accepts. -/
def exampleRust : List RustItem :=
  [.derived ⟨asnAttr [typeAttr "INTEGER".toList, .nameValue "lb".toList (.str "0".toList),
      .nameValue "ub".toList (.str "7".toList)], "T".toList, .tuple [.name "u8".toList]⟩,
   .derived ⟨asnAttr [typeAttr "SEQUENCE".toList, .nameValue "extensible".toList (.bool false),
      .nameValue "optional_fields".toList (.int 1)], "S".toList,
      .named [⟨asnAttr [.nameValue "optional_idx".toList (.int 0)], "a".toList, .app "Option".toList "T".toList⟩]⟩]

example : All2 Renders
    [.newtype "T".toList (some (.integer .u8 (some 0) (some 7) false)) [],
     .struct "S".toList false (some 1) [⟨"a".toList, "T".toList, some 0, false⟩]] exampleRust :=
  .cons (.newtype .integer) (.cons .struct .nil)

example : NamesFit exampleRust where
  items := by decide
  used := by
    intro r hr
    rcases List.mem_cons.mp hr with rfl | hr
    · decide
    · cases List.eq_of_mem_singleton hr
      decide
  fields := by
    intro i l hi hd
    rcases List.mem_cons.mp hi with hi | hi
    · cases hi; cases hd
    · cases List.eq_of_mem_singleton hi
      cases hd
      decide
  variants := by
    intro i l hi hd
    rcases List.mem_cons.mp hi with hi | hi
    · cases hi; cases hd
    · cases List.eq_of_mem_singleton hi
      cases hd
  buffer := by
    intro i l hi hd
    rcases List.mem_cons.mp hi with hi | hi
    · cases hi; cases hd
    · cases List.eq_of_mem_singleton hi
      cases hd
      intro f hf y _
      cases List.eq_of_mem_singleton hf
      decide

/-! ## C101 -/

theorem TyParams.add_known {p q : TyParams} {e : Nested} (h : p.add e = some q) :
    ItemEntry e ∧ ∀ s, q.ty = some s → p.ty = some s ∨ e = typeAttr s := by
  cases e with
  | other => cases h
  | nameValue path lit =>
    unfold TyParams.add at h
    dsimp only at h
    by_cases e : path = "lb".toList
    · rw [if_pos e] at h; subst e
      cases lit <;> cases h
      exact ⟨.lb _, fun _ h => .inl h⟩
    rw [if_neg e] at h; clear e
    by_cases e : path = "ub".toList
    · rw [if_pos e] at h; subst e
      cases lit <;> cases h
      exact ⟨.ub _, fun _ h => .inl h⟩
    rw [if_neg e] at h; clear e
    by_cases e : path = "type".toList
    · rw [if_pos e] at h; subst e
      cases lit <;> cases h
      exact ⟨.type _, fun s h => .inr (by cases h; rfl)⟩
    rw [if_neg e] at h; clear e
    by_cases e : path = "extensible".toList
    · rw [if_pos e] at h; subst e
      cases lit <;> cases h
      exact ⟨.extensible _, fun _ h => .inl h⟩
    rw [if_neg e] at h; clear e
    by_cases e : path = "sz_extensible".toList
    · rw [if_pos e] at h; subst e
      cases lit <;> cases h
      exact ⟨.szExtensible _, fun _ h => .inl h⟩
    rw [if_neg e] at h; clear e
    by_cases e : path = "sz_lb".toList
    · rw [if_pos e] at h; subst e
      cases lit <;> cases h
      exact ⟨.szLb _, fun _ h => .inl h⟩
    rw [if_neg e] at h; clear e
    by_cases e : path = "sz_ub".toList
    · rw [if_pos e] at h; subst e
      cases lit <;> cases h
      exact ⟨.szUb _, fun _ h => .inl h⟩
    rw [if_neg e] at h; clear e
    by_cases e : path = "optional_fields".toList
    · rw [if_pos e] at h; subst e
      cases lit <;> cases h
      exact ⟨.optionalFields _, fun _ h => .inl h⟩
    rw [if_neg e] at h
    cases h

theorem FieldParams.add_known {p q : FieldParams} {e : Nested} (h : p.add e = some q) :
    MemberEntry e ∧ (∀ n, q.key = some n → p.key = some n ∨ e = .nameValue "key".toList (.int n)) ∧
      (∀ n, q.optionalIdx = some n → p.optionalIdx = some n ∨ e = .nameValue "optional_idx".toList (.int n)) := by
  cases e with
  | other => cases h
  | nameValue path lit =>
    unfold FieldParams.add at h
    dsimp only at h
    by_cases e : path = "key".toList
    · rw [if_pos e] at h; subst e
      cases lit <;> cases h
      exact ⟨.key _, fun s h => .inr (by cases h; rfl), fun _ h => .inl h⟩
    rw [if_neg e] at h; clear e
    by_cases e : path = "extended".toList
    · rw [if_pos e] at h; subst e
      cases lit <;> cases h
      exact ⟨.extended _, fun _ h => .inl h, fun _ h => .inl h⟩
    rw [if_neg e] at h; clear e
    by_cases e : path = "optional_idx".toList
    · rw [if_pos e] at h; subst e
      cases lit <;> cases h
      exact ⟨.optionalIdx _, fun _ h => .inl h, fun s h => .inr (by cases h; rfl)⟩
    rw [if_neg e] at h; clear e
    by_cases e : path = "key_field".toList
    · rw [if_pos e] at h; subst e
      cases lit <;> cases h
      exact ⟨.keyField _, fun _ h => .inl h, fun _ h => .inl h⟩
    rw [if_neg e] at h
    cases h

theorem addAll_known {P : Type} {add : P → Nested → Option P} {E : Nested → Prop} {G : P → Prop} {H : Nested → Prop}
    (hadd : ∀ p q e, add p e = some q → E e ∧ (G q → G p ∨ H e)) :
    ∀ (l : List Nested) (p : P) (b : Bool), (addAll add l (p, b)).2 = false →
      b = false ∧ (∀ e ∈ l, E e) ∧ (G (addAll add l (p, b)).1 → G p ∨ ∃ e ∈ l, H e)
  | [], p, b, h => ⟨h, nofun, .inl⟩
  | x :: l, p, b, h => by
      rw [addAll] at h ⊢
      cases hx : add p x with
      | none =>
        rw [hx] at h
        exact absurd (addAll_known hadd l p true h).1 (by decide)
      | some q =>
        rw [hx] at h
        obtain ⟨h1, h2, h3⟩ := addAll_known hadd l q b h
        obtain ⟨h4, h5⟩ := hadd _ _ _ hx
        refine ⟨h1, fun e he => ?_, fun hg => ?_⟩
        · rcases List.mem_cons.mp he with rfl | he
          · exact h4
          · exact h2 e he
        · rcases h3 hg with h | ⟨e, he, h⟩
          · rcases h5 h with h | h
            · exact .inl h
            · exact .inr ⟨x, List.mem_cons_self, h⟩
          · exact .inr ⟨e, List.mem_cons_of_mem _ he, h⟩

theorem readAttrs_known {P : Type} {add : P → Nested → Option P} {see : P → P} {E : Nested → Prop} {G : P → Prop}
    {H : Nested → Prop} (hadd : ∀ p q e, add p e = some q → E e ∧ (G q → G p ∨ H e)) (hsee : ∀ p, G (see p) → G p) :
    ∀ (as : List Attr) (p : P) (b : Bool), (readAttrs add see as (p, b)).2 = false →
      b = false ∧ OnlyEntries E as ∧ (G (readAttrs add see as (p, b)).1 → G p ∨ ∃ e, H e ∧ HasEntry e as)
  | [], p, b, h => ⟨h, nofun, .inl⟩
  | a :: as, p, b, h => by
      rw [readAttrs] at h ⊢
      by_cases ha : a.path = "asn".toList
      · rw [if_pos ha] at h ⊢
        cases hb : a.body with
        | list l =>
          rw [hb] at h
          obtain ⟨h1, h2, h3⟩ := readAttrs_known hadd hsee as _ _ h
          obtain ⟨h4, h5, h6⟩ := addAll_known hadd l (see p) b h1
          refine ⟨h4, fun a' ha' => ?_, fun hg => ?_⟩
          · rcases List.mem_cons.mp ha' with rfl | ha'
            · exact ⟨ha, l, hb, h5⟩
            · exact h2 a' ha'
          · rcases h3 hg with h | ⟨e, he, a', ha', l', hb', hl'⟩
            · rcases h6 h with h | ⟨e, he, hh⟩
              · exact .inl (hsee _ h)
              · exact .inr ⟨e, hh, a, List.mem_cons_self, l, hb, he⟩
            · exact .inr ⟨e, he, a', List.mem_cons_of_mem _ ha', l', hb', hl'⟩
        | other =>
          rw [hb] at h
          exact absurd (readAttrs_known hadd hsee as _ _ h).1 (by decide)
        | malformed =>
          rw [hb] at h
          exact absurd (readAttrs_known hadd hsee as _ _ h).1 (by decide)
      · rw [if_neg ha] at h
        exact absurd (readAttrs_known hadd hsee as _ _ h).1 (by decide)

theorem tyParams_known {attrs : List Attr} {p : TyParams} (h : tyParams attrs = .ok p) :
    OnlyEntries ItemEntry attrs ∧ ∀ s, p.ty = some s → HasEntry (typeAttr s) attrs := by
  unfold tyParams at h
  dsimp only at h
  split at h
  · cases h
  next hb =>
  cases h
  refine ⟨(readAttrs_known (add := TyParams.add) (see := fun p => { p with attr := true }) (E := ItemEntry)
    (G := fun _ => True) (H := fun _ => True) (fun p q e h => ⟨(TyParams.add_known h).1, fun _ => .inl trivial⟩) (fun _ _ => trivial) _ _ _
    (Bool.eq_false_iff.mpr hb)).2.1, fun s hs => ?_⟩
  obtain ⟨_, _, h⟩ := readAttrs_known (add := TyParams.add) (see := fun p => { p with attr := true })
    (E := ItemEntry) (G := fun q => q.ty = some s) (H := fun e => e = typeAttr s)
    (fun p q e h => ⟨(TyParams.add_known h).1, (TyParams.add_known h).2 s⟩) (fun _ h => h) attrs _ _
    (Bool.eq_false_iff.mpr hb)
  rcases h hs with h | ⟨_, rfl, h⟩
  · cases h
  · exact h

theorem fieldParams_known {attrs : List Attr} {p : FieldParams} (h : fieldParams attrs = .ok p) :
    OnlyEntries MemberEntry attrs ∧
      (∀ n, p.key = some n → HasEntry (.nameValue "key".toList (.int n)) attrs) ∧
      (∀ n, p.optionalIdx = some n → HasEntry (.nameValue "optional_idx".toList (.int n)) attrs) := by
  unfold fieldParams at h
  dsimp only at h
  split at h
  · cases h
  next hb =>
  cases h
  refine ⟨(readAttrs_known (add := FieldParams.add) (see := id) (E := MemberEntry)
    (G := fun _ => True) (H := fun _ => True) (fun p q e h => ⟨(FieldParams.add_known h).1, fun _ => .inl trivial⟩) (fun _ _ => trivial) _ _ _
    (Bool.eq_false_iff.mpr hb)).2.1, fun n hn => ?_, fun n hn => ?_⟩
  · obtain ⟨_, _, h⟩ := readAttrs_known (E := MemberEntry) (G := fun q => q.key = some n)
      (H := fun e => e = .nameValue "key".toList (.int n))
      (fun p q e h => ⟨(FieldParams.add_known h).1, (FieldParams.add_known h).2.1 n⟩) (fun _ h => h) attrs _ _
      (Bool.eq_false_iff.mpr hb)
    rcases h hn with h | ⟨_, rfl, h⟩
    · cases h
    · exact h
  · obtain ⟨_, _, h⟩ := readAttrs_known (E := MemberEntry) (G := fun q => q.optionalIdx = some n)
      (H := fun e => e = .nameValue "optional_idx".toList (.int n))
      (fun p q e h => ⟨(FieldParams.add_known h).1, (FieldParams.add_known h).2.2 n⟩) (fun _ h => h) attrs _ _
      (Bool.eq_false_iff.mpr hb)
    rcases h hn with h | ⟨_, rfl, h⟩
    · cases h
    · exact h

/-- **C101**, in part: what the macro does not know, it refuses. An item for which it derives a codec has
attributes, all of them are `#[asn(..)]` with entries that are known, and one entry gives a type for which there is
a codec. (Missing: entries that are known but mean nothing here, or contradict each other, are not refused; see the
theorems below.) -/
theorem C101_unknown_refused_partial (i : Input) (impl : Impl) (h : derive i = .ok impl) :
    i.attrs ≠ [] ∧ OnlyEntries ItemEntry i.attrs ∧ ∃ s ∈ codecTypes, HasEntry (typeAttr s.toList) i.attrs := by
  unfold derive at h
  obtain ⟨p, hp, h⟩ := Out.bind_ok.mp h
  obtain ⟨h1, h2⟩ := tyParams_known hp
  refine ⟨fun e => ?_, h1, ?_⟩
  · rw [e] at hp
    cases hp
    cases h
  · split at h
    · split at h
      · cases h
      next ty hty =>
      suffices ∃ s ∈ codecTypes, ty = s.toList by
        obtain ⟨s, hs, rfl⟩ := this
        exact ⟨s, hs, h2 _ hty⟩
      unfold generateCodec at h
      by_cases e1 : ∃ s ∈ codecTypes, ty = s.toList
      · exact e1
      · exfalso
        have hne : ∀ s ∈ codecTypes, ty ≠ s.toList := fun s hs e => e1 ⟨s, hs, e⟩
        rw [if_neg (hne "BOOLEAN" (by decide)), if_neg (hne "CHOICE" (by decide)), if_neg (hne "INTEGER" (by decide)),
          if_neg (hne "ENUMERATED" (by decide)), if_neg (hne "BITSTRING" (by decide)),
          if_neg (hne "OCTET-STRING" (by decide)), if_neg (hne "UTF8String" (by decide)),
          if_neg (hne "PrintableString" (by decide)), if_neg (hne "VisibleString" (by decide)),
          if_neg (hne "NULL" (by decide)), if_neg (hne "SEQUENCE" (by decide)), if_neg (hne "OPEN" (by decide)),
          if_neg (hne "SEQUENCE-OF" (by decide)), if_neg (hne "OBJECT-IDENTIFIER" (by decide))] at h
        cases h
    · cases h

theorem allOk_mem {α β : Type} {f : α → Out Unit β} : ∀ {xs : List α} {r : List β}, allOk f xs = .ok r →
    ∀ x ∈ xs, ∃ y, f x = .ok y
  | [], _, _, _, hx => nomatch hx
  | a :: xs, r, h, x, hx => by
      rw [allOk] at h
      obtain ⟨y, hy, h⟩ := Out.bind_ok.mp h
      obtain ⟨ys, hys, h⟩ := Out.bind_ok.mp h
      rcases List.mem_cons.mp hx with rfl | hx
      · exact ⟨y, hy⟩
      · exact allOk_mem hys x hx

/-- **C101**, in part: the same for the fields of a `struct`. One of the type `Option<..>` has an index. -/
theorem C101_fields_refused_partial (i : Input) (l : List FieldSyn) (ext : Option Bool) (n : Nat)
    (fs : List FieldImpl) (hd : i.data = .named l) (h : derive i = .ok (.sequence ext n fs)) (f : FieldSyn)
    (hf : f ∈ l) :
    OnlyEntries MemberEntry f.attrs ∧
      ((∃ ty, f.ty = .path false "Option".toList [ty] false) →
        ∃ k, HasEntry (.nameValue "optional_idx".toList (.int k)) f.attrs) := by
  obtain ⟨p, _, _, _, h2⟩ := derive_name h
  have : ∃ r, allOk fieldImpl l = .ok r := by
    change generateCodec i "SEQUENCE".toList p = _ at h2
    unfold generateCodec at h2
    repeat rw [if_neg (by decide)] at h2
    rw [if_pos rfl, hd] at h2
    obtain ⟨r, hr, _⟩ := Out.bind_ok.mp h2
    exact ⟨r, hr⟩
  obtain ⟨r, hr⟩ := this
  obtain ⟨y, hy⟩ := allOk_mem hr f hf
  obtain ⟨q, hq, hy⟩ := Out.bind_ok.mp hy
  obtain ⟨h4, _, h5⟩ := fieldParams_known hq
  refine ⟨h4, fun ⟨ty, hty⟩ => ?_⟩
  rw [hty] at hy
  have hft : (fieldType (.path false "Option".toList [ty] false)).2 = true := by
    simp [fieldType]
  generalize fieldType (.path false "Option".toList [ty] false) = ft at hy hft
  obtain ⟨o, b⟩ := ft
  cases hft
  cases o with
  | none => cases hy
  | some z =>
    cases hk : q.optionalIdx with
    | none => simp only [hk] at hy; cases hy
    | some k => exact ⟨k, h5 k hk⟩

/-- **C101**, in part: the same for the variants of the `enum` of a CHOICE or of an open type. Each has a key, and
at most one field. -/
theorem C101_variants_refused_partial (i : Input) (l : List VariantSyn) (impl : Impl)
    (hi : (∃ lb ub ext vs, impl = .choice lb ub ext vs) ∨ ∃ vs, impl = .openType vs) (hd : i.data = .enum l)
    (h : derive i = .ok impl) (v : VariantSyn) (hv : v ∈ l) :
    OnlyEntries MemberEntry v.attrs ∧ (∃ k, HasEntry (.nameValue "key".toList (.int k)) v.attrs) ∧
      ∀ tys, v.fields = .tuple tys → tys.length = 1 := by
  obtain ⟨p, _, _, _, h2⟩ := derive_name h
  have : ∃ r, allOk variantImpl l = .ok r := by
    rcases hi with ⟨lb, ub, ext, vs, rfl⟩ | ⟨vs, rfl⟩
    · change generateCodec i "CHOICE".toList p = _ at h2
      unfold generateCodec at h2
      rw [if_neg (by decide), if_pos rfl, hd] at h2
      obtain ⟨_, _, h2⟩ := Out.bind_ok.mp h2
      obtain ⟨_, _, h2⟩ := Out.bind_ok.mp h2
      obtain ⟨_, hr, _⟩ := Out.bind_ok.mp h2
      obtain ⟨r, hr, _⟩ := Out.bind_ok.mp hr
      exact ⟨r, hr⟩
    · change generateCodec i "OPEN".toList p = _ at h2
      unfold generateCodec at h2
      repeat rw [if_neg (by decide)] at h2
      rw [if_pos rfl, hd] at h2
      obtain ⟨_, hr, _⟩ := Out.bind_ok.mp h2
      obtain ⟨r, hr, _⟩ := Out.bind_ok.mp hr
      exact ⟨r, hr⟩
  obtain ⟨r, hr⟩ := this
  obtain ⟨y, hy⟩ := allOk_mem hr v hv
  obtain ⟨q, hq, hy⟩ := Out.bind_ok.mp hy
  obtain ⟨h4, h5, _⟩ := fieldParams_known hq
  refine ⟨h4, ?_⟩
  cases hk : q.key with
  | none => simp only [hk] at hy; cases hy
  | some k =>
    refine ⟨⟨k, h5 k hk⟩, fun tys ht => ?_⟩
    simp only [hk, ht] at hy
    match tys, hy with
    | [_], _ => rfl

/-- The codec of `S` above is derived. -/
example : ∃ i ∈ exampleRust, ∃ j, i = .derived j ∧ derive j =
    .ok (.sequence (some false) 1 [.optional "a".toList "T".toList 0]) :=
  ⟨_, List.mem_cons_of_mem _ List.mem_cons_self, _, rfl, rfl⟩

/-- An item with a comment for rustdoc is refused, whatever else its attributes are. -/
theorem C101_doc_comment_refused (i : Input) (h : ⟨"doc".toList, .other⟩ ∈ i.attrs) (impl : Impl) :
    derive i ≠ .ok impl := by
  intro hd
  have := ((C101_unknown_refused_partial i impl hd).2.1 _ h).1
  revert this
  decide

theorem addAll_twice {P : Type} {add : P → Nested → Option P} {a b : Nested}
    (h : ∀ p, ∃ q r, add p a = some q ∧ add q b = some r ∧ add p b = some r) (l : List Nested) (s : P × Bool) :
    addAll add (l ++ [a, b]) s = addAll add (l ++ [b]) s := by
  rw [addAll_append, addAll_append]
  generalize addAll add l s = s'
  obtain ⟨p, bad⟩ := s'
  obtain ⟨q, r, h1, h2, h3⟩ := h p
  simp only [addAll, h1, h2, h3]

/-- C101, violated: of two entries of the same name only the second counts. -/
theorem C101_repeated_violated (name : Text) (v w : Lit) (hv : ItemEntry (.nameValue name v))
    (hw : ItemEntry (.nameValue name w)) (l : List Nested) (x : Text) (d : Data) :
    derive ⟨asnAttr (l ++ [.nameValue name v, .nameValue name w]), x, d⟩ =
      derive ⟨asnAttr (l ++ [.nameValue name w]), x, d⟩ := by
  have h : tyParams (asnAttr (l ++ [.nameValue name v, .nameValue name w])) =
      tyParams (asnAttr (l ++ [.nameValue name w])) := by
    rw [tyParams_asn, tyParams_asn, addAll_twice]
    intro p
    cases hv <;> cases hw <;> exact ⟨_, _, rfl, rfl, rfl⟩
  unfold derive
  dsimp only
  rw [h]
  rfl

/-- A lower bound 1 and then a lower bound 0. -/
example : derive ⟨asnAttr ([typeAttr "INTEGER".toList] ++ [.nameValue "lb".toList (.str "1".toList),
    .nameValue "lb".toList (.str "0".toList)]), "T".toList, .tuple [.name "u8".toList]⟩ =
    .ok (.integer (.name "u8".toList) (some 0) none false) := by
  rw [C101_repeated_violated _ _ _ (.lb _) (.lb _)]
  rfl

/-- C101, violated: entries that mean nothing for the type are ignored, whatever they say, and so is the item
itself. -/
theorem C101_irrelevant_violated (e : Nested) (he : ItemEntry e) (ht : ∀ s, e ≠ typeAttr s) (x : Text) (d : Data) :
    derive ⟨asnAttr [typeAttr "BOOLEAN".toList, e], x, d⟩ = .ok .boolean ∧
      derive ⟨asnAttr [typeAttr "NULL".toList, e], x, d⟩ = .ok .null := by
  cases he with
  | type s => exact absurd rfl (ht s)
  | _ => exact ⟨rfl, rfl⟩

/-- C101, violated: an index that is too big for the announced number of optional fields is accepted. The codec
panics on every value in which the field is there. -/
theorem C101_index_violated (ext : Bool) (n k : Nat) (hk : n ≤ k) (x f y : Text) (file : List RustItem) (t : Ty)
    (hi : .derived ⟨asnAttr (typeAttr "SEQUENCE".toList :: .nameValue "extensible".toList (.bool ext) ::
        optionalFieldsAttr (some n)), x, .named [⟨asnAttr [.nameValue "optional_idx".toList (.int k)], f,
        .app "Option".toList y⟩]⟩ ∈ file) (hy : Codes file y t) :
    Codes file x (.sequence ext n (.optional k t .nil)) ∧
      ∀ (v : t.Val) (s : Codec), (Ty.sequence ext n (.optional k t .nil)).encode (some v, ()) s = .panic := by
  refine ⟨?_, fun v s => ?_⟩
  · refine Codes.sequence (i := ⟨_, x, _⟩) hi rfl (fs := [.optional f y k]) ?_ (.optional hy .nil)
    rw [derive_struct]
    have := fieldImpl_optional f y k
    simp only [allOk]
    show Out.bind (Out.bind (fieldImpl (fieldSyn ⟨f, y, some k, false⟩)) _) _ = _
    rw [this]
    rfl
  · have : Fields.mark (.optional k t .nil) (some v, ()) (List.replicate n false) = none := by
      simp [Fields.mark, hk]
    show Bind.bind (encodeHeader (.optional k t .nil) (some v, ()) ext n) _ s = _
    unfold encodeHeader
    rw [this]
    rfl

example : ∃ file, Codes file "S".toList (.sequence false 1 (.optional 1 .boolean .nil)) := by
  refine ⟨[.derived ⟨asnAttr (typeAttr "SEQUENCE".toList :: .nameValue "extensible".toList (.bool false) ::
      optionalFieldsAttr (some 1)), "S".toList, .named [⟨asnAttr [.nameValue "optional_idx".toList (.int 1)],
      "a".toList, .app "Option".toList "B".toList⟩]⟩,
    .derived ⟨asnAttr [typeAttr "BOOLEAN".toList], "B".toList, .tuple [.name "bool".toList]⟩],
    (C101_index_violated false 1 1 (Nat.le_refl _) _ _ "B".toList _ _ List.mem_cons_self ?_).1⟩
  exact Codes.boolean (i := ⟨asnAttr [typeAttr "BOOLEAN".toList], "B".toList, .tuple [.name "bool".toList]⟩)
    (List.mem_cons_of_mem _ List.mem_cons_self) rfl rfl

/-- The macro refuses what the generator writes for a component that is optional and selects the contents of an
open type. -/
theorem C100_optional_key_violated (x : Text) (ext : Bool) (n : Option Nat) (fs : List FieldItem) (f : FieldItem)
    (k : Nat) (hf : f ∈ fs) (hk : f.optionalIdx = some k) (hkey : f.keyField = true) (r : RustItem)
    (hr : Renders (.struct x ext n fs) r) : ∃ i, r = .derived i ∧ ∀ impl, derive i ≠ .ok impl := by
  cases hr with
  | struct =>
    refine ⟨_, rfl, fun impl h => ?_⟩
    rw [derive_struct] at h
    obtain ⟨l, hl, _⟩ := Out.bind_ok.mp h
    obtain ⟨y, hy⟩ := allOk_mem hl (fieldSyn f) (List.mem_map.mpr ⟨f, hf, rfl⟩)
    obtain ⟨fx, fy, fo, fk⟩ := f
    cases hk; cases hkey
    rw [fieldImpl_optionalKey] at hy
    cases hy

example : ∃ i, RustItem.derived i ∈ [RustItem.derived i] ∧ ∀ impl, derive i ≠ .ok impl := by
  obtain ⟨i, -, h⟩ := C100_optional_key_violated "S".toList false (some 1) [⟨"id".toList, "T".toList, some 0, true⟩]
    ⟨"id".toList, "T".toList, some 0, true⟩ 0 List.mem_cons_self rfl rfl _ .struct
  exact ⟨i, List.mem_cons_self, h⟩

/-! ## C102 -/

/-- **C102**, in part: rustc accepts the names of a generated file, if the definitions and the paths to the types
inside them give different names (C80), none of which is used for something else or has the form of the names of
the simple types inside others; and if the members of each type have names that become different Rust names, those
of optional components not `data`. (Missing: schemas in which they are not so, see the theorems below and C80,
C81.) -/
theorem C102_names_fit_partial (sp : Spelling) (R : Resolver) (items : List Item) (file : List RustItem)
    (h : generate sp R = .ok items) (hr : All2 Renders items file)
    (hd : ((allNames (resolvedTypes R.resolved)).map typeIdent).Nodup)
    (hu : ∀ x ∈ allNames (resolvedTypes R.resolved), ¬ NumberedName (typeIdent x) ∧
      ∀ s ∈ usedNames, typeIdent x ≠ s.toList)
    (hm : ∀ x ty, (x, ty) ∈ resolvedTypes R.resolved → MembersDiffer sp ty) : NamesFit file := by
  obtain ⟨us, n, hn, hp⟩ := generate_names h
  have hgood : ∀ i ∈ items, GoodItem i := by
    obtain ⟨p, hp', h⟩ := Out.bind_ok.mp h
    cases h
    obtain ⟨h1, h2⟩ := genAll_good (fun e he => hm e.1 e.2 he) (g := .new) nofun hp'
    intro i hi
    rcases List.mem_append.mp hi with hi | hi
    · exact h1 i hi
    · exact h2 i hi
  have hin : ∀ i l, .derived i ∈ file → _ := fun i (l : List FieldSyn) hi =>
    (hr.mem_right _ hi).elim fun item h => good_renders (hgood item h.1) h.2
  refine ⟨?_, ?_, fun i l hi hd => ((hin i [] hi).1 l hd).1, fun i l hi hd => (hin i [] hi).2 l hd,
    fun i l hi hd => ((hin i [] hi).1 l hd).2⟩
  · rw [renders_idents hr, hp.nodup_iff, List.nodup_append]
    refine ⟨hd, hn.nodup, fun a ha b hb e => ?_⟩
    obtain ⟨x, hx, rfl⟩ := List.mem_map.mp ha
    obtain ⟨c, m, _, e'⟩ := hn.mem b hb
    exact (hu x hx).1 ⟨c, m, e.trans e'⟩
  · intro r hr' s hs
    have : r.ident ∈ file.map RustItem.ident := List.mem_map.mpr ⟨r, hr', rfl⟩
    rw [renders_idents hr, hp.mem_iff, List.mem_append] at this
    rcases this with h | h
    · obtain ⟨x, hx, e⟩ := List.mem_map.mp h
      rw [← e]
      exact (hu x hx).2 s hs
    · obtain ⟨c, m, _, e⟩ := hn.mem _ h
      exact numbered_unused ⟨c, m, e⟩ s hs

/-- `S ::= SEQUENCE { a CHOICE { b NULL, c T } OPTIONAL }`, `T ::= BOOLEAN`. -/
def namesExample : Resolver :=
  { resolved := [("S".toList, .type (.sequence false
      [.mk "a".toList (.choice [.mk "b".toList (.base .null), .mk "c".toList (.reference "T".toList)] none) true false])),
      ("T".toList, .type (.base .boolean))] }

theorem namesExample_fits : ∃ items file, generate plainSpelling namesExample = .ok items ∧
    All2 Renders items file ∧ NamesFit file := by
  refine ⟨_, _, rfl, .cons .struct (.cons (.newtype .boolean) (.cons (.newtype .null) (.cons .choice .nil))), ?_⟩
  refine C102_names_fit_partial plainSpelling namesExample _ _ rfl
    (.cons .struct (.cons (.newtype .boolean) (.cons (.newtype .null) (.cons .choice .nil)))) (by decide) ?_ ?_
  · intro x hx
    have hx' : x ∈ ["S".toList, "SA".toList, "T".toList] := hx
    refine ⟨?_, by revert x; decide⟩
    rintro ⟨b, n, e⟩
    obtain ⟨a, ha⟩ := unnamed_eq b n
    have h1 : '_' ∈ typeIdent x := by
      rw [e]
      show '_' ∈ unnamed b n
      rw [ha]
      simp
    clear e hx
    revert h1
    revert x
    decide
  · intro x ty h
    have h' : (x, ty) = _ ∨ (x, ty) ∈ _ := List.mem_cons.mp h
    rcases h' with h | h
    · cases h
      simp [MembersDiffer, FieldsDiffer, AlternativesDiffer]
      decide
    · cases List.eq_of_mem_singleton h
      simp [MembersDiffer]

/-- C102, violated: a type with a name that the emitted code uses, such as `Result`. -/
theorem C102_used_name_violated (sp : Spelling) (R : Resolver) (items : List Item) (file : List RustItem)
    (h : generate sp R = .ok items) (hr : All2 Renders items file) (x : Text) (ty : RType)
    (hx : (x, ty) ∈ resolvedTypes R.resolved) (s : String) (hs : s ∈ usedNames) (he : typeIdent x = s.toList) :
    ¬ NamesFit file := by
  intro hf
  obtain ⟨us, n, _, hp⟩ := generate_names h
  have : typeIdent x ∈ file.map RustItem.ident := by
    rw [renders_idents hr, hp.mem_iff]
    exact List.mem_append_left _ (List.mem_map.mpr ⟨x, List.mem_flatMap.mpr ⟨_, hx, List.mem_cons_self⟩, rfl⟩)
  obtain ⟨r, hr, e⟩ := List.mem_map.mp this
  exact hf.used r hr s hs (e.trans he)

/-- C102, violated: an optional component called `data`. (`hsp`: the crate heck leaves the word as it is.) -/
theorem C102_data_violated (sp : Spelling) (hsp : sp.snake "Data".toList = "data".toList) (R : Resolver)
    (items : List Item) (file : List RustItem) (h : generate sp R = .ok items) (hr : All2 Renders items file) (x : Text)
    (ext key : Bool) (cs : List RSeqComponent) (ty : RType)
    (hx : (x, .sequence ext cs) ∈ resolvedTypes R.resolved) (hc : .mk "data".toList ty true key ∈ cs) :
    ¬ NamesFit file := by
  intro hf
  obtain ⟨p, hp, h⟩ := Out.bind_ok.mp h
  cases h
  obtain ⟨item, hitem, g, g', hi⟩ : ∃ item ∈ p.1, ∃ g g', genItem sp x (.sequence ext cs) g = .ok (item, g') := by
    revert hp hx
    generalize resolvedTypes R.resolved = ts
    generalize Gen.new = g
    clear hr h
    intro hx hp
    induction ts generalizing g p with
    | nil => cases hx
    | cons t ts ih =>
      obtain ⟨k, t⟩ := t
      rw [genAll] at hp
      obtain ⟨q, hq, hp⟩ := Out.bind_ok.mp hp
      obtain ⟨r, hr, hp⟩ := Out.bind_ok.mp hp
      cases hp
      rcases List.mem_cons.mp hx with e | hx
      · cases e
        exact ⟨q.1, List.mem_cons_self, g, q.2, hq⟩
      · obtain ⟨item, h1, h2⟩ := ih r _ hx hr
        exact ⟨item, List.mem_cons_of_mem _ h1, h2⟩
  obtain ⟨fs, e, _, h3⟩ := C61_optional_indexes sp x ext cs g item g' hi
  subst e
  have : (valueIdent sp "data".toList, true, key) ∈
      fs.map (fun f => (f.ident, f.optionalIdx.isSome, f.keyField)) := by
    rw [h3]
    exact List.mem_map.mpr ⟨_, hc, rfl⟩
  obtain ⟨f, hf', e⟩ := List.mem_map.mp this
  obtain ⟨r, hr1, hr2⟩ := hr.mem_left _ (List.mem_append_left _ hitem)
  cases hr2 with
  | struct =>
    have e1 : f.ident = valueIdent sp "data".toList := congrArg (·.1) e
    have e2 : f.optionalIdx.isSome = true := congrArg (·.2.1) e
    obtain ⟨k, hk⟩ := Option.isSome_iff_exists.mp e2
    refine hf.buffer _ _ hr1 rfl (fieldSyn f) (List.mem_map.mpr ⟨f, hf', rfl⟩) f.ty ?_ ?_
    · simp only [fieldSyn, hk]
    · show f.ident = _
      rw [e1]
      unfold valueIdent
      rw [show capitalizeFirst "data".toList = "Data".toList from rfl, hsp]
      decide

/-- `Result ::= NULL`. -/
example : ∃ items file, generate plainSpelling { resolved := [("Result".toList, .type (.base .null))] } = .ok items ∧
    All2 Renders items file ∧ ¬ NamesFit file :=
  ⟨_, _, rfl, .cons (.newtype .null) .nil, C102_used_name_violated plainSpelling
    { resolved := [("Result".toList, .type (.base .null))] } _ _ rfl (.cons (.newtype .null) .nil)
    "Result".toList _ List.mem_cons_self "Result" (by decide) (by decide)⟩

/-- `S ::= SEQUENCE { data T OPTIONAL }`. -/
example : ∃ items file, generate plainSpelling { resolved := [("S".toList, .type (.sequence false
      [.mk "data".toList (.reference "T".toList) true false]))] } = .ok items ∧
    All2 Renders items file ∧ ¬ NamesFit file :=
  ⟨_, _, rfl, .cons .struct .nil, C102_data_violated plainSpelling (by decide)
    { resolved := [("S".toList, .type (.sequence false [.mk "data".toList (.reference "T".toList) true false]))] }
    _ _ rfl (.cons .struct .nil)
    "S".toList false false _ (.reference "T".toList) List.mem_cons_self List.mem_cons_self⟩

/-! ## C80, C81 once more -/

/-- **C80**, in part: the generated types have different names exactly if the definitions and the paths to the
constructed types inside them give different names. (Missing: names that have the form of those of the simple types
inside others.) -/
theorem C80_all_names_partial (sp : Spelling) (R : Resolver) (items : List Item) (h : generate sp R = .ok items)
    (hu : ∀ x ∈ allNames (resolvedTypes R.resolved), ¬ NumberedName (typeIdent x)) :
    DistinctNames items ↔ ((allNames (resolvedTypes R.resolved)).map typeIdent).Nodup := by
  obtain ⟨us, n, hn, hp⟩ := generate_names h
  unfold DistinctNames
  rw [hp.nodup_iff, List.nodup_append]
  refine ⟨fun h => h.1, fun hd => ⟨hd, hn.nodup, fun a ha b hb e => ?_⟩⟩
  obtain ⟨x, hx, rfl⟩ := List.mem_map.mp ha
  obtain ⟨c, m, _, e'⟩ := hn.mem b hb
  exact hu x hx ⟨c, m, e.trans e'⟩

-- Two definitions, one of them a SEQUENCE with a SEQUENCE inside: three names.
example : ∃ items, generate plainSpelling { resolved := [("S".toList, .type (.sequence false
      [.mk "a".toList (.sequence false []) false false])), ("T".toList, .type (.base .null))] } = .ok items ∧
    items.length = 3 ∧ DistinctNames items :=
  ⟨_, rfl, rfl, by unfold DistinctNames; decide +kernel⟩
example : (allNames (resolvedTypes [("S".toList, .type (.sequence false
    [.mk "a".toList (.sequence false []) false false])), ("T".toList, .type (.base .null))])).length = 3 := by decide

/-- **C81**, in part: in every generated `struct` the fields have different names, if those of the components become
different Rust names. (Missing: components whose names do not, see `C81_same_field_violated`, and Rust keywords, see
`C81_keyword_violated`.) -/
theorem C81_fields_differ_partial (sp : Spelling) (R : Resolver) (items : List Item) (h : generate sp R = .ok items)
    (hm : ∀ x ty, (x, ty) ∈ resolvedTypes R.resolved → MembersDiffer sp ty) (x : Text) (ext : Bool) (n : Option Nat)
    (fs : List FieldItem) (hs : .struct x ext n fs ∈ items) : (fs.map FieldItem.ident).Nodup := by
  obtain ⟨p, hp, h⟩ := Out.bind_ok.mp h
  cases h
  obtain ⟨h1, h2⟩ := genAll_good (fun e he => hm e.1 e.2 he) (g := .new) nofun hp
  rcases List.mem_append.mp hs with h | h
  · exact (h1 _ h).1
  · exact (h2 _ h).1

example : MembersDiffer plainSpelling (.sequence false [.mk "a".toList (.base .boolean) false false,
    .mk "b".toList (.base .null) true false]) := by
  refine ⟨by decide, ?_, trivial, trivial, trivial⟩
  intro c hc id ty key e
  rcases List.mem_cons.mp hc with rfl | hc
  · cases e
  · rw [List.mem_singleton.mp hc] at e
    cases e
    decide

end Hampi.Compiler.Props
