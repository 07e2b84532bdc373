import Verif.Lemmas.IdentsResolver
/-! # The names in generated items -/
namespace Hampi.Compiler
open Hampi.Compiler.Spec

/-- What may stand in the name of a type before it becomes an identifier. -/
def PathChar (c : Char) : Prop := c.isAlphanum = true ∨ c = '-' ∨ c = ' ' ∨ c = '_'

/-- The name of a type before it becomes an identifier. -/
def Path (x : Text) : Prop := ∃ c cs, x = c :: cs ∧ c.isAlpha = true ∧ ∀ d ∈ cs, PathChar d

theorem alphanum_of_alpha {c : Char} (h : c.isAlpha = true) : c.isAlphanum = true := by simp [Char.isAlphanum, h]

theorem Spec.Name.path {x : Text} : Name x → Path x
  | ⟨c, cs, e, hc, h⟩ => ⟨c, cs, e, hc, fun d hd => (h d hd).elim .inl fun h => .inr (.inl h)⟩

theorem Path.chars {x : Text} : Path x → ∀ d ∈ x, PathChar d
  | ⟨c, cs, e, hc, h⟩, d, hd => by
    rw [e] at hd
    rcases List.mem_cons.mp hd with rfl | hd
    · exact .inl (alphanum_of_alpha hc)
    · exact h d hd

theorem Spec.Identifier.path {x : Text} : Identifier x → Path x
  | ⟨c, cs, e, hc, h⟩ => ⟨c, cs, e, hc, fun d hd => (h d hd).elim .inl fun h => .inr (.inr (.inr h))⟩

theorem Path.append {x y : Text} : Path x → (∀ d ∈ y, PathChar d) → Path (x ++ y)
  | ⟨c, cs, e, hc, h⟩, hy => ⟨c, cs ++ y, by rw [e]; rfl, hc, fun d hd => (List.mem_append.mp hd).elim (h d) (hy d)⟩

theorem alpha_toUpper {c : Char} (h : c.isAlpha = true) : c.toUpper.isAlpha = true := by
  by_cases hl : c.isLower = true
  · refine alpha_of_upper ?_
    have h1 : 97 ≤ c.toNat ∧ c.toNat ≤ 122 := by
      simp only [Char.isLower, Bool.and_eq_true, decide_eq_true_eq] at hl
      exact ⟨hl.1, hl.2⟩
    have : c.toNat = 97 ∨ c.toNat = 98 ∨ c.toNat = 99 ∨ c.toNat = 100 ∨ c.toNat = 101 ∨ c.toNat = 102 ∨ c.toNat = 103 ∨
      c.toNat = 104 ∨ c.toNat = 105 ∨ c.toNat = 106 ∨ c.toNat = 107 ∨ c.toNat = 108 ∨ c.toNat = 109 ∨ c.toNat = 110 ∨
      c.toNat = 111 ∨ c.toNat = 112 ∨ c.toNat = 113 ∨ c.toNat = 114 ∨ c.toNat = 115 ∨ c.toNat = 116 ∨ c.toNat = 117 ∨
      c.toNat = 118 ∨ c.toNat = 119 ∨ c.toNat = 120 ∨ c.toNat = 121 ∨ c.toNat = 122 := by omega
    have hc : c = Char.ofNat c.toNat := (Char.ofNat_toNat c).symm
    rcases this with h | h | h | h | h | h | h | h | h | h | h | h | h | h | h | h | h | h | h | h | h | h | h | h | h | h <;>
      (rw [h] at hc; subst hc; decide)
  · have : c.toUpper = c := by
      unfold Char.toUpper
      simp only [Char.isLower, Bool.and_eq_true, decide_eq_true_eq] at hl
      rw [dif_neg]
      exact fun h => hl h
    rw [this]
    exact h

theorem Spec.Name.capitalize {x : Text} : Name x → Name (capitalizeFirst x)
  | ⟨c, cs, e, hc, h⟩ => ⟨c.toUpper, cs, by rw [e]; rfl, alpha_toUpper hc, h⟩

theorem Path.ident {x : Text} : Path x → Identifier (typeIdent x)
  | ⟨c, cs, e, hc, h⟩ => by
    have hu := alpha_toUpper hc
    refine ⟨c.toUpper, cs.map fun c => if c = '-' ∨ c = ' ' then '_' else c, ?_, hu, ?_⟩
    · rw [e]
      show (c.toUpper :: cs).map _ = _
      rw [List.map_cons, if_neg]
      rintro (h | h) <;> (rw [h] at hu; revert hu; decide)
    · intro d hd
      obtain ⟨d0, h0, rfl⟩ := List.mem_map.mp hd
      by_cases hm : d0 = '-' ∨ d0 = ' '
      · rw [if_pos hm]; exact .inr rfl
      · rw [if_neg hm]
        rcases h d0 h0 with h | h | h | h
        · exact .inl h
        · exact absurd (.inl h) hm
        · exact absurd (.inr h) hm
        · exact .inr h

theorem value_ident {sp : Spelling} (hsp : Spelling.Sane sp) {x : Text} (h : Name x) : Identifier (valueIdent sp x) := by
  unfold valueIdent
  dsimp only
  split
  · exact ⟨'t', ['y', 'p'], rfl, by decide, by decide⟩
  · exact hsp.snake _ h.capitalize

theorem label_path (b : RBase) : Path b.label := by
  cases b <;> exact ⟨_, _, rfl, by decide, by unfold PathChar; decide⟩

theorem unique_path {g : Gen} (b : RBase) : Path (g.uniqueName b.label) := by
  refine (label_path b).append fun d hd => ?_
  rcases List.mem_cons.mp hd with rfl | hd
  · exact .inr (.inr (.inl rfl))
  · refine .inl ?_
    have : d.isDigit = true := by
      have e : (toString (g.counter + 1)).toList = Nat.toDigits 10 (g.counter + 1) := by
        simp [toString, Nat.repr]
      rw [e] at hd
      exact Nat.isDigit_of_mem_toDigits (by decide) (by decide) hd
    simp [Char.isAlphanum, this]

theorem genBase_idents {sp : Spelling} (hsp : Spelling.Sane sp) {name : Text} (hn : Path name) {b : RBase} (hb : b.Named)
    {i : Item} (h : genBase sp name b = .ok i) : Item.Identifiers i := by
  unfold genBase at h
  obtain ⟨t, _, h⟩ := Out.bind_ok.mp h
  cases h
  refine ⟨hn.ident, fun c hc => ?_⟩
  cases b with
  | enumerated bits signed ext root adds =>
    obtain ⟨p, hp, rfl⟩ := List.mem_map.mp hc
    exact hsp.shouty _ (hb p hp)
  | _ => cases hc

/-- All items of the state. -/
def Gen.Good (g : Gen) : Prop := ∀ i ∈ g.aux, Item.Identifiers i

theorem Gen.Good.push {g : Gen} (h : g.Good) {i : Item} (hi : Item.Identifiers i) : (g.push i).Good := by
  intro j hj
  rcases List.mem_append.mp hj with hj | hj
  · exact h j hj
  · cases List.mem_singleton.mp hj; exact hi

theorem withIdent_idents {sp : Spelling} (hsp : Spelling.Sane sp) {ty : RType} (ht : ty.Named) {input : Text} (hi : Path input)
    {gen : Text → Gen → Out Err (Item × Gen)}
    (hgen : ∀ nm g p, Path nm → g.Good → gen nm g = .ok p → Item.Identifiers p.1 ∧ p.2.Good) {g : Gen} (hg : g.Good)
    {p : Text × Gen} (h : withIdent sp ty input gen g = .ok p) : Identifier p.1 ∧ p.2.Good := by
  unfold withIdent at h
  split at h
  · cases h
    rw [RType.Named] at ht
    exact ⟨ht.path.ident, hg⟩
  · rename_i b
    rw [RType.Named] at ht
    obtain ⟨i, hi, h⟩ := Out.bind_ok.mp h
    cases h
    exact ⟨(unique_path b).ident, Gen.Good.push (g := g.next) hg (genBase_idents hsp (unique_path b) ht hi)⟩
  · obtain ⟨q, hq, h⟩ := Out.bind_ok.mp h
    cases h
    obtain ⟨h1, h2⟩ := hgen _ _ _ hi hg hq
    exact ⟨hi.ident, h2.push h1⟩

mutual

theorem genItem_idents {sp : Spelling} (hsp : Spelling.Sane sp) {name : Text} (hn : Path name) : (ty : RType) → ty.Named →
    {g : Gen} → g.Good → {p : Item × Gen} → genItem sp name ty g = .ok p → Item.Identifiers p.1 ∧ p.2.Good
  | .base b, ht, g, hg, p, h => by
    rw [genItem] at h
    rw [RType.Named] at ht
    obtain ⟨i, hi, h⟩ := Out.bind_ok.mp h
    cases h
    exact ⟨genBase_idents hsp hn ht hi, hg⟩
  | .reference r, ht, g, hg, p, h => by
    rw [genItem] at h
    rw [RType.Named] at ht
    cases h
    exact ⟨⟨hn.ident, ht.path.ident⟩, hg⟩
  | .set _ types, ht, g, hg, p, h => by
    rw [genItem] at h
    rw [RType.Named] at ht
    cases h
    refine ⟨⟨hn.ident, fun v hv => ?_⟩, hg⟩
    obtain ⟨e, he, rfl⟩ := List.mem_map.mp hv
    exact ⟨(ht e he).1.path.ident, (ht e he).2.path.ident⟩
  | .sequenceOf ty size, ht, g, hg, p, h => by
    rw [genItem] at h
    rw [RType.Named] at ht
    obtain ⟨q, hq, h⟩ := Out.bind_ok.mp h
    cases h
    obtain ⟨h1, h2⟩ := withIdent_idents hsp ht (hn.append (by unfold PathChar; decide))
      (fun nm g p hnm hg h => genItem_idents hsp hnm ty ht hg h) hg hq
    exact ⟨⟨hn.ident, h1⟩, h2⟩
  | .sequence ext cs, ht, g, hg, p, h => by
    rw [genItem] at h
    rw [RType.Named] at ht
    obtain ⟨q, hq, h⟩ := Out.bind_ok.mp h
    cases h
    obtain ⟨h1, h2⟩ := genFields_idents hsp hn cs ht hg hq
    exact ⟨⟨hn.ident, h1⟩, h2⟩
  | .choice root none, ht, g, hg, p, h => by
    rw [genItem] at h
    rw [RType.Named] at ht
    obtain ⟨q, hq, h⟩ := Out.bind_ok.mp h
    split at h
    · cases h
    · cases h
      obtain ⟨h1, h2⟩ := genVariants_idents hsp hn root ht hg hq
      exact ⟨⟨hn.ident, h1⟩, h2⟩
  | .choice root (some adds), ht, g, hg, p, h => by
    rw [genItem] at h
    rw [RType.Named] at ht
    obtain ⟨q, hq, h⟩ := Out.bind_ok.mp h
    obtain ⟨r, hr, h⟩ := Out.bind_ok.mp h
    split at h
    · cases h
    · cases h
      obtain ⟨h1, h2⟩ := genVariants_idents hsp hn root ht.1 hg hq
      obtain ⟨h3, h4⟩ := genVariants_idents hsp hn adds ht.2 h2 hr
      exact ⟨⟨hn.ident, fun v hv => (List.mem_append.mp hv).elim (h1 v) (h3 v)⟩, h4⟩

theorem genFields_idents {sp : Spelling} (hsp : Spelling.Sane sp) {name : Text} (hn : Path name) : {n : Nat} →
    (cs : List RSeqComponent) → namedComponents cs → {g : Gen} → g.Good → {p : (List FieldItem × Nat) × Gen} →
    genFields sp name n cs g = .ok p → (∀ f ∈ p.1.1, Identifier f.ident ∧ Identifier f.ty) ∧ p.2.Good
  | n, [], _, g, hg, p, h => by rw [genFields] at h; cases h; exact ⟨nofun, hg⟩
  | n, .mk id ty optional keyField :: cs, ht, g, hg, p, h => by
    rw [genFields] at h
    rw [namedComponents] at ht
    obtain ⟨q, hq, h⟩ := Out.bind_ok.mp h
    obtain ⟨r, hr, h⟩ := Out.bind_ok.mp h
    cases h
    obtain ⟨h1, h2⟩ := withIdent_idents hsp ht.1.2 (hn.append ht.1.1.path.ident.path.chars)
      (fun nm g p hnm hg h => genItem_idents hsp hnm ty ht.1.2 hg h) hg hq
    obtain ⟨h3, h4⟩ := genFields_idents hsp hn cs ht.2 h2 hr
    refine ⟨fun f hf => ?_, h4⟩
    rcases List.mem_cons.mp hf with rfl | hf
    · exact ⟨value_ident hsp ht.1.1, h1⟩
    · exact h3 f hf

theorem genVariants_idents {sp : Spelling} (hsp : Spelling.Sane sp) {name : Text} (hn : Path name) {ext : Bool} : {n : Nat} →
    (cs : List RComponent) → namedAlternatives cs → {g : Gen} → g.Good → {p : List VariantItem × Gen} →
    genVariants sp name ext n cs g = .ok p → (∀ f ∈ p.1, Identifier f.ident ∧ Identifier f.ty) ∧ p.2.Good
  | n, [], _, g, hg, p, h => by rw [genVariants] at h; cases h; exact ⟨nofun, hg⟩
  | n, .mk id ty :: cs, ht, g, hg, p, h => by
    rw [genVariants] at h
    rw [namedAlternatives] at ht
    obtain ⟨q, hq, h⟩ := Out.bind_ok.mp h
    obtain ⟨r, hr, h⟩ := Out.bind_ok.mp h
    cases h
    obtain ⟨h1, h2⟩ := withIdent_idents hsp ht.1.2 (hn.append ht.1.1.path.chars)
      (fun nm g p hnm hg h => genItem_idents hsp hnm ty ht.1.2 hg h) hg hq
    obtain ⟨h3, h4⟩ := genVariants_idents hsp hn cs ht.2 h2 hr
    refine ⟨fun f hf => ?_, h4⟩
    rcases List.mem_cons.mp hf with rfl | hf
    · exact ⟨ht.1.1.path.ident, h1⟩
    · exact h3 f hf

end

theorem genAll_idents {sp : Spelling} (hsp : Spelling.Sane sp) : (l : List (Text × RType)) → (∀ p ∈ l, Name p.1 ∧ p.2.Named) →
    {g : Gen} → g.Good → {r : List Item × Gen} → genAll sp l g = .ok r → (∀ i ∈ r.1, Item.Identifiers i) ∧ r.2.Good
  | [], _, g, hg, r, h => by rw [genAll] at h; cases h; exact ⟨nofun, hg⟩
  | (k, t) :: l, hl, g, hg, r, h => by
    rw [genAll] at h
    obtain ⟨q, hq, h⟩ := Out.bind_ok.mp h
    obtain ⟨s, hs, h⟩ := Out.bind_ok.mp h
    cases h
    have hk := hl _ List.mem_cons_self
    obtain ⟨h1, h2⟩ := genItem_idents hsp hk.1.path t hk.2 hg hq
    obtain ⟨h3, h4⟩ := genAll_idents hsp l (fun p hp => hl p (List.mem_cons_of_mem _ hp)) h2 hs
    refine ⟨fun i hi => ?_, h4⟩
    rcases List.mem_cons.mp hi with rfl | hi
    · exact h1
    · exact h3 i hi

theorem generate_idents {sp : Spelling} (hsp : Spelling.Sane sp) {R : Resolver} (h : ∀ p ∈ R.resolved, Name p.1 ∧ p.2.Named)
    {items : List Item} (hg : generate sp R = .ok items) : ∀ i ∈ items, Item.Identifiers i := by
  unfold generate at hg
  obtain ⟨q, hq, hg⟩ := Out.bind_ok.mp hg
  cases hg
  have hl : ∀ p ∈ resolvedTypes R.resolved, Name p.1 ∧ p.2.Named := by
    rintro ⟨k, t⟩ hp
    unfold resolvedTypes at hp
    obtain ⟨⟨k', x⟩, hx, he⟩ := List.mem_filterMap.mp hp
    cases x with
    | type t' => cases he; exact h _ hx
    | _ => cases he
  obtain ⟨h1, h2⟩ := genAll_idents hsp _ hl (g := .new) nofun hq
  exact fun i hi => (List.mem_append.mp hi).elim (h1 i) (h2 i)

end Hampi.Compiler
