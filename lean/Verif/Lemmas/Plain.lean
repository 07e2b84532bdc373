import Verif.Spec.Plain
import Verif.Lemmas.Meaning
import Verif.Lemmas.Tables
import Verif.Props.Bounds
/-! # Lemmas about what a schema means -/
namespace Hampi.Compiler
open Hampi.Compiler.Spec
open Hampi.Spec (Denotes Permits SmallSet SmallUnion SmallAll SmallElement Small AllSingles AllRanges SimpleUnion
  Inhabited Numeral Holds UnionsOnly)

/-! ## Names -/

theorem alpha_facts {c : Char} (h : c.isAlphanum = true ∨ c = '-') :
    isBlank c = false ∧ (c == '{' || c == '}') = false := by
  constructor
  · rw [Bool.eq_false_iff]
    intro hb
    simp only [isBlank, Char.isWhitespace, Bool.or_eq_true, decide_eq_true_eq] at hb
    rcases hb with ((rfl | rfl) | rfl) | rfl <;> exact absurd h (by decide)
  · rw [Bool.eq_false_iff]
    intro hb
    simp only [Bool.or_eq_true, beq_iff_eq] at hb
    rcases hb with rfl | rfl <;> exact absurd h (by decide)

theorem dropWhile_none {α : Type} {p : α → Bool} {l : List α} (h : ∀ c ∈ l, p c = false) : l.dropWhile p = l := by
  cases l with
  | nil => rfl
  | cons c cs => rw [List.dropWhile_cons, h c List.mem_cons_self]; rfl

theorem trimMatches_none {p : Char → Bool} {t : Text} (h : ∀ c ∈ t, p c = false) : trimMatches p t = t := by
  unfold trimMatches
  rw [dropWhile_none h, dropWhile_none (fun c hc => h c (List.mem_reverse.mp hc)), List.reverse_reverse]

theorem Spec.IsName.blank {x : Text} (h : IsName x) : trimMatches isBlank x = x :=
  trimMatches_none fun c hc => (alpha_facts (h.2 c hc)).1

theorem Spec.IsName.braces {x : Text} (h : IsName x) : trimBraces x = x := by
  unfold trimBraces
  rw [trimMatches_none fun c hc => (alpha_facts (h.2 c hc)).2, h.blank]

theorem Spec.IsName.numeral {x : Text} (h : IsName x) (v : Int) : ¬ Numeral x v := by
  obtain ⟨⟨c, cs, rfl, hc⟩, _⟩ := h
  refine not_numeral_word rfl ?_ ?_ ?_ v
  · rw [Bool.eq_false_iff]
    intro hd
    simp only [Char.isAlpha, Char.isUpper, Char.isLower, Char.isDigit, Bool.or_eq_true, Bool.and_eq_true,
      decide_eq_true_eq, ge_iff_le, UInt32.le_iff_toNat_le] at hc hd
    have e1 : 'A'.val.toNat = 65 := rfl
    have e2 : 'a'.val.toNat = 97 := rfl
    have e3 : '9'.val.toNat = 57 := rfl
    omega
  · rintro rfl; exact absurd hc (by decide)
  · rintro rfl; exact absurd hc (by decide)

theorem Spec.IsName.parse {x : Text} (h : IsName x) : parseI128 x = none := by
  cases hp : parseI128 x with
  | none => rfl
  | some v => exact absurd (parseI128_sound hp).1 (h.numeral v)

section
variable {ms : List Module}

/-- What is seen is a definition of the schema. -/
def Honest (ms : List Module) (sees : Text → Module → Definition → Prop) : Prop :=
  ∀ x N d, sees x N d → N ∈ ms ∧ (x, d) ∈ N.definitions

theorem Spec.Sees.mem {M N : Module} (hM : M ∈ ms) {x : Text} {d : Definition} (h : Sees ms M x N d) :
    N ∈ ms ∧ (x, d) ∈ N.definitions := by
  cases h with
  | own h => exact ⟨hM, h⟩
  | imported h => exact ⟨h.2.1, h.2.2⟩

/-- The modules of the scope are those of the schema. -/
def Spec.Scope.In (ms : List Module) : Scope → Prop
  | .module M => M ∈ ms
  | .inst _ outer inner => outer.In ms ∧ inner ∈ ms

theorem Spec.Scope.Sees.mem {σ : Scope} (hσ : σ.In ms) : Honest ms (σ.Sees ms) := by
  induction σ with
  | module M => exact fun x N d h => Spec.Sees.mem hσ h
  | inst args outer inner ih =>
    rintro x N d (⟨_, h⟩ | ⟨_, h⟩)
    · exact ih hσ.1 x N d h
    · exact Spec.Sees.mem hσ.2 h

theorem Spec.Scope.Imports.sees {σ : Scope} {x : Text} {N : Module} {d : Definition} (h : σ.Imports ms x N d) :
    σ.Sees ms x N d := by
  cases σ with
  | module M => exact .imported h
  | inst args outer inner => exact h.imp id fun ⟨h1, h2⟩ => ⟨h1, .imported h2⟩

theorem Spec.Scope.Imports.mem {σ : Scope} (hσ : σ.In ms) : Honest ms (σ.Imports ms) :=
  fun x N d h => Spec.Scope.Sees.mem hσ x N d h.sees

theorem Spec.ProperSchema.lower (h : ProperSchema ms) {N : Module} (hN : N ∈ ms) {x : Text} {a : Assignment} {v : Int}
    (hd : (x, ⟨a, none⟩) ∈ N.definitions) (ha : DefinesInteger a v) :
    ∃ c cs, x = c :: cs ∧ c.isLower = true := by
  obtain ⟨_, _, _, rfl, _⟩ := ha
  cases h.proper N hN _ hd with
  | value hl => exact hl

/-- A table of values in scope has no numerals and none of the words MIN and MAX. -/
theorem Spec.InScope.proper (h : ProperSchema ms) {sees : Text → Module → Definition → Prop} (hM : Honest ms sees)
    {ns : Hampi.Spec.Names} (hs : InScope sees ns) : ns.Proper := by
  intro t v ht
  obtain ⟨N, a, hsee, ha⟩ := hs t v ht
  obtain ⟨hN, hd⟩ := hM _ _ _ hsee
  refine ⟨(h.names N hN _ hd).numeral, ?_, ?_⟩
  · rintro rfl
    obtain ⟨c, cs, he, hl⟩ := h.lower hN hd ha
    cases he
    exact absurd hl (by decide)
  · rintro rfl
    obtain ⟨c, cs, he, hl⟩ := h.lower hN hd ha
    cases he
    exact absurd hl (by decide)

theorem Spec.InScope.names (h : ProperSchema ms) {sees : Text → Module → Definition → Prop} (hM : Honest ms sees)
    {ns : Hampi.Spec.Names} (hs : InScope sees ns) : ∀ x v, ns.int x = some v → IsName x := by
  intro x v hx
  obtain ⟨N, a, hsee, _⟩ := hs x v hx
  obtain ⟨hN, hd⟩ := hM _ _ _ hsee
  exact h.names N hN _ hd

theorem noNames_proper : noNames.Proper := fun _ _ h => nomatch h

/-! ## Value sets -/

/-- The value set of a bounded constraint. -/
theorem Spec.Bounded.values {ns : Hampi.Spec.Names} (hn : ns.Proper) {e : ElementSet} {lb ub : Int} {ext : Bool}
    (h : Bounded ns e lb ub ext) :
    ∃ vs, e.valueset ns.int = .ok vs ∧ vs.root.min = some lb ∧ vs.root.max = some ub ∧
      vs.additional.isSome = ext := by
  cases h with
  | @mk root add _ _ hk hi ha hsm h1 h2 h3 h4 =>
    have hs : SimpleUnion root := by
      rcases hk with hk | hk
      · exact fun i hi => Or.inl (hk i hi)
      · exact fun i hi => Or.inr (hk i hi)
    have hu : UnionsOnly (.mk root add) := by
      cases add with
      | none => exact simple_unions hs
      | some a => exact ⟨simple_unions hs, simple_unions (ha a rfl)⟩
    obtain ⟨vs, hv⟩ := elementSet_ok hn _ hu hsm
    refine ⟨vs, hv, ?_⟩
    have hr := root_holds hn hs hv
    obtain ⟨p1, p2, p3⟩ := simple_values hn root hs hi (root_values hv)
    have hx0 := (hr lb).2 h1
    cases hmin : vs.root.min with
    | none =>
      obtain ⟨a, b⟩ := min_none hmin
      simp [Holds, a, b] at hx0
    | some mn =>
      cases hmax : vs.root.max with
      | none =>
        obtain ⟨a, b⟩ := max_none hmax
        simp [Holds, a, b] at hx0
      | some mx =>
        obtain ⟨a1, a2⟩ := min_least p1 hmin
        obtain ⟨b1, b2⟩ := max_greatest p1 (hk.symm.imp p3 p2) hmax
        have e1 := h2 _ ((hr mn).1 a1)
        have e2 := a2 _ ((hr lb).2 h1)
        have e3 := h4 _ ((hr mx).1 b1)
        have e4 := b2 _ ((hr ub).2 h3)
        exact ⟨by rw [Int.le_antisymm e2 e1], by rw [Int.le_antisymm e3 e4], additional_isSome hv⟩

/-- Two tables that agree on the names in a simple union give the same value set. -/
theorem unionValues_congr {ns : Hampi.Spec.Names} {env : Text → Option Int} :
    {l : List (List Elements)} → SimpleUnion l → SmallUnion ns l →
    (∀ x v, x ∈ unionRefs l → ns.int x = some v → env x = some v) →
    (∀ x v, ns.int x = some v → IsName x) →
    unionValues env l = unionValues ns.int l
  | [], _, _, _, _ => rfl
  | i :: is, hs, hsm, hr, hn => by
      have hp : ∀ t, Small ns t → (∀ v, ns.int t = some v → env t = some v) →
          parseOrResolve env t = parseOrResolve ns.int t := by
        rintro t ⟨v, hd | hd, h1, h2⟩ h
        · have : parseI128 t = some v := parseI128_complete hd ⟨by omega, by omega⟩
          simp only [parseOrResolve, this]
        · simp only [parseOrResolve, hd, h v hd]
      have hi : interValues env {} i = interValues ns.int {} i := by
        rcases hs i List.mem_cons_self with ⟨t, rfl⟩ | ⟨lo, li, hi', hj, rfl⟩
        · have := hp t hsm.1.1 fun v hv => hr t v (by
            have hN := hn t v hv
            rw [unionRefs, interRefs, interRefs, Elements.refs, hN.parse, hN.braces]
            simp) hv
          simp only [interValues, Elements.values, this]
        · have e1 := hp lo hsm.1.1.1 fun v hv => hr lo v (by
            have hN := hn lo v hv
            rw [unionRefs, interRefs, interRefs, Elements.refs, valueRef, hN.parse, hN.blank]
            simp) hv
          have e2 := hp hi' hsm.1.1.2 fun v hv => hr hi' v (by
            have hN := hn hi' v hv
            rw [unionRefs, interRefs, interRefs, Elements.refs, valueRef, valueRef, hN.parse, hN.blank]
            simp) hv
          simp only [interValues, Elements.values, e1, e2]
      rw [unionValues, unionValues, hi, unionValues_congr (fun j hj => hs j (List.mem_cons_of_mem _ hj)) hsm.2
        (fun x v hx => hr x v (by rw [unionRefs]; exact List.mem_append_right _ hx)) hn]

theorem Spec.Bounded.congr {ns : Hampi.Spec.Names} {e : ElementSet} {lb ub : Int} {ext : Bool}
    (h : Bounded ns e lb ub ext) {env : Text → Option Int}
    (hr : ∀ x v, x ∈ e.refs → ns.int x = some v → env x = some v) (hn : ∀ x v, ns.int x = some v → IsName x) :
    e.valueset env = e.valueset ns.int := by
  cases h with
  | @mk root add _ _ hk hi ha hsm =>
    have hs : SimpleUnion root := by
      rcases hk with hk | hk
      · exact fun i hi => Or.inl (hk i hi)
      · exact fun i hi => Or.inr (hk i hi)
    cases add with
    | none => rw [ElementSet.valueset, ElementSet.valueset, unionValues_congr hs hsm hr hn]
    | some a =>
      rw [ElementSet.refs] at hr
      rw [ElementSet.valueset, ElementSet.valueset,
        unionValues_congr hs hsm.1 (fun x v hx => hr x v (List.mem_append_left _ hx)) hn,
        unionValues_congr (ha a rfl) hsm.2 (fun x v hx => hr x v (List.mem_append_right _ hx)) hn]

/-! ## Rust integer types -/

theorem round_is {k b : Nat} (hb : b = 8 ∨ b = 16 ∨ b = 32 ∨ b = 64) (h : k ≤ b) (h' : b = 8 ∨ b / 2 < k) :
    roundBits k = b := by
  rcases roundBits_cases k with ⟨h1, h2⟩ | ⟨h1, h2, h3⟩ | ⟨h1, h2, h3⟩ | ⟨h1, h2, h3⟩ | ⟨h1, h2⟩ <;> omega

theorem width_bits (w : Width) : w.bits = 8 ∨ w.bits = 16 ∨ w.bits = 32 ∨ w.bits = 64 := by
  cases w <;> decide

theorem innerWidth_bits (w : Width) : innerWidth w.bits w.signed = w := by cases w <;> rfl

theorem natAbs_lt_pow {v : Int} {k : Nat} (h1 : -(2 ^ k) < v) (h2 : v < 2 ^ k) : v.natAbs < 2 ^ k := by
  have e : ((2 ^ k : Nat) : Int) = 2 ^ k := by push_cast; rfl
  omega

theorem Spec.Holder.integer {lb ub : Int} {w : Width} (h : Holder lb ub w) {vs : ValueSet} (h1 : vs.root.min = some lb)
    (h2 : vs.root.max = some ub) :
    ∃ b, integerOfValueset vs = .ok b ∧
      b.attrs = .ok (some (.integer w (some lb) (some ub) vs.additional.isSome)) := by
  have hpos : ∀ z : Nat, bitLen128 (z : Int) = bitLen z := by
    intro z; unfold bitLen128; rw [if_neg (by omega)]; simp
  have hp64 : (2 : Int) ^ w.bits ≤ 2 ^ 64 := by
    rcases width_bits w with h | h | h | h <;> rw [h] <;> decide
  have ecast : ∀ k : Nat, ((2 ^ k : Nat) : Int) = 2 ^ k := fun k => by push_cast; rfl
  cases h with
  | unsigned p1 p2 p3 p4 p5 =>
    have hk : roundBits (bitLen128 ub) = w.bits := by
      have hbl : bitLen128 ub = bitLen ub.toNat := by unfold bitLen128; rw [if_neg (by omega)]
      rw [hbl]
      refine round_is (width_bits w) ?_ (p5.imp id fun h => ?_)
      · rw [bitLen_le]
        have := ecast w.bits
        omega
      · rw [← Nat.not_le, bitLen_le]
        have := ecast (w.bits / 2)
        omega
    refine ⟨.integer w.bits false (some vs), ?_, ?_⟩
    · simp [integerOfValueset, h1, h2, show ¬ lb < 0 by omega, Out.bind, hk]
    · have := innerWidth_bits w
      rw [p3] at this
      simp only [RBase.attrs, boundsOf, extensibleOf, h1, h2, this]
  | signed p1 p2 p3 p4 p5 p6 =>
    have hle : (2 : Int) ^ (w.bits - 1) < 2 ^ w.bits := by
      rcases width_bits w with h | h | h | h <;> rw [h] <;> decide
    have l1 : lb.natAbs < 2 ^ w.bits := natAbs_lt_pow (by omega) (by omega)
    have l2 : ub.natAbs < 2 ^ w.bits := natAbs_lt_pow (by omega) (by omega)
    have c1 := abs128_ok (v := lb) ⟨by omega, by omega⟩
    have c2 := abs128_ok (v := ub) ⟨by omega, by omega⟩
    have hk : roundBits (max (bitLen lb.natAbs) (bitLen ub.natAbs)) = w.bits := by
      refine round_is (width_bits w) ?_ (p6.imp id fun h => ?_)
      · rw [Nat.max_le, bitLen_le, bitLen_le]
        exact ⟨l1, l2⟩
      · rw [← Nat.not_le, Nat.max_le, bitLen_le, bitLen_le]
        have := ecast (w.bits / 2)
        omega
    have hw : (Out.bind (abs128 ub) fun a => Out.bind (abs128 lb) fun b =>
        Out.ok (Max.max (bitLen128 b) (bitLen128 a))) =
        (Out.ok (max (bitLen lb.natAbs) (bitLen ub.natAbs)) : Out Err Nat) := by
      rw [c1, c2]; simp only [Out.bind, hpos]
    refine ⟨.integer w.bits true (some vs), ?_, ?_⟩
    · unfold integerOfValueset
      rw [h1, h2]
      simp only [p1, decide_true, if_true]
      rw [hw]
      simp only [Out.bind, hk]
    · have := innerWidth_bits w
      rw [p3] at this
      simp only [RBase.attrs, boundsOf, extensibleOf, h1, h2, this]

end
end Hampi.Compiler
