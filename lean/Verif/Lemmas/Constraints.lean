import Verif.Compiler.Constraints
import Verif.Spec.Constraints
import Verif.Lemmas.Tokens
/-!
# Lemmas on the value sets of constraints
-/
namespace Hampi.Compiler

open Hampi.Spec

theorem Out.bind_ok {ε α β : Type} {m : Out ε α} {f : α → Out ε β} {b : β} :
    m.bind f = .ok b ↔ ∃ a, m = .ok a ∧ f a = .ok b := by
  cases m <;> simp [Out.bind]

theorem digitsVal_foldl (ds : Text) (n : Nat) :
    ds.foldl (fun n c => 10 * n + digitVal c) n = n * 10 ^ ds.length + decimal ds := by
  induction ds generalizing n with
  | nil => simp [decimal]
  | cons d ds ih =>
    simp only [List.foldl_cons, ih, decimal, List.length_cons]
    have h : digitVal d = d.toNat - 48 := rfl
    rw [h, Nat.pow_succ, Nat.add_mul]
    have : 10 * n * 10 ^ ds.length = n * (10 ^ ds.length * 10) := by
      rw [Nat.mul_comm (10 ^ _) 10, ← Nat.mul_assoc, Nat.mul_comm n 10]
    omega

theorem digitsVal_eq (ds : Text) : digitsVal ds = decimal ds := by
  simp [digitsVal, digitsVal_foldl]

theorem isDigits_iff (ds : Text) : isDigits ds = true ↔ Digits ds := by
  unfold isDigits Digits
  cases ds <;> simp

theorem _root_.Hampi.Spec.Digits.head {ds : Text} (h : Digits ds) : ∃ c cs, ds = c :: cs ∧ c.isDigit = true := by
  obtain ⟨h1, h2⟩ := h
  cases ds with
  | nil => exact absurd rfl h1
  | cons c cs => exact ⟨c, cs, rfl, h2 c (by simp)⟩

theorem parseSigned_sound {lo hi : Int} {t : Text} {v : Int} (hlo : lo ≤ 0) (hhi : 0 < hi)
    (h : parseSigned lo hi t = some v) : Numeral t v ∧ lo ≤ v ∧ v < hi := by
  unfold parseSigned at h
  split at h
  · rename_i ds
    split at h
    · rename_i hc
      injection h with h
      rw [digitsVal_eq] at h hc
      refine ⟨Or.inr ⟨ds, (isDigits_iff ds).1 hc.1, Or.inl ⟨rfl, h.symm⟩⟩, ?_, ?_⟩ <;> omega
    · exact absurd h (by simp)
  · rename_i ds
    split at h
    · rename_i hc
      injection h with h
      rw [digitsVal_eq] at h hc
      refine ⟨Or.inr ⟨ds, (isDigits_iff ds).1 hc.1, Or.inr ⟨rfl, h.symm⟩⟩, ?_, ?_⟩ <;> omega
    · exact absurd h (by simp)
  · split at h
    · rename_i hc
      injection h with h
      rw [digitsVal_eq] at h hc
      refine ⟨Or.inl ⟨(isDigits_iff _).1 hc.1, h.symm⟩, ?_, ?_⟩ <;> omega
    · exact absurd h (by simp)

theorem parseSigned_complete {lo hi : Int} {t : Text} {v : Int} (h : Numeral t v)
    (hlo : lo ≤ v) (hhi : v < hi) : parseSigned lo hi t = some v := by
  rcases h with ⟨hd, rfl⟩ | ⟨ds, hd, ⟨rfl, rfl⟩ | ⟨rfl, rfl⟩⟩
  · obtain ⟨c, cs, rfl, hc⟩ := hd.head
    unfold parseSigned
    split
    · rename_i heq; injection heq with h1; subst h1; exact absurd hc (by decide)
    · rename_i heq; injection heq with h1; subst h1; exact absurd hc (by decide)
    · rw [digitsVal_eq, if_pos ⟨(isDigits_iff _).2 hd, hhi⟩]
  · simp only [parseSigned]
    rw [digitsVal_eq, if_pos ⟨(isDigits_iff _).2 hd, hlo⟩]
  · simp only [parseSigned]
    rw [digitsVal_eq, if_pos ⟨(isDigits_iff _).2 hd, hhi⟩]

theorem parseI128_sound {t : Text} {v : Int} (h : parseI128 t = some v) :
    Numeral t v ∧ fits128 v := by
  obtain ⟨h1, h2, h3⟩ := parseSigned_sound (by decide) (by decide) h
  exact ⟨h1, h2, h3⟩

theorem parseI128_complete {t : Text} {v : Int} (h : Numeral t v) (hf : fits128 v) :
    parseI128 t = some v := parseSigned_complete h hf.1 hf.2

/-- A numeral writes one number. -/
theorem _root_.Hampi.Spec.Numeral.unique {t : Text} {v w : Int} (h : Numeral t v)
    (h' : Numeral t w) : v = w := by
  have a := parseSigned_complete (lo := min v w) (hi := max v w + 1) h (by omega) (by omega)
  have b := parseSigned_complete (lo := min v w) (hi := max v w + 1) h' (by omega) (by omega)
  rw [a] at b
  exact Option.some.inj b

/-! ## Numerals of numbers -/

theorem digit_char {n : Nat} (h : n < 10) :
    (Char.ofNat (48 + n)).isDigit = true ∧ (Char.ofNat (48 + n)).toNat - 48 = n := by
  have : ∀ n, n < 10 → (Char.ofNat (48 + n)).isDigit = true ∧ (Char.ofNat (48 + n)).toNat - 48 = n := by
    decide
  exact this n h

theorem decimal_append (a b : Text) : decimal (a ++ b) = decimal a * 10 ^ b.length + decimal b := by
  induction a with
  | nil => simp [decimal]
  | cons d ds ih =>
    simp only [List.cons_append, decimal, ih, List.length_append, Nat.pow_add, Nat.add_mul]
    rw [Nat.mul_assoc]; omega

theorem natText_digits (n : Nat) : Digits (natText n) := by
  induction n using Nat.strongRecOn with
  | _ n ih =>
    rw [natText]
    split
    · rename_i h
      exact ⟨by simp, fun c hc => by simp only [List.mem_singleton] at hc; subst hc; exact (digit_char h).1⟩
    · have := ih (n / 10) (by omega)
      refine ⟨by simp, fun c hc => ?_⟩
      rcases List.mem_append.1 hc with h | h
      · exact this.2 c h
      · simp only [List.mem_singleton] at h; subst h
        exact (digit_char (Nat.mod_lt n (by decide))).1

theorem decimal_natText (n : Nat) : decimal (natText n) = n := by
  induction n using Nat.strongRecOn with
  | _ n ih =>
    rw [natText]
    split
    · rename_i h
      simp [decimal, (digit_char h).2]
    · rw [decimal_append, ih (n / 10) (by omega)]
      have := (digit_char (Nat.mod_lt n (by decide : 0 < 10))).2
      simp only [decimal, List.length_singleton, List.length_nil, Nat.pow_zero, Nat.mul_one, this]
      omega

theorem numeral_intText (v : Int) : Numeral (intText v) v := by
  unfold intText
  split
  · exact Or.inr ⟨_, natText_digits _, Or.inl ⟨rfl, by rw [decimal_natText]; omega⟩⟩
  · exact Or.inl ⟨natText_digits _, by rw [decimal_natText]; omega⟩

theorem parseI128_intText {v : Int} (h : fits128 v) : parseI128 (intText v) = some v :=
  parseI128_complete (numeral_intText v) h

theorem parseOrResolve_intText (env : Text → Option Int) {v : Int} (h : fits128 v) :
    parseOrResolve env (intText v) = .ok v := by
  simp [parseOrResolve, parseI128_intText h]

theorem parseOrResolve_sound {ns : Names} {t : Text} {v : Int}
    (h : parseOrResolve ns.int t = .ok v) : Denotes ns t v := by
  unfold parseOrResolve at h
  split at h
  · rename_i w hw
    injection h with h; subst h
    exact Or.inl (parseI128_sound hw).1
  · split at h
    · rename_i w hw
      injection h with h; subst h
      exact Or.inr hw
    · exact absurd h (by simp)

/-- What a text denotes is unique. -/
theorem _root_.Hampi.Spec.Denotes.unique {ns : Names} (hn : ns.Proper) {t : Text} {v w : Int}
    (h : Denotes ns t v) (h' : Denotes ns t w) : v = w := by
  rcases h with h | h <;> rcases h' with h' | h'
  · exact h.unique h'
  · exact absurd h ((hn t w h').1 v)
  · exact absurd h' ((hn t v h).1 w)
  · rw [h] at h'; exact Option.some.inj h'

theorem denotes_iff {ns : Names} (hn : ns.Proper) {t : Text} {v : Int}
    (h : parseOrResolve ns.int t = .ok v) (w : Int) : Denotes ns t w ↔ w = v :=
  ⟨fun hd => hd.unique hn (parseOrResolve_sound h), fun e => e ▸ parseOrResolve_sound h⟩

theorem not_numeral_word {w : Text} {c : Char} {cs : Text} (hw : w = c :: cs)
    (hc : c.isDigit = false) (h1 : c ≠ '-') (h2 : c ≠ '+') (v : Int) : ¬ Numeral w v := by
  rintro (⟨hd, _⟩ | ⟨ds, _, ⟨h, _⟩ | ⟨h, _⟩⟩)
  · subst hw; have := hd.2 c (by simp); rw [hc] at this; exact absurd this (by simp)
  · rw [hw] at h; injection h; contradiction
  · rw [hw] at h; injection h; contradiction

theorem parseOrResolve_word {ns : Names} (hn : ns.Proper) {t : Text} {v : Int}
    (h : parseOrResolve ns.int t = .ok v) : t ≠ minWord ∧ t ≠ maxWord := by
  rcases parseOrResolve_sound h with h | h
  · constructor <;> rintro rfl
    · exact not_numeral_word (w := minWord) rfl (by decide) (by decide) (by decide) v h
    · exact not_numeral_word (w := maxWord) rfl (by decide) (by decide) (by decide) v h
  · exact (hn t v h).2

/-! ## Sets -/

theorem holds_append (a b : ConstraintValues) (x : Int) :
    Holds (a.append b) x ↔ Holds a x ∨ Holds b x := by
  simp only [Holds, ConstraintValues.append, List.mem_append, or_and_right,
    exists_or]
  constructor
  · rintro ((h | h) | (h | h))
    · exact Or.inl (Or.inl h)
    · exact Or.inr (Or.inl h)
    · exact Or.inl (Or.inr h)
    · exact Or.inr (Or.inr h)
  · rintro ((h | h) | (h | h))
    · exact Or.inl (Or.inl h)
    · exact Or.inr (Or.inl h)
    · exact Or.inl (Or.inr h)
    · exact Or.inr (Or.inr h)

theorem holds_empty (x : Int) : ¬ Holds {} x := by
  simp [Holds]

theorem checked128_ok {v w : Int} (h : checked128 v = .ok w) : w = v := by
  unfold checked128 at h
  split at h
  · injection h with h; exact h.symm
  · exact absurd h (by simp)

/-- A range element. -/
theorem range_values {ns : Names} (hn : ns.Proper) {lo hi : Text} {li hi' : Bool}
    {s : ConstraintValues} (h : (Elements.range lo li hi hi').values ns.int = .ok s) (x : Int) :
    Holds s x ↔ Above ns lo li x ∧ Below ns hi hi' x := by
  simp only [Elements.values, Out.bind_ok] at h
  obtain ⟨l, hl, l', hl', u, hu, u', hu', e, he, hs⟩ := h
  injection hs with hs; subst hs
  have e1 := checked128_ok he
  have hl2 : l' = if li then l else l + 1 := by
    cases li
    · exact checked128_ok hl'
    · simp only [if_true] at hl'; injection hl' with hl'; simp [hl']
  have hu2 : u' = if hi' then u else u - 1 := by
    cases hi'
    · exact checked128_ok hu'
    · simp only [if_true] at hu'; injection hu' with hu'; simp [hu']
  simp only [Holds, List.not_mem_nil, false_or, List.mem_singleton,
    exists_eq_left, Above, Below, denotes_iff hn hl, denotes_iff hn hu,
    (parseOrResolve_word hn hl).1, (parseOrResolve_word hn hu).2]
  cases li <;> cases hi' <;> simp_all <;> omega

mutual

/-- The computed sets of a union of elements. -/
theorem elementSet_holds {ns : Names} (hn : ns.Proper) : (e : ElementSet) → UnionsOnly e →
    ∀ {vs : ValueSet}, e.valueset ns.int = .ok vs →
      (∀ x, Holds vs.root x ↔ Permits ns e x) ∧
      (∀ a, vs.additional = some a → ∀ x, Holds a x ↔ PermitsExtension ns e x) ∧
      (vs.additional = none → ∃ root, e = .mk root none)
  | .mk root none, hu, vs, h => by
      simp only [ElementSet.valueset, Out.bind_ok] at h
      obtain ⟨r, hr, h⟩ := h
      injection h with h; subst h
      refine ⟨fun x => ?_, fun a ha => by simp at ha, fun _ => ⟨root, rfl⟩⟩
      simp only [UnionsOnly] at hu
      simp only [Permits]
      exact unionList_holds hn root hu hr x
  | .mk root (some add), hu, vs, h => by
      simp only [ElementSet.valueset, Out.bind_ok] at h
      obtain ⟨r, hr, a, ha, h⟩ := h
      injection h with h; subst h
      simp only [UnionsOnly] at hu
      refine ⟨fun x => ?_, fun b hb x => ?_, fun h => by simp at h⟩
      · simp only [Permits]
        exact unionList_holds hn root hu.1 hr x
      · injection hb with hb; subst hb
        simp only [PermitsExtension]
        exact unionList_holds hn add hu.2 ha x

theorem unionList_holds {ns : Names} (hn : ns.Proper) : (is : List (List Elements)) →
    UnionList is → ∀ {s : ConstraintValues}, unionValues ns.int is = .ok s →
      ∀ x, Holds s x ↔ SomePermits ns is x
  | [], _, s, h, x => by
      simp only [unionValues] at h
      injection h with h; subst h
      simp [SomePermits, holds_empty]
  | i :: is, hu, s, h, x => by
      simp only [unionValues, Out.bind_ok] at h
      obtain ⟨a, ha, b, hb, h⟩ := h
      injection h with h; subst h
      simp only [UnionList] at hu
      rw [holds_append]
      simp only [SomePermits]
      rw [oneElement_holds hn i hu.1 ha x, unionList_holds hn is hu.2 hb x]

theorem oneElement_holds {ns : Names} (hn : ns.Proper) : (es : List Elements) →
    OneElement es → ∀ {s : ConstraintValues}, interValues ns.int {} es = .ok s →
      ∀ x, Holds s x ↔ EveryElement ns es x
  | [], hu, s, h, x => by simp [OneElement] at hu
  | [e], hu, s, h, x => by
      simp only [interValues, Out.bind_ok] at h
      obtain ⟨a, ha, h⟩ := h
      injection h with h; subst h
      simp only [OneElement] at hu
      simp only [EveryElement, and_true]
      rw [← element_holds hn e hu ha x]
      simp [intersectStep, ConstraintValues.isEmpty, holds_append, holds_empty]
  | _ :: _ :: _, hu, s, h, x => by simp [OneElement] at hu

theorem element_holds {ns : Names} (hn : ns.Proper) : (e : Elements) →
    PlainElement e → ∀ {s : ConstraintValues}, e.values ns.int = .ok s →
      ∀ x, Holds s x ↔ ElementPermits ns e x
  | .single t, _, s, h, x => by
      simp only [Elements.values, Out.bind_ok] at h
      obtain ⟨v, hv, h⟩ := h
      injection h with h; subst h
      simp only [ElementPermits, denotes_iff hn hv]
      simp [Holds]
  | .range lo li hi hi', _, s, h, x => by
      simp only [ElementPermits]
      exact range_values hn h x
  | .contained (.mk (.integer _) (some [.subtype e])), hu, s, h, x => by
      simp only [Elements.values, Out.bind_ok, AsnType.valueset, Constraint.valueset] at h
      obtain ⟨vs, hv, h⟩ := h
      injection h with h; subst h
      simp only [PlainElement] at hu
      simp only [ElementPermits, TypePermits, AllPermit, ConstraintPermits, and_true]
      exact (elementSet_holds hn e hu hv).1 x

end

/-! ## Acceptance -/

/-- A numeral or a proper name resolves. -/
theorem parseOrResolve_small {ns : Names} {t : Text} (hn : ns.Proper) (h : Small ns t) :
    ∃ v, parseOrResolve ns.int t = .ok v ∧ -(2 ^ 127) < v ∧ v + 1 < 2 ^ 127 := by
  obtain ⟨v, hd, h1, h2⟩ := h
  rcases hd with hd | hd
  · have := parseI128_complete hd ⟨by omega, by omega⟩
    exact ⟨v, by simp [parseOrResolve, this], h1, h2⟩
  · refine ⟨v, ?_, h1, h2⟩
    unfold parseOrResolve
    split
    · rename_i w hw
      exact absurd (parseI128_sound hw).1 ((hn t v hd).1 w)
    · rw [hd]

mutual

theorem elementSet_ok {ns : Names} (hn : ns.Proper) : (e : ElementSet) → UnionsOnly e →
    SmallSet ns e → ∃ vs, e.valueset ns.int = .ok vs
  | .mk root none, hu, hs => by
      simp only [UnionsOnly] at hu
      simp only [SmallSet] at hs
      obtain ⟨r, hr⟩ := union_ok hn root hu hs
      exact ⟨⟨r, none⟩, by simp only [ElementSet.valueset, Out.bind_ok]; exact ⟨r, hr, rfl⟩⟩
  | .mk root (some add), hu, hs => by
      simp only [UnionsOnly] at hu
      simp only [SmallSet] at hs
      obtain ⟨r, hr⟩ := union_ok hn root hu.1 hs.1
      obtain ⟨a, ha⟩ := union_ok hn add hu.2 hs.2
      exact ⟨⟨r, some a⟩, by
        simp only [ElementSet.valueset, Out.bind_ok]; exact ⟨r, hr, a, ha, rfl⟩⟩

theorem union_ok {ns : Names} (hn : ns.Proper) : (is : List (List Elements)) → UnionList is →
    SmallUnion ns is → ∃ s, unionValues ns.int is = .ok s
  | [], _, _ => ⟨{}, rfl⟩
  | i :: is, hu, hs => by
      simp only [UnionList] at hu
      simp only [SmallUnion] at hs
      obtain ⟨a, ha⟩ := one_ok hn i hu.1 hs.1
      obtain ⟨b, hb⟩ := union_ok hn is hu.2 hs.2
      exact ⟨a.append b, by simp only [unionValues, Out.bind_ok]; exact ⟨a, ha, b, hb, rfl⟩⟩

theorem one_ok {ns : Names} (hn : ns.Proper) : (es : List Elements) → OneElement es →
    SmallAll ns es → ∃ s, interValues ns.int {} es = .ok s
  | [], hu, _ => by simp [OneElement] at hu
  | [e], hu, hs => by
      simp only [OneElement] at hu
      simp only [SmallAll] at hs
      obtain ⟨a, ha⟩ := element_ok hn e hu hs.1
      exact ⟨intersectStep {} a, by
        simp only [interValues, Out.bind_ok]; exact ⟨a, ha, rfl⟩⟩
  | _ :: _ :: _, hu, _ => by simp [OneElement] at hu

theorem element_ok {ns : Names} (hn : ns.Proper) : (e : Elements) → PlainElement e →
    SmallElement ns e → ∃ s, e.values ns.int = .ok s
  | .single t, _, hs => by
      simp only [SmallElement] at hs
      obtain ⟨v, hv, -, -⟩ := parseOrResolve_small hn hs
      exact ⟨{ values := [v] }, by simp only [Elements.values, Out.bind_ok]; exact ⟨v, hv, rfl⟩⟩
  | .range lo li hi hj, _, hs => by
      simp only [SmallElement] at hs
      obtain ⟨v, hv, v1, v2⟩ := parseOrResolve_small hn hs.1
      obtain ⟨w, hw, w1, w2⟩ := parseOrResolve_small hn hs.2
      have e1 : checked128 (v + 1) = .ok (v + 1) := if_pos ⟨by omega, by omega⟩
      have e2 : checked128 (w + 1) = .ok (w + 1) := if_pos ⟨by omega, by omega⟩
      have e3 : checked128 (w - 1) = .ok (w - 1) := if_pos ⟨by omega, by omega⟩
      have e4 : checked128 w = .ok w := if_pos ⟨by omega, by omega⟩
      cases li <;> cases hj <;> simp [Elements.values, Out.bind, hv, hw, e1, e2, e3, e4]
  | .contained (.mk (.integer _) (some [.subtype e])), hu, hs => by
      simp only [PlainElement] at hu
      simp only [SmallElement] at hs
      obtain ⟨s, h⟩ := elementSet_ok hn e hu hs
      exact ⟨s.root, by
        simp only [Elements.values, AsnType.valueset, Constraint.valueset, Out.bind_ok]
        exact ⟨s, h, rfl⟩⟩
  | .contained (.mk (.integer _) (some (.subtype _ :: _ :: _))), hu, _ => by simp [PlainElement] at hu
  | .contained (.mk (.integer _) (some (.tableSimple _ :: _))), hu, _ => by simp [PlainElement] at hu
  | .contained (.mk (.integer _) (some (.tableRelation _ _ :: _))), hu, _ => by simp [PlainElement] at hu
  | .contained (.mk (.integer _) (some (.contents _ :: _))), hu, _ => by simp [PlainElement] at hu
  | .contained (.mk (.integer _) none), hu, _ => by simp [PlainElement] at hu
  | .contained (.mk (.integer _) (some [])), hu, _ => by simp [PlainElement] at hu
  | .contained (.mk (.enumerated ..) _), hu, _ => by simp [PlainElement] at hu
  | .contained (.mk (.bitString _) _), hu, _ => by simp [PlainElement] at hu
  | .contained (.mk .boolean _), hu, _ => by simp [PlainElement] at hu
  | .contained (.mk .null _), hu, _ => by simp [PlainElement] at hu
  | .contained (.mk .octetString _), hu, _ => by simp [PlainElement] at hu
  | .contained (.mk .objectIdentifier _), hu, _ => by simp [PlainElement] at hu
  | .contained (.mk .relativeOid _), hu, _ => by simp [PlainElement] at hu
  | .contained (.mk (.characterString _) _), hu, _ => by simp [PlainElement] at hu
  | .contained (.mk (.reference _) _), hu, _ => by simp [PlainElement] at hu
  | .contained (.mk (.classField ..) _), hu, _ => by simp [PlainElement] at hu
  | .contained (.mk (.parameterized ..) _), hu, _ => by simp [PlainElement] at hu
  | .contained (.mk (.choice ..) _), hu, _ => by simp [PlainElement] at hu
  | .contained (.mk (.sequence ..) _), hu, _ => by simp [PlainElement] at hu
  | .contained (.mk (.sequenceOf ..) _), hu, _ => by simp [PlainElement] at hu
  | .contained (.mk .set _), hu, _ => by simp [PlainElement] at hu
  | .contained (.mk .setOf _), hu, _ => by simp [PlainElement] at hu
  | .size _, hu, _ => by simp [PlainElement] at hu
  | .alphabet _, hu, _ => by simp [PlainElement] at hu
  | .set _, hu, _ => by simp [PlainElement] at hu

end

end Hampi.Compiler
