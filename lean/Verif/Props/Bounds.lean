import Verif.Props.Constraints
/-!
# C56, C57, C69: from constraints to the attributes of the generated type

`baseTy env ty` is the Rust type, with its attributes, generated for the ASN.1 type `ty`.
-/
namespace Hampi.Compiler

open Hampi.Spec

/-! ## What is generated for an INTEGER -/

/-- The shape of the Rust type generated for a constrained INTEGER. -/
theorem baseTy_integer {env : Text → Option Int} {n : Option (List (Text × NamedValue))}
    {c : Constraint} {cs : List Constraint} {t : Ty}
    (h : baseTy env (.mk (.integer n) (some (c :: cs))) = .ok (some t)) :
    ∃ vs mx k sg, c.valueset env = .ok vs ∧ vs.root.max = some mx ∧
      t = .integer (innerWidth (roundBits k) sg) vs.root.min vs.root.max vs.additional.isSome ∧
      ((sg = false ∧ (∃ mn, vs.root.min = some mn ∧ 0 ≤ mn) ∧ k = bitLen128 mx) ∨
        (sg = true ∧ ∃ mn, vs.root.min = some mn ∧ mn < 0 ∧ fits128 mx.natAbs ∧ fits128 mn.natAbs ∧
          k = max (bitLen mn.natAbs) (bitLen mx.natAbs))) := by
  simp only [baseTy, resolveBase, resolveInteger, Out.bind_ok, AsnType.valueset] at h
  obtain ⟨b, ⟨vs, hvs, hb⟩, ht⟩ := h
  have hpos : ∀ z : Nat, bitLen128 (z : Int) = bitLen z := by
    intro z; unfold bitLen128; rw [if_neg (by omega)]; simp
  unfold integerOfValueset at hb
  cases hmin : vs.root.min with
  | none => simp [hmin, Out.bind] at hb
  | some mn =>
    cases hmax : vs.root.max with
    | none =>
      simp only [hmin, hmax] at hb
      split at hb <;> simp [Out.bind] at hb
    | some mx =>
      by_cases hs : mn < 0
      · simp only [hmin, hmax, hs, decide_true, if_true, Out.bind_ok, abs128] at hb
        obtain ⟨w, ⟨a, ha, b', hb', hw⟩, hb⟩ := hb
        have fa : fits128 mx.natAbs := by unfold checked128 at ha; split at ha <;> simp_all
        have fb : fits128 mn.natAbs := by unfold checked128 at hb'; split at hb' <;> simp_all
        have ha := checked128_ok ha
        have hb' := checked128_ok hb'
        injection hw with hw
        injection hb with hb
        subst hb
        simp only [RBase.attrs, boundsOf, extensibleOf, Out.ok.injEq, Option.some.injEq] at ht
        subst ht
        refine ⟨vs, mx, w, true, hvs, hmax, rfl, Or.inr ⟨rfl, mn, hmin, hs, fa, fb, ?_⟩⟩
        rw [← hw, ha, hb', hpos, hpos]
      · simp only [hmin, hmax, hs, decide_false, Bool.false_eq_true, if_false, Out.bind_ok] at hb
        obtain ⟨w, hw, hb⟩ := hb
        injection hw with hw
        injection hb with hb
        subst hb
        simp only [RBase.attrs, boundsOf, extensibleOf, Out.ok.injEq, Option.some.injEq] at ht
        subst ht
        exact ⟨vs, mx, w, false, hvs, hmax, rfl, Or.inl ⟨rfl, ⟨mn, hmin, by omega⟩, hw.symm⟩⟩

/-- The set computed for a simple union. -/
theorem simple_values {ns : Names} (hn : ns.Proper) : (root : List (List Elements)) →
    SimpleUnion root → Inhabited ns root → ∀ {s}, unionValues ns.int root = .ok s →
    s.Proper ∧ (AllSingles root → s.ranges = []) ∧ (AllRanges root → s.values = [])
  | [], _, _, s, h => by
      simp only [unionValues, Out.ok.injEq] at h
      subst h
      exact ⟨by intro r hr; simp at hr, fun _ => rfl, fun _ => rfl⟩
  | i :: is, hs, hi, s, h => by
      simp only [unionValues, Out.bind_ok] at h
      obtain ⟨a, ha, b, hb, h⟩ := h
      injection h with h; subst h
      obtain ⟨h1, h2, h3⟩ := simple_values hn is (fun j hj => hs j (List.mem_cons_of_mem _ hj))
        (fun j hj => hi j (List.mem_cons_of_mem _ hj)) hb
      have first : a.Proper ∧ ((∃ t, i = [.single t]) → a.ranges = []) ∧
          ((∃ lo li hi hj, i = [.range lo li hi hj]) → a.values = []) := by
        obtain ⟨x, hx⟩ := hi i (by simp)
        rcases hs i (by simp) with ⟨t, rfl⟩ | ⟨lo, li, hi', hj, rfl⟩
        · simp only [interValues, Elements.values, Out.bind_ok] at ha
          obtain ⟨v, ⟨w, hw, h⟩, h'⟩ := ha
          injection h with h; injection h' with h'
          subst h; subst h'
          refine ⟨?_, fun _ => rfl, ?_⟩
          · intro r hr; simp [intersectStep, ConstraintValues.isEmpty, ConstraintValues.append] at hr
          · rintro ⟨_, _, _, _, h⟩; simp at h
        · simp only [EveryElement, and_true] at hx
          simp only [interValues, Out.bind_ok] at ha
          obtain ⟨v, hv, h'⟩ := ha
          injection h' with h'
          have hh := (element_holds hn (.range lo li hi' hj) (by simp [PlainElement]) hv x).2 hx
          simp only [Elements.values, Out.bind_ok] at hv
          obtain ⟨l, -, l', -, u, -, u', -, z, -, hv⟩ := hv
          injection hv with hv
          subst hv; subst h'
          refine ⟨?_, ?_, fun _ => rfl⟩
          · intro r hr
            simp [intersectStep, ConstraintValues.isEmpty, ConstraintValues.append] at hr
            subst hr
            simp [Holds] at hh
            show l' < z
            omega
          · rintro ⟨_, h⟩; simp at h
      refine ⟨?_, ?_, ?_⟩
      · intro r hr
        rcases List.mem_append.1 hr with hr | hr
        · exact first.1 r hr
        · exact h1 r hr
      · intro hA
        show a.ranges ++ b.ranges = []
        rw [first.2.1 (hA i (by simp)), h2 (fun j hj => hA j (List.mem_cons_of_mem _ hj))]; rfl
      · intro hA
        show a.values ++ b.values = []
        rw [first.2.2 (hA i (by simp)), h3 (fun j hj => hA j (List.mem_cons_of_mem _ hj))]; rfl

theorem simple_unions {root : List (List Elements)} (h : SimpleUnion root) : UnionList root := by
  induction root with
  | nil => trivial
  | cons i is ih =>
    refine ⟨?_, ih (fun j hj => h j (List.mem_cons_of_mem _ hj))⟩
    rcases h i (by simp) with ⟨t, rfl⟩ | ⟨lo, li, hi, hj, rfl⟩ <;> simp [OneElement, PlainElement]

theorem root_values {env : Text → Option Int} {root : List (List Elements)}
    {add : Option (List (List Elements))} {vs : ValueSet}
    (h : (ElementSet.mk root add).valueset env = .ok vs) : unionValues env root = .ok vs.root := by
  cases add with
  | none =>
    simp only [ElementSet.valueset, Out.bind_ok] at h
    obtain ⟨r, hr, h⟩ := h
    injection h with h; subst h; exact hr
  | some a =>
    simp only [ElementSet.valueset, Out.bind_ok] at h
    obtain ⟨r, hr, b, -, h⟩ := h
    injection h with h; subst h; exact hr

theorem root_holds {ns : Names} (hn : ns.Proper) {root : List (List Elements)}
    {add : Option (List (List Elements))} (hs : SimpleUnion root) {vs : ValueSet}
    (h : (ElementSet.mk root add).valueset ns.int = .ok vs) (x : Int) :
    Holds vs.root x ↔ Permits ns (.mk root add) x := by
  have := unionList_holds hn root (simple_unions hs) (root_values h) x
  simpa [Permits] using this

theorem additional_isSome {env : Text → Option Int} {root : List (List Elements)}
    {add : Option (List (List Elements))} {vs : ValueSet}
    (h : (ElementSet.mk root add).valueset env = .ok vs) : vs.additional.isSome = add.isSome := by
  cases add with
  | none =>
    simp only [ElementSet.valueset, Out.bind_ok] at h
    obtain ⟨r, hr, h⟩ := h
    injection h with h; subst h; rfl
  | some a =>
    simp only [ElementSet.valueset, Out.bind_ok] at h
    obtain ⟨r, hr, b, -, h⟩ := h
    injection h with h; subst h; rfl

/-! ## C56: bounds -/

/-- **C56 (part).** For a union of single values, or a union of ranges, none of them empty, the
attributes of the generated type are the least and the greatest permitted value, and the type is
extensible exactly when the constraint has a marker. Missing: unions of both kinds (false, see
`C56_mixture_violated`) and several constraints (false, see `C56_serial_violated`). -/
theorem C56_bounds_partial {ns : Names} (hn : ns.Proper) {root : List (List Elements)}
    {add : Option (List (List Elements))} (hk : AllSingles root ∨ AllRanges root)
    (hi : Inhabited ns root) {t : Ty}
    (h : baseTy ns.int (integerType [.subtype (.mk root add)]) = .ok (some t)) :
    ∃ w lb ub, t = .integer w (some lb) (some ub) add.isSome ∧
      Permits ns (.mk root add) lb ∧ Permits ns (.mk root add) ub ∧
      ∀ x, Permits ns (.mk root add) x → lb ≤ x ∧ x ≤ ub := by
  have hs : SimpleUnion root := by
    rcases hk with hk | hk
    · exact fun i hi => Or.inl (hk i hi)
    · exact fun i hi => Or.inr (hk i hi)
  obtain ⟨vs, mx, k, sg, hv, hmax, ht, hc⟩ := baseTy_integer h
  simp only [Constraint.valueset] at hv
  obtain ⟨p1, p2, p3⟩ := simple_values hn root hs hi (root_values hv)
  have hmin : ∃ mn, vs.root.min = some mn := by
    rcases hc with ⟨-, ⟨mn, h, -⟩, -⟩ | ⟨-, mn, h, -⟩ <;> exact ⟨mn, h⟩
  obtain ⟨mn, hmin⟩ := hmin
  rw [hmin, hmax, additional_isSome hv] at ht
  have hr := root_holds hn hs hv
  obtain ⟨a1, a2⟩ := min_least p1 hmin
  obtain ⟨b1, b2⟩ := max_greatest p1 (hk.symm.imp p3 p2) hmax
  refine ⟨_, mn, mx, ht, (hr mn).1 a1, (hr mx).1 b1, fun x hx => ⟨a2 x ((hr x).2 hx), b2 x ((hr x).2 hx)⟩⟩

/-- **C56 (part).** The lower bound is the least permitted value also for a union of single values and
ranges. -/
theorem C56_lower_bound_partial {ns : Names} (hn : ns.Proper) {root : List (List Elements)}
    {add : Option (List (List Elements))} (hs : SimpleUnion root) (hi : Inhabited ns root) {t : Ty}
    (h : baseTy ns.int (integerType [.subtype (.mk root add)]) = .ok (some t)) :
    ∃ w lb ub, t = .integer w (some lb) ub add.isSome ∧
      Permits ns (.mk root add) lb ∧ ∀ x, Permits ns (.mk root add) x → lb ≤ x := by
  obtain ⟨vs, mx, k, sg, hv, hmax, ht, hc⟩ := baseTy_integer h
  simp only [Constraint.valueset] at hv
  obtain ⟨p1, p2, p3⟩ := simple_values hn root hs hi (root_values hv)
  have hmin : ∃ mn, vs.root.min = some mn := by
    rcases hc with ⟨-, ⟨mn, h, -⟩, -⟩ | ⟨-, mn, h, -⟩ <;> exact ⟨mn, h⟩
  obtain ⟨mn, hmin⟩ := hmin
  rw [hmin, additional_isSome hv] at ht
  have hr := root_holds hn hs hv
  obtain ⟨a1, a2⟩ := min_least p1 hmin
  exact ⟨_, mn, _, ht, (hr mn).1 a1, fun x hx => a2 x ((hr x).2 hx)⟩

theorem abs128_ok {v : Int} (h : fits128 v.natAbs) : abs128 v = .ok (v.natAbs : Int) := by
  unfold abs128 checked128; exact if_pos h

/-- What is generated for a constraint with given value set. -/
theorem baseTy_of {env : Text → Option Int} {cs : List Constraint} {c : Constraint} {vs : ValueSet}
    (hv : c.valueset env = .ok vs) {mn mx : Int} (h1 : vs.root.min = some mn)
    (h2 : vs.root.max = some mx) :
    (0 ≤ mn → baseTy env (integerType (c :: cs)) = .ok (some (.integer
      (innerWidth (roundBits (bitLen128 mx)) false) (some mn) (some mx) vs.additional.isSome))) ∧
    (mn < 0 → fits128 mx.natAbs → fits128 mn.natAbs →
      baseTy env (integerType (c :: cs)) = .ok (some (.integer
        (innerWidth (roundBits (max (bitLen mn.natAbs) (bitLen mx.natAbs))) true)
        (some mn) (some mx) vs.additional.isSome))) := by
  have hpos : ∀ z : Nat, bitLen128 (z : Int) = bitLen z := by
    intro z; unfold bitLen128; rw [if_neg (by omega)]; simp
  constructor
  · intro hp
    simp [baseTy, resolveBase, resolveInteger, integerType, AsnType.valueset, hv, Out.bind,
      integerOfValueset, h1, h2, show ¬ mn < 0 by omega, RBase.attrs, boundsOf, extensibleOf]
  · intro hp f1 f2
    have c1 := abs128_ok f1
    have c2 := abs128_ok f2
    have hw : (Out.bind (abs128 mx) fun a => Out.bind (abs128 mn) fun b =>
        Out.ok (Max.max (bitLen128 b) (bitLen128 a))) =
        (Out.ok (max (bitLen mn.natAbs) (bitLen mx.natAbs)) : Out Err Nat) := by
      rw [c1, c2]; simp only [Out.bind, hpos]
    have hI : integerOfValueset vs = .ok (.integer
        (roundBits (max (bitLen mn.natAbs) (bitLen mx.natAbs))) true (some vs)) := by
      unfold integerOfValueset
      rw [h1, h2]
      simp only [hp, decide_true, if_true]
      rw [hw]
      rfl
    have hR : resolveBase env (integerType (c :: cs)) = .ok (.integer
        (roundBits (max (bitLen mn.natAbs) (bitLen mx.natAbs))) true (some vs)) := by
      show Out.bind (c.valueset env) integerOfValueset = _
      rw [hv]
      exact hI
    unfold baseTy
    rw [hR]
    simp only [Out.bind, RBase.attrs, boundsOf, extensibleOf, h1, h2]

/-- **C56 (violated).** In `INTEGER (a | b..c)` with `0 ≤ a < b ≤ c` the upper bound used is `a`, so
that every permitted value but `a` is refused by the encoder of the generated type. -/
theorem C56_mixture_violated {ns : Names} (hn : ns.Proper) {a b c : Int} (h0 : 0 ≤ a) (h1 : a < b)
    (h2 : b ≤ c) (hc : fits128 (c + 1)) :
    ∃ w, baseTy ns.int (integerOf [[exactly a], [between b c]]) =
        .ok (some (.integer w (some a) (some a) false)) ∧
      ∀ x, b ≤ x → x ≤ c →
        Permits ns (.mk [[exactly a], [between b c]] none) x ∧
        ∀ s, ∃ s', (Ty.integer w (some a) (some a) false).encode x s = .err s' := by
  unfold fits128 at hc
  have e1 := exactly_values ns.int (a := a) ⟨by omega, by omega⟩
  have e2 := between_values ns.int (a := b) (b := c) ⟨by omega, by omega⟩ ⟨by omega, by omega⟩
    ⟨by omega, by omega⟩
  have hv : (Constraint.subtype (.mk [[exactly a], [between b c]] none)).valueset ns.int =
      .ok ⟨{ ranges := [(b, c + 1)], values := [a] }, none⟩ := by
    simp [Constraint.valueset, ElementSet.valueset, unionValues, interValues, Out.bind, e1, e2,
      intersectStep, ConstraintValues.isEmpty, ConstraintValues.append]
  have hmin : (ConstraintValues.mk [(b, c + 1)] [a]).min = some a := by
    simp [ConstraintValues.min, minOf]; omega
  have hmax : (ConstraintValues.mk [(b, c + 1)] [a]).max = some a := by
    simp [ConstraintValues.max, maxOf]; omega
  refine ⟨_, (baseTy_of (cs := []) hv hmin hmax).1 h0, ?_⟩
  intro x hx1 hx2
  refine ⟨?_, ?_⟩
  · simp only [Permits, SomePermits, EveryElement, between_permits hn, exactly_permits hn, and_true,
      or_false]
    omega
  · intro s
    obtain ⟨w, -, h⟩ := C03_out_of_bounds_refused a a x false s (Or.inr (by omega))
    exact ⟨_, h⟩

/-- **C56 (violated).** Serial constraints intersect, but only the first one is used: nothing in the
others has any effect on the generated type. -/
theorem C56_serial_violated (env : Text → Option Int) (c : Constraint) (cs : List Constraint) :
    baseTy env (integerType (c :: cs)) = baseTy env (integerType [c]) := rfl

/-- **C56 (violated).** For instance in `INTEGER (a..d)(b..c)` the bounds are `a` and `d`, which are
not permitted. -/
theorem C56_serial_bounds_violated {ns : Names} (hn : ns.Proper) {a b c d : Int} (h0 : 0 ≤ a)
    (h1 : a < b) (h2 : b ≤ c) (h3 : c < d) (hd : fits128 (d + 1)) :
    (∃ w, baseTy ns.int (integerType [.subtype (.mk [[between a d]] none),
        .subtype (.mk [[between b c]] none)]) = .ok (some (.integer w (some a) (some d) false))) ∧
      ∀ x, TypePermits ns (integerType [.subtype (.mk [[between a d]] none),
        .subtype (.mk [[between b c]] none)]) x ↔ b ≤ x ∧ x ≤ c := by
  unfold fits128 at hd
  have e2 := between_values ns.int (a := a) (b := d) ⟨by omega, by omega⟩ ⟨by omega, by omega⟩
    ⟨by omega, by omega⟩
  have hv : (Constraint.subtype (.mk [[between a d]] none)).valueset ns.int =
      .ok ⟨{ ranges := [(a, d + 1)] }, none⟩ := by
    simp [Constraint.valueset, ElementSet.valueset, unionValues, interValues, Out.bind, e2,
      intersectStep, ConstraintValues.isEmpty, ConstraintValues.append]
  have hmin : (ConstraintValues.mk [(a, d + 1)] []).min = some a := by
    simp [ConstraintValues.min, minOf]
  have hmax : (ConstraintValues.mk [(a, d + 1)] []).max = some d := by
    simp [ConstraintValues.max, maxOf]
  refine ⟨⟨_, (baseTy_of hv hmin hmax).1 h0⟩, ?_⟩
  intro x
  simp only [integerType, TypePermits, AllPermit, ConstraintPermits, Permits, SomePermits,
    EveryElement, between_permits hn, and_true, or_false]
  omega

/-! ## C57: the Rust integer type -/

theorem innerWidth_fits_unsigned {k : Nat} (hk : k ≤ 64) {x : Int} (h0 : 0 ≤ x) (hx : x < 2 ^ k) :
    (innerWidth (roundBits k) false).Fits x := by
  obtain ⟨h1, h2, -, -⟩ := innerWidth_roundBits k false
  unfold Width.Fits
  rw [h1]
  refine ⟨h0, ?_⟩
  have : (2 : Int) ^ k ≤ 2 ^ (innerWidth (roundBits k) false).bits := by
    exact_mod_cast Nat.pow_le_pow_right (by decide) (h2 hk)
  omega

/-- **C57 (part).** For a union of single values, or a union of ranges, of numbers from 0 to 2^64 - 1,
the chosen Rust type is unsigned, holds every permitted value, and no smaller one does. Missing: the
cases of `C57_large_violated`, `C57_signed_violated` and `C57_extension_violated`. -/
theorem C57_unsigned_partial {ns : Names} (hn : ns.Proper) {root : List (List Elements)}
    {add : Option (List (List Elements))} (hk : AllSingles root ∨ AllRanges root)
    (hi : Inhabited ns root) (hb : ∀ x, Permits ns (.mk root add) x → 0 ≤ x ∧ x < 2 ^ 64) {t : Ty}
    (h : baseTy ns.int (integerType [.subtype (.mk root add)]) = .ok (some t)) :
    ∃ w lb ub ext, t = .integer w lb ub ext ∧ w.signed = false ∧
      (∀ x, Permits ns (.mk root add) x → w.Fits x) ∧
      ∀ w' : Width, (∀ x, Permits ns (.mk root add) x → w'.Fits x) → w.bits ≤ w'.bits := by
  obtain ⟨w, lb, ub, ht, hlb, hub, hx⟩ := C56_bounds_partial hn hk hi h
  obtain ⟨vs, mx, k, sg, hv, hmax, ht', hc⟩ := baseTy_integer h
  rw [ht] at ht'
  injection ht' with e1 e2 e3 e4
  rcases hc with ⟨hsg, -, hk'⟩ | ⟨-, mn, hmn, hneg, -⟩
  · subst hsg
    have hmu : mx = ub := by rw [hmax] at e3; injection e3 with e3; exact e3.symm
    subst hmu
    obtain ⟨u1, u2⟩ := hb mx hub
    have hbl : bitLen128 mx = bitLen mx.toNat := by unfold bitLen128; rw [if_neg (by omega)]
    have hk64 : k ≤ 64 := by rw [hk', hbl, bitLen_le]; omega
    have hlt : ∀ x, Permits ns (.mk root add) x → x < 2 ^ k := by
      intro x hx'
      have h1 := (hx x hx').2
      have h2 : mx.toNat < 2 ^ k := by rw [← bitLen_le, hk', hbl]; exact Nat.le_refl _
      have : ((2 ^ k : Nat) : Int) = 2 ^ k := by push_cast; rfl
      omega
    refine ⟨w, _, _, _, ht, ?_, ?_, ?_⟩
    · rw [e1]; exact (innerWidth_roundBits k false).1
    · intro x hx'
      rw [e1]
      exact innerWidth_fits_unsigned hk64 (hb x hx').1 (hlt x hx')
    · intro w' hw'
      rw [e1]
      refine (innerWidth_roundBits k false).2.2.2 w'.bits (by cases w' <;> simp [Width.bits]) ?_
      rw [hk', hbl, bitLen_le]
      have := hw' mx hub
      unfold Width.Fits at this
      have e : ((2 ^ w'.bits : Nat) : Int) = 2 ^ w'.bits := by push_cast; rfl
      split at this
      · have : (2 : Int) ^ (w'.bits - 1) ≤ 2 ^ w'.bits := by
          exact_mod_cast Nat.pow_le_pow_right (by decide) (Nat.sub_le _ _)
        omega
      · omega
  · rw [hmn] at e2
    injection e2 with e2
    have := (hb lb hlb).1
    omega

/-- **C57 (part).** For a union of single values, or a union of ranges, with a negative value and all
values below 2^64 in size, the chosen Rust type is signed and its number of bits `K` is the least of 8,
16, 32, 64 with all values below 2^K in size. It holds every permitted value if that is also true of
2^(K-1), except that -2^(K-1) may be permitted. Missing: the type needed otherwise is larger than the
one chosen, see `C57_signed_violated`. -/
theorem C57_signed_partial {ns : Names} (hn : ns.Proper) {root : List (List Elements)}
    {add : Option (List (List Elements))} (hk : AllSingles root ∨ AllRanges root)
    (hi : Inhabited ns root) (hneg : ∃ x, Permits ns (.mk root add) x ∧ x < 0)
    (hb : ∀ x, Permits ns (.mk root add) x → x.natAbs < 2 ^ 64) {t : Ty}
    (h : baseTy ns.int (integerType [.subtype (.mk root add)]) = .ok (some t)) :
    ∃ w lb ub ext, t = .integer w lb ub ext ∧ w.signed = true ∧
      (∀ x, Permits ns (.mk root add) x → x.natAbs < 2 ^ w.bits) ∧
      (∀ K ∈ [8, 16, 32, 64], (∀ x, Permits ns (.mk root add) x → x.natAbs < 2 ^ K) → w.bits ≤ K) ∧
      ((∀ x, Permits ns (.mk root add) x → -(2 ^ (w.bits - 1)) ≤ x ∧ x < 2 ^ (w.bits - 1)) →
        ∀ x, Permits ns (.mk root add) x → w.Fits x) := by
  obtain ⟨w, lb, ub, ht, hlb, hub, hx⟩ := C56_bounds_partial hn hk hi h
  obtain ⟨vs, mx, k, sg, hv, hmax, ht', hc⟩ := baseTy_integer h
  rw [ht] at ht'
  injection ht' with e1 e2 e3 e4
  obtain ⟨n, hn1, hn2⟩ := hneg
  rcases hc with ⟨-, ⟨mn, hmn, hpos⟩, -⟩ | ⟨hsg, mn, hmn, hneg, -, -, hk'⟩
  · rw [hmn] at e2
    injection e2 with e2
    have := (hx n hn1).1
    omega
  · subst hsg
    have hmu : mx = ub := by rw [hmax] at e3; injection e3 with e3; exact e3.symm
    have hml : mn = lb := by rw [hmn] at e2; injection e2 with e2; exact e2.symm
    subst hmu; subst hml
    obtain ⟨i1, i2, i3, i4⟩ := innerWidth_roundBits k true
    have hmax' : ∀ K, (mn.natAbs < 2 ^ K ∧ mx.natAbs < 2 ^ K) ↔ k ≤ K := by
      intro K
      rw [hk', Nat.max_le, bitLen_le, bitLen_le]
    refine ⟨w, _, _, _, ht, by rw [e1]; exact i1, ?_, ?_, ?_⟩
    · intro x hx'
      have := (hmax' w.bits).2 (by rw [e1]; exact i2 ((hmax' 64).1 ⟨hb _ hlb, hb _ hub⟩))
      have := hx x hx'
      omega
    · intro K hK hall
      rw [e1]
      exact i4 K hK ((hmax' K).1 ⟨hall _ hlb, hall _ hub⟩)
    · intro hall x hx'
      unfold Width.Fits
      rw [show w.signed = true by rw [e1]; exact i1]
      exact hall x hx'

/-- The set of one range. -/
theorem range_valueset {ns : Names} {a b : Int} (h : a ≤ b) (ha : fits128 a)
    (hb : fits128 (b + 1)) :
    (Constraint.subtype (.mk [[between a b]] none)).valueset ns.int =
        .ok ⟨{ ranges := [(a, b + 1)] }, none⟩ ∧
      (ConstraintValues.mk [(a, b + 1)] []).min = some a ∧
      (ConstraintValues.mk [(a, b + 1)] []).max = some b := by
  unfold fits128 at ha hb
  have e2 := between_values ns.int (a := a) (b := b) ⟨by omega, by omega⟩ ⟨by omega, by omega⟩
    ⟨by omega, by omega⟩
  refine ⟨?_, by simp [ConstraintValues.min, minOf], by simp [ConstraintValues.max, maxOf]⟩
  simp [Constraint.valueset, ElementSet.valueset, unionValues, interValues, Out.bind, e2,
      intersectStep, ConstraintValues.isEmpty, ConstraintValues.append]

/-- **C57 (violated).** For `K` = 8, 16, 32 or 64, `INTEGER (-a..b)` with `0 < a < 2^K` and
`2^(K-1) ≤ b < 2^K` (such as `-1..200`) the generated type has at most `K` bits and is signed, so that it
does not hold `b`. -/
theorem C57_signed_violated {ns : Names} (hn : ns.Proper) {K : Nat} (hK : K ∈ [8, 16, 32, 64])
    {a b : Int} (h1 : 0 < a) (h2 : a < 2 ^ K) (h3 : 2 ^ (K - 1) ≤ b) (h4 : b < 2 ^ K) :
    ∃ w, baseTy ns.int (integerOf [[between (-a) b]]) =
        .ok (some (.integer w (some (-a)) (some b) false)) ∧
      Permits ns (.mk [[between (-a) b]] none) b ∧ ¬ w.Fits b := by
  have hK64 : (2 : Int) ^ K ≤ 2 ^ 64 := by
    have : K ≤ 64 := by simp at hK; omega
    exact_mod_cast Nat.pow_le_pow_right (by decide) this
  have hpos : (0 : Int) < 2 ^ (K - 1) := by exact_mod_cast Nat.pow_pos (by decide)
  obtain ⟨e1, e2, e3⟩ := range_valueset (ns := ns) (a := -a) (b := b) (by omega)
    ⟨by omega, by omega⟩ ⟨by omega, by omega⟩
  refine ⟨_, (baseTy_of (cs := []) e1 e2 e3).2 (by omega) ⟨by omega, by omega⟩ ⟨by omega, by omega⟩, ?_, ?_⟩
  · simp only [Permits, SomePermits, EveryElement, between_permits hn, and_true, or_false]
    omega
  · have hle : max (bitLen (-a).natAbs) (bitLen b.natAbs) ≤ K := by
      rw [Nat.max_le, bitLen_le, bitLen_le]
      have e : ((2 ^ K : Nat) : Int) = 2 ^ K := by push_cast; rfl
      omega
    obtain ⟨i1, i2, i3, i4⟩ :=
      innerWidth_roundBits (max (bitLen (-a).natAbs) (bitLen b.natAbs)) true
    have := i4 K hK hle
    unfold Width.Fits
    rw [i1]
    simp only [if_true]
    have hp : (2 : Int) ^ ((innerWidth (roundBits (max (bitLen (-a).natAbs) (bitLen b.natAbs))) true).bits - 1)
        ≤ 2 ^ (K - 1) := by
      exact_mod_cast Nat.pow_le_pow_right (by decide) (Nat.sub_le_sub_right this 1)
    omega

/-- **C57 (violated).** No Rust type for more than 64 bits is ever chosen: `INTEGER (a..b)` with
`0 ≤ a` and `2^64 ≤ b` is given a `u64`, which does not hold `b`. -/
theorem C57_large_violated {ns : Names} (hn : ns.Proper) {a b : Int} (h1 : 0 ≤ a) (h2 : a ≤ b)
    (h3 : 2 ^ 64 ≤ b) (h4 : fits128 (b + 1)) :
    baseTy ns.int (integerOf [[between a b]]) =
        .ok (some (.integer .u64 (some a) (some b) false)) ∧
      Permits ns (.mk [[between a b]] none) b ∧ ¬ Width.u64.Fits b := by
  unfold fits128 at h4
  obtain ⟨e1, e2, e3⟩ := range_valueset (ns := ns) (a := a) (b := b) h2
    ⟨by omega, by omega⟩ h4
  have hbits : ¬ bitLen128 b ≤ 64 := by
    unfold bitLen128
    rw [if_neg (by omega), bitLen_le]
    omega
  refine ⟨?_, ?_, ?_⟩
  · have := (baseTy_of (cs := []) e1 e2 e3).1 h1
    rcases roundBits_cases (bitLen128 b) with ⟨h, -⟩ | ⟨-, h, -⟩ | ⟨-, h, -⟩ | ⟨-, h, -⟩ | ⟨-, h⟩
    all_goals first | omega | skip
    rw [h] at this
    exact this
  · simp only [Permits, SomePermits, EveryElement, between_permits hn, and_true, or_false]
    omega
  · unfold Width.Fits
    simp only [Width.signed, Width.bits, Bool.false_eq_true, if_false]
    omega

/-- **C57 (violated).** The values after the extension marker are not taken into account: in
`INTEGER (a..b, ..., c..d)` with `0 ≤ a ≤ b < 256 ≤ d` the type is a `u8`, which does not hold `d`. -/
theorem C57_extension_violated {ns : Names} (hn : ns.Proper) {a b c d : Int} (h0 : 0 ≤ a) (h1 : a ≤ b)
    (h2 : b < 256) (h3 : 256 ≤ d) (h4 : c ≤ d) (hc : fits128 c) (hd : fits128 (d + 1)) :
    baseTy ns.int (integerType [.subtype (.mk [[between a b]] (some [[between c d]]))]) =
        .ok (some (.integer .u8 (some a) (some b) true)) ∧
      PermitsExtension ns (.mk [[between a b]] (some [[between c d]])) d ∧ ¬ Width.u8.Fits d := by
  unfold fits128 at hd hc
  have e1 := between_values ns.int (a := a) (b := b) ⟨by omega, by omega⟩ ⟨by omega, by omega⟩
    ⟨by omega, by omega⟩
  have e2 := between_values ns.int (a := c) (b := d) ⟨by omega, by omega⟩ ⟨by omega, by omega⟩
    ⟨by omega, by omega⟩
  have hv : (Constraint.subtype (.mk [[between a b]] (some [[between c d]]))).valueset ns.int =
      .ok ⟨{ ranges := [(a, b + 1)] }, some { ranges := [(c, d + 1)] }⟩ := by
    simp [Constraint.valueset, ElementSet.valueset, unionValues, interValues, Out.bind, e1, e2,
      intersectStep, ConstraintValues.isEmpty, ConstraintValues.append]
  have hmin : (ConstraintValues.mk [(a, b + 1)] []).min = some a := by
    simp [ConstraintValues.min, minOf]
  have hmax : (ConstraintValues.mk [(a, b + 1)] []).max = some b := by
    simp [ConstraintValues.max, maxOf]
  have hb8 : roundBits (bitLen128 b) = 8 := by
    unfold roundBits
    rw [if_pos]
    unfold bitLen128
    rw [if_neg (by omega), bitLen_le]
    omega
  refine ⟨?_, ?_, by unfold Width.Fits; simp only [Width.signed, Width.bits, Bool.false_eq_true, if_false]; omega⟩
  · have := (baseTy_of (cs := []) hv hmin hmax).1 h0
    rw [hb8] at this
    exact this
  · simp only [PermitsExtension, SomePermits, EveryElement, between_permits hn, and_true, or_false]
    omega

example : ∃ w, baseTy exampleNames.int (integerOf [[between (-1) 200]]) =
    .ok (some (.integer w (some (-1)) (some 200) false)) ∧
    Permits exampleNames (.mk [[between (-1) 200]] none) 200 ∧ ¬ w.Fits 200 :=
  C57_signed_violated exampleNames_proper (K := 8) (a := 1) (by decide) (by decide) (by decide)
    (by decide) (by decide)

/-- The hypotheses of the partial theorems are met by `(3..9 | 20..300, ...)` and `(-7 | 4)`. -/
def exampleRoot : List (List Elements) := [[between 3 9], [between 20 300]]

theorem exampleRoot_ok : AllRanges exampleRoot ∧ Inhabited exampleNames exampleRoot ∧
    ∀ x, Permits exampleNames (.mk exampleRoot (some [])) x → 0 ≤ x ∧ x < 2 ^ 64 := by
  refine ⟨?_, ?_, ?_⟩
  · intro i hi
    simp only [exampleRoot, List.mem_cons, List.not_mem_nil, or_false] at hi
    rcases hi with rfl | rfl <;> exact ⟨_, _, _, _, rfl⟩
  · intro i hi
    simp only [exampleRoot, List.mem_cons, List.not_mem_nil, or_false] at hi
    rcases hi with rfl | rfl
    · exact ⟨5, (between_permits exampleNames_proper 3 9 5).2 (by decide), trivial⟩
    · exact ⟨25, (between_permits exampleNames_proper 20 300 25).2 (by decide), trivial⟩
  · intro x
    simp only [exampleRoot, Permits, SomePermits, EveryElement, between_permits exampleNames_proper,
      and_true, or_false]
    omega

theorem exampleRoot_ty : baseTy exampleNames.int
    (integerType [.subtype (.mk exampleRoot (some []))]) =
      .ok (some (.integer .u16 (some 3) (some 300) true)) := by
  have e1 := between_values exampleNames.int (a := 3) (b := 9) (by decide) (by decide) (by decide)
  have e2 := between_values exampleNames.int (a := 20) (b := 300) (by decide) (by decide) (by decide)
  have hv : (Constraint.subtype (.mk exampleRoot (some []))).valueset exampleNames.int =
      .ok ⟨{ ranges := [(3, 10), (20, 301)] }, some {}⟩ := by
    simp [exampleRoot, Constraint.valueset, ElementSet.valueset, unionValues, interValues, Out.bind, e1,
      e2, intersectStep, ConstraintValues.isEmpty, ConstraintValues.append]
  exact (baseTy_of (cs := []) hv (mn := 3) (mx := 300) (by decide) (by decide)).1 (by decide)

example : ∃ w lb ub ext, Ty.integer .u16 (some 3) (some 300) true = .integer w lb ub ext ∧
    w.signed = false ∧ (∀ x, Permits exampleNames (.mk exampleRoot (some [])) x → w.Fits x) ∧
    ∀ w' : Width, (∀ x, Permits exampleNames (.mk exampleRoot (some [])) x → w'.Fits x) →
      w.bits ≤ w'.bits :=
  C57_unsigned_partial exampleNames_proper (Or.inr exampleRoot_ok.1) exampleRoot_ok.2.1
    exampleRoot_ok.2.2 exampleRoot_ty

example : ∃ t, baseTy exampleNames.int (integerOf [[exactly (-7)], [exactly 4]]) = .ok (some t) := by
  have e1 := exactly_values exampleNames.int (a := -7) (by decide)
  have e2 := exactly_values exampleNames.int (a := 4) (by decide)
  have hv : (Constraint.subtype (.mk [[exactly (-7)], [exactly 4]] none)).valueset exampleNames.int =
      .ok ⟨{ values := [-7, 4] }, none⟩ := by
    simp [Constraint.valueset, ElementSet.valueset, unionValues, interValues, Out.bind, e1, e2,
      intersectStep, ConstraintValues.isEmpty, ConstraintValues.append]
  exact ⟨_, (baseTy_of (cs := []) hv (mn := -7) (mx := 4) (by decide) (by decide)).2 (by decide)
    (by decide) (by decide)⟩

/-! ## C69: sizes -/

/-- `SIZE (..)`. -/
def sizeConstraint (e : ElementSet) : Constraint := .subtype (.mk [[.size e]] none)

/-- The bounds of the one constraint `(SIZE (..))`, where the size is a union of single values or a union of ranges,
none of them empty. -/
theorem size_bounds {ns : Names} (hn : ns.Proper) {root : List (List Elements)}
    {add : Option (List (List Elements))} (hne : root ≠ []) (hk : AllSingles root ∨ AllRanges root)
    (hi : Inhabited ns root) {vs : ValueSet}
    (hv : (sizeConstraint (.mk root add)).sizeValueset ns.int = .ok vs) :
    ∃ lb ub, boundsOf (some vs) = (some lb, some ub) ∧ extensibleOf (some vs) = add.isSome ∧
      Permits ns (.mk root add) lb ∧ Permits ns (.mk root add) ub ∧
      ∀ x, Permits ns (.mk root add) x → lb ≤ x ∧ x ≤ ub := by
  have hs : SimpleUnion root := by
    rcases hk with hk | hk
    · exact fun i hi => Or.inl (hk i hi)
    · exact fun i hi => Or.inr (hk i hi)
  simp only [sizeConstraint, Constraint.sizeValueset] at hv
  have hr := root_holds hn hs hv
  obtain ⟨p1, p2, p3⟩ := simple_values hn root hs hi (root_values hv)
  obtain ⟨x0, hx0⟩ : ∃ x, Holds vs.root x := by
    cases root with
    | nil => exact absurd rfl hne
    | cons i is =>
      obtain ⟨x, hx⟩ := hi i (by simp)
      exact ⟨x, (hr x).2 (by simp only [Permits, SomePermits]; exact Or.inl hx)⟩
  cases hmin : vs.root.min with
  | none =>
    obtain ⟨a, b⟩ := min_none hmin
    simp [Holds, a, b] at hx0
  | some mn =>
    cases hmax : vs.root.max with
    | none =>
      obtain ⟨a, b⟩ := max_none hmax
      simp [Holds, a, b] at hx0
    | some mx =>
      obtain ⟨a1, a2⟩ := min_least p1 hmin
      obtain ⟨b1, b2⟩ := max_greatest p1 (hk.symm.imp p3 p2) hmax
      refine ⟨mn, mx, by simp only [boundsOf, hmin, hmax], by simp only [extensibleOf]; rw [additional_isSome hv],
        (hr mn).1 a1, (hr mx).1 b1, fun x hx => ⟨a2 x ((hr x).2 hx), b2 x ((hr x).2 hx)⟩⟩

/-- **C69 (part).** For an OCTET STRING with the one constraint `(SIZE (..))`, where the size is a union
of single values or a union of ranges, none of them empty, the bounds used are the least and the
greatest permitted length, and the type is extensible exactly when there is a marker inside SIZE.
Missing: any other way of writing a size constraint, see below. -/
theorem C69_octets_partial {ns : Names} (hn : ns.Proper) {root : List (List Elements)}
    {add : Option (List (List Elements))} (hne : root ≠ []) (hk : AllSingles root ∨ AllRanges root)
    (hi : Inhabited ns root) {t : Ty}
    (h : baseTy ns.int (.mk .octetString (some [sizeConstraint (.mk root add)])) = .ok (some t)) :
    ∃ lb ub, t = .octetstring (some lb) (some ub) add.isSome ∧
      Permits ns (.mk root add) lb ∧ Permits ns (.mk root add) ub ∧
      ∀ x, Permits ns (.mk root add) x → lb ≤ x ∧ x ≤ ub := by
  have hsz : (sizeConstraint (.mk root add)).isSize = true := rfl
  simp only [baseTy, resolveBase, lenientSize, hsz, if_true, Out.bind_ok] at h
  obtain ⟨b, ⟨sz, ⟨vs, hv, h1⟩, h2⟩, h3⟩ := h
  injection h1 with h1; subst h1
  injection h2 with h2; subst h2
  obtain ⟨lb, ub, hb, he, hp⟩ := size_bounds hn hne hk hi hv
  simp only [RBase.attrs, hb, he, Out.ok.injEq, Option.some.injEq] at h3
  exact ⟨lb, ub, h3.symm, hp⟩

/-- **C69 (part).** The same for a BIT STRING, with or without named bits. -/
theorem C69_bits_partial {ns : Names} (hn : ns.Proper) {root : List (List Elements)}
    {add : Option (List (List Elements))} (hne : root ≠ []) (hk : AllSingles root ∨ AllRanges root)
    (hi : Inhabited ns root) {named : Option (List (Text × NamedValue))} {t : Ty}
    (h : baseTy ns.int (.mk (.bitString named) (some [sizeConstraint (.mk root add)])) = .ok (some t)) :
    ∃ lb ub, t = .bitstring (some lb) (some ub) add.isSome ∧
      Permits ns (.mk root add) lb ∧ Permits ns (.mk root add) ub ∧
      ∀ x, Permits ns (.mk root add) x → lb ≤ x ∧ x ≤ ub := by
  have hsz : (sizeConstraint (.mk root add)).isSize = true := rfl
  simp only [baseTy, resolveBase, lenientSize, hsz, if_true, Out.bind_ok] at h
  obtain ⟨b, ⟨sz, ⟨vs, hv, h1⟩, nb, -, h2⟩, h3⟩ := h
  injection h1 with h1; subst h1
  injection h2 with h2; subst h2
  obtain ⟨lb, ub, hb, he, hp⟩ := size_bounds hn hne hk hi hv
  simp only [RBase.attrs, hb, he, Out.ok.injEq, Option.some.injEq] at h3
  exact ⟨lb, ub, h3.symm, hp⟩

/-- **C69 (part).** The same for a character string of the types the derive macro knows: the type of string is kept
as well. -/
theorem C69_characters_partial {ns : Names} (hn : ns.Proper) {root : List (List Elements)}
    {add : Option (List (List Elements))} (hne : root ≠ []) (hk : AllSingles root ∨ AllRanges root)
    (hi : Inhabited ns root) {st : Text} {t : Ty}
    (h : baseTy ns.int (.mk (.characterString st) (some [sizeConstraint (.mk root add)])) = .ok (some t)) :
    ∃ kind lb ub, charKindOf st = some kind ∧ t = .charstring kind (some lb) (some ub) add.isSome ∧
      Permits ns (.mk root add) lb ∧ Permits ns (.mk root add) ub ∧
      ∀ x, Permits ns (.mk root add) x → lb ≤ x ∧ x ≤ ub := by
  have hsz : (sizeConstraint (.mk root add)).isSize = true := rfl
  simp only [baseTy, resolveBase, strictSize, hsz, if_true, Out.bind_ok] at h
  obtain ⟨b, ⟨sz, ⟨vs, hv, h1⟩, h2⟩, h3⟩ := h
  injection h1 with h1; subst h1
  injection h2 with h2; subst h2
  obtain ⟨lb, ub, hb, he, hp⟩ := size_bounds hn hne hk hi hv
  simp only [RBase.attrs, hb, he, Out.ok.injEq, Option.map_eq_some_iff] at h3
  obtain ⟨kind, hkind, e⟩ := h3
  exact ⟨kind, lb, ub, hkind, e.symm, hp⟩

/-- What is generated for a string with the size constraint `a..b`. -/
theorem octets_between {ns : Names} {a b : Int} (h : a ≤ b) (ha : fits128 a) (hb : fits128 (b + 1))
    (more : List Elements) (add : Option (List (List Elements))) (cs : List Constraint) :
    baseTy ns.int (.mk .octetString
        (some (.subtype (.mk [.size (.mk [[between a b]] none) :: more] add) :: cs))) =
      .ok (some (.octetstring (some a) (some b) false)) := by
  obtain ⟨e1, e2, e3⟩ := range_valueset (ns := ns) h ha hb
  simp only [Constraint.valueset] at e1
  simp [baseTy, resolveBase, lenientSize, Constraint.isSize, Constraint.sizeValueset, Out.bind, e1,
    RBase.attrs, boundsOf, extensibleOf, e2, e3]

/-- **C69 (violated).** The extension marker of `OCTET STRING (SIZE (a..b), ...)` is dropped: the
generated type is not extensible, so that its encodings lack the extension bit. -/
theorem C69_outer_marker_violated {ns : Names} {a b : Int} (h : a ≤ b) (ha : fits128 a)
    (hb : fits128 (b + 1)) (add : List (List Elements)) :
    baseTy ns.int (.mk .octetString
        (some [.subtype (.mk [[.size (.mk [[between a b]] none)]] (some add))])) =
      .ok (some (.octetstring (some a) (some b) false)) :=
  octets_between h ha hb [] (some add) []

/-- **C69 (violated).** In `OCTET STRING (SIZE (a..b) ^ ...)` what follows is dropped, whatever it is,
and so are further constraints. -/
theorem C69_intersection_violated {ns : Names} {a b : Int} (h : a ≤ b) (ha : fits128 a)
    (hb : fits128 (b + 1)) (more : List Elements) (cs : List Constraint) :
    baseTy ns.int (.mk .octetString
        (some (.subtype (.mk [.size (.mk [[between a b]] none) :: more] none) :: cs))) =
      .ok (some (.octetstring (some a) (some b) false)) :=
  octets_between h ha hb more none cs

/-- **C69 (violated).** `OCTET STRING (SIZE (..) | SIZE (..))` is generated without any bound, and a
character string with such a constraint is refused. -/
theorem C69_union_violated (env : Text → Option Int) (e f : ElementSet) (st : Text) :
    baseTy env (.mk .octetString (some [.subtype (.mk [[.size e], [.size f]] none)])) =
        .ok (some (.octetstring none none false)) ∧
      baseTy env (.mk (.characterString st) (some [.subtype (.mk [[.size e], [.size f]] none)])) =
        .err .constraint := ⟨rfl, rfl⟩

example : ∃ lb ub, Ty.octetstring (some 3) (some 300) true = .octetstring (some lb) (some ub) true ∧
    Permits exampleNames (.mk exampleRoot (some [])) lb := by
  have e1 := between_values exampleNames.int (a := 3) (b := 9) (by decide) (by decide) (by decide)
  have e2 := between_values exampleNames.int (a := 20) (b := 300) (by decide) (by decide) (by decide)
  obtain ⟨lb, ub, h1, h2, -⟩ := C69_octets_partial exampleNames_proper (root := exampleRoot)
    (add := some []) (by simp [exampleRoot]) (Or.inr exampleRoot_ok.1) exampleRoot_ok.2.1
    (t := .octetstring (some 3) (some 300) true) (by
      simp [baseTy, resolveBase, lenientSize, sizeConstraint, Constraint.isSize,
        Constraint.sizeValueset, exampleRoot, ElementSet.valueset, unionValues, interValues, Out.bind, e1,
        e2, intersectStep, ConstraintValues.isEmpty, ConstraintValues.append, RBase.attrs, boundsOf,
        extensibleOf]
      decide)
  exact ⟨lb, ub, h1, h2⟩

/-- `BIT STRING { urgent (0) } (SIZE (3..9 | 20..300, ...))` and the same size on a VisibleString. -/
example : (∃ lb ub, Ty.bitstring (some 3) (some 300) true = .bitstring (some lb) (some ub) true ∧
      Permits exampleNames (.mk exampleRoot (some [])) lb) ∧
    ∃ kind lb ub, charKindOf "VisibleString".toList = some kind ∧
      Ty.charstring .visible (some 3) (some 300) true = .charstring kind (some lb) (some ub) true ∧
      Permits exampleNames (.mk exampleRoot (some [])) lb := by
  have e1 := between_values exampleNames.int (a := 3) (b := 9) (by decide) (by decide) (by decide)
  have e2 := between_values exampleNames.int (a := 20) (b := 300) (by decide) (by decide) (by decide)
  have e3 : resolveNamedBits [("urgent".toList, .number "0".toList)] = .ok [("urgent".toList, 0)] := rfl
  refine ⟨?_, ?_⟩
  · obtain ⟨lb, ub, h1, h2, -⟩ := C69_bits_partial exampleNames_proper (root := exampleRoot)
      (add := some []) (by simp [exampleRoot]) (Or.inr exampleRoot_ok.1) exampleRoot_ok.2.1
      (named := some [("urgent".toList, .number "0".toList)]) (t := .bitstring (some 3) (some 300) true) (by
        simp [baseTy, resolveBase, lenientSize, sizeConstraint, -String.reduceToList, e3, Constraint.isSize,
          Constraint.sizeValueset, exampleRoot, ElementSet.valueset, unionValues, interValues, Out.bind, e1,
          e2, intersectStep, ConstraintValues.isEmpty, ConstraintValues.append, RBase.attrs, boundsOf,
          extensibleOf]
        decide)
    exact ⟨lb, ub, h1, h2⟩
  · obtain ⟨kind, lb, ub, h0, h1, h2, -⟩ := C69_characters_partial exampleNames_proper (root := exampleRoot)
      (add := some []) (by simp [exampleRoot]) (Or.inr exampleRoot_ok.1) exampleRoot_ok.2.1
      (st := "VisibleString".toList) (t := .charstring .visible (some 3) (some 300) true) (by
        simp [baseTy, resolveBase, strictSize, sizeConstraint, Constraint.isSize,
          Constraint.sizeValueset, exampleRoot, ElementSet.valueset, unionValues, interValues, Out.bind, e1,
          e2, intersectStep, ConstraintValues.isEmpty, ConstraintValues.append, RBase.attrs, boundsOf,
          extensibleOf]
        decide)
    exact ⟨kind, lb, ub, h0, h1, h2⟩

-- C56: the hypotheses are met by (3..9 | 20..300, ...), by (1 | 3..9) and by (0..9)(3..5).
example := C56_bounds_partial exampleNames_proper (Or.inr exampleRoot_ok.1) exampleRoot_ok.2.1 exampleRoot_ty
example := C56_mixture_violated exampleNames_proper (a := 1) (b := 3) (c := 9) (by decide) (by decide) (by decide)
  (by decide)
example := C56_serial_bounds_violated exampleNames_proper (a := 0) (b := 3) (c := 5) (d := 9) (by decide) (by decide)
  (by decide) (by decide) (by decide)
example := C57_large_violated exampleNames_proper (a := 0) (b := 2 ^ 70) (by decide) (by decide) (by decide) (by decide)

end Hampi.Compiler
