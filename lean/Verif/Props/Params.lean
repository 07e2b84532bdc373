import Verif.Props.Parser
/-!
# C93: parameterized types

A parameterized type `P {x, y} ::= ...` is kept as the names of its parameters and the tokens of the type;
`P {A, 5}` is the type that `applyParams` reads from the tokens with the parameters put in.
-/
namespace Hampi.Compiler.Spec

/-- What X.683 says: every token that is the name of a parameter stands for the actual parameter, all at
the same time. -/
def instantiated (names : List Text) (actual : List Text) (ts : Tokens) : Tokens :=
  ts.map fun t => match (names.zip actual).lookup t.text with
    | some a => { t with text := a }
    | none => t

end Hampi.Compiler.Spec

namespace Hampi.Compiler.Props
open _root_.Hampi.Compiler.Spec

/-! ## C93 -/

theorem substitute_ends (names : List Text) : ∀ (actual : List ActualParam) (ts : Tokens),
    (∀ k a, actual[k]? = some a → a.text ∉ names.drop (k + 1)) →
    substitute names actual ts = instantiated names (actual.map ActualParam.text) ts := by
  induction names with
  | nil => intro actual ts _; simp [substitute, instantiated]
  | cons s ss ih =>
    intro actual ts h
    cases actual with
    | nil => simp [substitute, instantiated]
    | cons a as =>
      rw [substitute, ih as _ (fun k b hb => by simpa using h (k + 1) b (by simpa using hb))]
      have h0 : a.text ∉ ss := by simpa using h 0 a rfl
      simp only [instantiated, List.map_map, List.map_cons, List.zip_cons_cons]
      refine List.map_congr_left fun t _ => ?_
      simp only [Function.comp, replaceText, List.lookup_cons]
      by_cases ht : t.text = s
      · rw [if_pos ht, ht, beq_self_eq_true]
        have : (ss.zip (as.map ActualParam.text)).lookup a.text = none := by
          rw [List.lookup_eq_none_iff]
          intro p hp
          have := (List.of_mem_zip hp).1
          cases hb : a.text == p.1 with
          | false => simp [bne, hb]
          | true => rw [← eq_of_beq hb] at this; exact absurd this h0
        simp only [this]
      · have : (t.text == s) = false := by simpa using ht
        simp only [if_neg ht, this]

/-- **C93 (partial).** When no actual parameter has the name of a later parameter, and the tokens of the
type with all parameters replaced at the same time are a way to write the type `ty`, the instance is
`ty`. Missing: actual parameters with the name of a later parameter. -/
theorem C93_instance_partial {names : List Text} {tokens : Tokens} {actual : List ActualParam} {ty : AsnType}
    (hl : names.length = actual.length)
    (hf : ∀ k a, actual[k]? = some a → a.text ∉ names.drop (k + 1))
    (hty : TypeNote ty (instantiated names (actual.map ActualParam.text) tokens)) :
    Ev fun n => applyParams n names tokens actual = .ok ty := by
  have h := type_reads hty [] (by intro t ht; cases ht)
  refine h.imp fun n hn => ?_
  simp only [applyParams, hl, ne_eq, not_true_eq_false, if_false, substitute_ends names actual tokens hf]
  rw [List.append_nil] at hn
  rw [hn]
  rfl

/-- C93: with too few or too many actual parameters there is no instance. -/
theorem C93_count {names : List Text} {actual : List ActualParam} (h : names.length ≠ actual.length)
    (n : Nat) (tokens : Tokens) : applyParams n names tokens actual = .err .parse := by
  simp [applyParams, h]

/-- The instance `P {5}` of `P {INTEGER:max} ::= SEQUENCE { a INTEGER (0..max) }`. -/
example : Ev fun n => applyParams n ["max".toList]
    [kw "SEQUENCE", tk .curlyBegin "{", nm "a", kw "INTEGER", tk .roundBegin "(", tk .numberInt "0",
      tk .rangeSeparator "..", nm "max", tk .roundEnd ")", tk .curlyEnd "}"] [.single "5".toList] =
    .ok (.mk (.sequence [.mk "a".toList (.mk (.integer none)
      (some [.subtype (.mk [[.range "0".toList true "5".toList true]] none)])) false none] [] false) (some [])) := by
  refine C93_instance_partial rfl (fun k a _ => by simp) ?_
  have range : ConstraintNote (.subtype (.mk [[.range "0".toList true "5".toList true]] none))
      [tk .roundBegin "(", tk .numberInt "0", tk .rangeSeparator "..", { nm "max" with text := "5".toList }, tk .roundEnd ")"] :=
    .subtype (.closed (ts := [tk .numberInt "0", tk .rangeSeparator "..", { nm "max" with text := "5".toList }]) rfl
      (.one (.one (.range (ts := [_]) (us := []) (vs := []) (ws := [_]) (.value ⟨rfl, .inr (.inl rfl)⟩) .closed rfl
        .closed (.value ⟨rfl, .inl rfl⟩)))) rfl)
  exact .type (us := []) (.sequence (ts := _) (kw_word _) rfl (.component (by decide) (ts := _) (us := []) (.required (lower "a" ⟨_, _, rfl, rfl⟩)
      (.type (ts := [kw "INTEGER"]) (.simple (.integer (kw_word _))) (.cons (us := []) range .nil))) .done) rfl) .nil

theorem instantiated_two (x y u v : Text) (ts : Tokens) : instantiated [x, y] [u, v] ts =
    ts.map fun t => if t.text = x then { t with text := u } else if t.text = y then { t with text := v } else t := by
  refine List.map_congr_left fun t _ => ?_
  by_cases h1 : t.text = x
  · simp [h1]
  · by_cases h2 : t.text = y
    · have : (y == x) = false := by simpa [h2] using h1
      simp [List.lookup_cons, h2, this]
      intro h
      exact absurd (h2.trans h) h1
    · have e1 : (t.text == x) = false := by simpa using h1
      have e2 : (t.text == y) = false := by simpa using h2
      simp [List.lookup_cons, h1, h2, e1, e2]

/-- **C93 (violated).** Parameters are replaced one after the other, and wherever their names stand:
* the instance `P {Y, Z}` of `P {X, Y} ::= SEQUENCE { a X, b Y }` is `SEQUENCE { a Z, b Z }`, not
  `SEQUENCE { a Y, b Z }`;
* in an instance `P {5}` of `P {INTEGER:x} ::= SEQUENCE { x ...` the component is renamed, and the compiler
  never ends. -/
theorem C93_parameters_violated :
    (∀ {k o a ia x tx c b ib y ty e} (z : Text) (tz : Token), Word "SEQUENCE" k → o.type = .curlyBegin → o.text = ['{'] →
      LowerName a ia → UpperName x tx → c.type = .comma → c.text = [','] → LowerName b ib → UpperName y ty →
      e.type = .curlyEnd → e.text = ['}'] → UpperName z tz → x ≠ y →
      TypeNote (.mk (.sequence [.mk a (.mk (.reference y) (some [])) false none,
        .mk b (.mk (.reference z) (some [])) false none] [] false) (some []))
        (instantiated [x, y] [y, z] [k, o, ia, tx, c, ib, ty, e]) ∧
      Ev fun n => applyParams n [x, y] [k, o, ia, tx, c, ib, ty, e] [.single y, .single z] =
        .ok (.mk (.sequence [.mk a (.mk (.reference z) (some [])) false none,
          .mk b (.mk (.reference z) (some [])) false none] [] false) (some []))) ∧
    (∀ {k o x i v us}, Word "SEQUENCE" k → o.type = .curlyBegin → o.text = ['{'] → LowerName x i →
      (∀ c cs, v = c :: cs → c.isLower = false) → ∀ n,
      applyParams n [x] (k :: o :: i :: us) [.single v] = .diverge) := by
  refine ⟨?_, ?_⟩
  · intro k o a ia x tx c b ib y ty e z tz hk ho hot ha hx hc hct hb hy he het hz hxy
    have ne : ∀ {w t u s}, UpperName w t → LowerName u s → u ≠ w := by
      rintro w t u s ⟨_, _, ⟨c, cs, rfl, hc⟩, _⟩ ⟨_, _, d, ds, rfl, hd⟩ h
      cases h
      rw [upper_not_lower _ hc] at hd
      cases hd
    have nk : ∀ {w t}, UpperName w t → "SEQUENCE".toList ≠ w ∧ ['{'] ≠ w ∧ [','] ≠ w ∧ ['}'] ≠ w := by
      rintro w t ⟨_, _, ⟨c, cs, rfl, hc⟩, h⟩
      refine ⟨fun e => h "SEQUENCE" (by decide) e.symm, ?_, ?_, ?_⟩ <;>
        (intro e; cases e; revert hc; decide)
    have note : ∀ {u v} (p q : Token), UpperName u p → UpperName v q →
        TypeNote (.mk (.sequence [.mk a (.mk (.reference u) (some [])) false none,
        .mk b (.mk (.reference v) (some [])) false none] [] false) (some [])) [k, o, ia, p, c, ib, q, e] := by
      intro u v p q hu hv
      exact .type (us := []) (.sequence (ts := [ia, p, c, ib, q]) hk ho
        (.component (ts := [ia, p]) (us := [c, ib, q]) (by decide)
          (.required ha (.type (ts := [p]) (us := []) (.simple (.reference hu)) .nil))
          (.more hc (.component (ts := [ib, q]) (us := []) (by decide)
            (.required hb (.type (ts := [q]) (us := []) (.simple (.reference hv)) .nil)) .done))) he) .nil
    have hkx : k.text ≠ x := by rw [hk.text]; exact (nk hx).1
    have hky : k.text ≠ y := by rw [hk.text]; exact (nk hy).1
    have ha' := ha.text
    have hb' := hb.text
    have hx' := hx.text
    have hy' := hy.text
    have tok : ∀ {w t u s}, UpperName w t → UpperName u s → UpperName u { t with text := u } := by
      rintro w t u s ⟨h1, _⟩ ⟨_, _, h2, h3⟩
      exact ⟨h1, rfl, h2, h3⟩
    constructor
    · have := note _ _ (tok hx hy) (tok hy hz)
      rw [instantiated_two]
      simpa [hkx, hky, ha', hb', hx', hy', hot, hct, het, ne hx ha, ne hx hb, ne hy ha, ne hy hb,
        nk hx, nk hy, hxy, Ne.symm hxy] using this
    · have h := type_reads (note _ _ (tok hx hz) (tok hy hz)) [] (by intro t ht; cases ht)
      refine h.imp fun n hn => ?_
      have hs : substitute [x, y] [.single y, .single z] [k, o, ia, tx, c, ib, ty, e] =
          [k, o, ia, { tx with text := z }, c, ib, { ty with text := z }, e] := by
        simp [substitute, replaceText, ActualParam.text, hkx, hky, ha', hb', hx', hy', hot, hct, het, ne hx ha, ne hx hb, ne hy ha,
          ne hy hb, nk hx, nk hy, Ne.symm hxy]
      simp only [applyParams, hs]
      simp only [List.length_cons, List.length_nil, ne_eq, not_true_eq_false, if_false]
      rw [List.append_nil] at hn
      rw [hn]
      rfl
  · intro k o x i v us hk ho hot hi hv n
    obtain ⟨d, ds, hd, hdl⟩ := hi.2.2
    have hkx : k.text ≠ x := by
      rw [hk.text, hd]; intro e; cases e; revert hdl; decide
    have hox : o.text ≠ x := by
      rw [hot, hd]; intro e; cases e; revert hdl; decide
    have hix : i.text = x := hi.text
    have hvr : Token.isValueRef { i with text := v } = false := by
      cases v with
      | nil => simp [Token.isValueRef, startsWith]
      | cons c cs => simp [Token.isValueRef, startsWith, hv c cs rfl]
    have stuck : Stuck { i with text := v } (us.map (replaceText x v)) := by
      refine ⟨by simp [hi.type], .inr (Ev.step (Ev.step (Ev.all fun n => ?_)))⟩
      simp [parseSeqComponent, parseComponent, need, hvr, Out.bind, Out.attempt]
    have := sequence_diverges hk ho stuck n
    simp [applyParams, substitute, replaceText, ActualParam.text, hkx, hox, hix] at this ⊢
    rw [this]; rfl

/-- `P {Y, Z}` for `P {X, Y} ::= SEQUENCE { a X, b Y }`. -/
example : Ev fun n => applyParams n ["X".toList, "Y".toList] [kw "SEQUENCE", tk .curlyBegin "{", nm "a", nm "X",
    tk .comma ",", nm "b", nm "Y", tk .curlyEnd "}"] [.single "Y".toList, .single "Z".toList] =
    .ok (.mk (.sequence [.mk "a".toList (.mk (.reference "Z".toList) (some [])) false none,
      .mk "b".toList (.mk (.reference "Z".toList) (some [])) false none] [] false) (some [])) :=
  have hx : UpperName "X".toList (nm "X") := ⟨rfl, rfl, ⟨_, _, rfl, rfl⟩, by decide⟩
  have hy : UpperName "Y".toList (nm "Y") := ⟨rfl, rfl, ⟨_, _, rfl, rfl⟩, by decide⟩
  have hz : UpperName "Z".toList (nm "Z") := ⟨rfl, rfl, ⟨_, _, rfl, rfl⟩, by decide⟩
  (C93_parameters_violated.1 "Z".toList (nm "Z") (kw_word _) rfl rfl (lower "a" ⟨_, _, rfl, rfl⟩) hx rfl rfl
    (lower "b" ⟨_, _, rfl, rfl⟩) hy rfl rfl hz (by decide)).2

/-- `P {INTEGER:size} ::= SEQUENCE { size INTEGER (0..size) }` has no instance `P {5}`. -/
example (n : Nat) : applyParams n ["size".toList] [kw "SEQUENCE", tk .curlyBegin "{", nm "size", kw "INTEGER",
    tk .roundBegin "(", tk .numberInt "0", tk .rangeSeparator "..", nm "size", tk .roundEnd ")", tk .curlyEnd "}"]
    [.single "5".toList] = .diverge :=
  C93_parameters_violated.2 (kw_word _) rfl rfl (lower "size" ⟨_, _, rfl, rfl⟩) (by intro c cs h; cases h; decide) n

end Hampi.Compiler.Props
