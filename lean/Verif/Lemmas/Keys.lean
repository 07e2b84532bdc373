import Verif.Spec.Keys
/-!
# The key of a record and the key of the runtime
-/
namespace Hampi

theorem Ty.announces_none {t : Ty} (h : t.isKey = false) (v : t.Val) : t.announces v = none := by
  cases t <;> simp_all [Ty.isKey] <;> rfl

theorem Ty.announces_some {t : Ty} (h : t.isKey = true) (v : t.Val) : ∃ x, t.announces v = some x := by
  cases t <;> simp [Ty.isKey] at h
  · cases (show Bool from v) <;> exact ⟨_, rfl⟩
  · exact ⟨_, rfl⟩
  · exact ⟨_, rfl⟩

mutual

theorem Ty.keyAfter_of : (t : Ty) → t.setsKey = false → (v : t.Val) → (k : Option Int) →
    t.keyAfter v k = k
  | .boolean, _, _, _ => rfl
  | .null, _, _, _ => rfl
  | .integer .., _, _, _ => rfl
  | .enumerated .., _, _, _ => rfl
  | .bitstring .., _, _, _ => rfl
  | .octetstring .., _, _, _ => rfl
  | .charstring .., _, _, _ => rfl
  | .objectIdentifier, _, _, _ => rfl
  | .sequence _ _ fs, h, v, k => Fields.keyAfter_of fs h v k
  | .sequenceOf _ _ _ e, h, v, k => by
    have : ∀ (l : List e.Val) (k : Option Int), keyAfterAll e.keyAfter l k = k := by
      intro l
      induction l with
      | nil => intro _; rfl
      | cons x xs ih =>
        intro k
        simp only [keyAfterAll, Ty.keyAfter_of e h x k]
        exact ih k
    exact this v k
  | .choice _ _ _ as, h, v, k => Alts.keyAfter_of as h v k
  | .openType as, h, v, k => Alts.keyAfter_of as h v k

theorem Fields.keyAfter_of : (fs : Fields) → fs.setsKey = false → (v : fs.Val) → (k : Option Int) →
    fs.keyAfter v k = k
  | .nil, _, _, _ => rfl
  | .required kf t rest, h, v, k => by
    simp only [Fields.setsKey, Bool.or_eq_false_iff] at h
    obtain ⟨⟨rfl, h1⟩, h2⟩ := h
    simp only [Fields.keyAfter, keyAfterField, Ty.keyAfter_of t h1 v.1 k]
    exact Fields.keyAfter_of rest h2 v.2 k
  | .optional _ t rest, h, (some x, vs), k => by
    simp only [Fields.setsKey, Bool.or_eq_false_iff] at h
    simp only [Fields.keyAfter, Ty.keyAfter_of t h.1 x k]
    exact Fields.keyAfter_of rest h.2 vs k
  | .optional _ t rest, h, (none, vs), k => by
    simp only [Fields.setsKey, Bool.or_eq_false_iff] at h
    simp only [Fields.keyAfter]
    exact Fields.keyAfter_of rest h.2 vs k

theorem Alts.keyAfter_of : (as : Alts) → as.setsKey = false → (v : as.Val) → (k : Option Int) →
    as.keyAfter v k = k
  | .cons _ _ t rest, h, .inl v, k => by
    simp only [Alts.setsKey, Bool.or_eq_false_iff] at h
    exact Ty.keyAfter_of t h.1 v k
  | .cons _ _ t rest, h, .inr v, k => by
    simp only [Alts.setsKey, Bool.or_eq_false_iff] at h
    exact Alts.keyAfter_of rest h.2 v k

end

/-- The runtime's key after a field is the record's, if the check says so. -/
theorem keyAfterField_local {kf : Bool} {t : Ty} {v : t.Val} {hk : Bool} {key k : Option Int}
    (h : hk = true → k = key) (hl : ((kf && t.isKey) || (hk && !t.setsKey)) = true) :
    keyAfterField kf t v (t.keyAfter v k) = keyAfterField kf t v key := by
  unfold keyAfterField
  cases hi : t.isKey with
  | true =>
    obtain ⟨x, hx⟩ := Ty.announces_some hi v
    rw [hx]
    cases kf with
    | true => rfl
    | false =>
      simp only [Bool.false_and, Bool.false_or, Bool.and_eq_true, Bool.not_eq_true'] at hl
      rw [Ty.keyAfter_of t hl.2]
      exact h hl.1
  | false =>
    rw [Ty.announces_none hi v]
    rw [hi] at hl
    simp only [Bool.and_false, Bool.false_or, Bool.and_eq_true, Bool.not_eq_true'] at hl
    rw [Ty.keyAfter_of t hl.2]
    cases kf <;> exact h hl.1

mutual

theorem Ty.announced_iff : (t : Ty) → (v : t.Val) → (hk : Bool) → (key k : Option Int) →
    t.keysLocal hk = true → (hk = true → k = key) → (t.Announced v key ↔ t.KeysOk v k)
  | .boolean, _, _, _, _, _, _ => Iff.rfl
  | .null, _, _, _, _, _, _ => Iff.rfl
  | .integer .., _, _, _, _, _, _ => Iff.rfl
  | .enumerated .., _, _, _, _, _, _ => Iff.rfl
  | .bitstring .., _, _, _, _, _, _ => Iff.rfl
  | .octetstring .., _, _, _, _, _, _ => Iff.rfl
  | .charstring .., _, _, _, _, _, _ => Iff.rfl
  | .objectIdentifier, _, _, _, _, _, _ => Iff.rfl
  | .sequence _ _ fs, v, _, _, k, hl, _ => Fields.announced_iff fs v false none k hl (fun h => nomatch h)
  | .sequenceOf _ _ _ e, v, _, _, k, hl, _ => by
    have : ∀ (l : List e.Val) (k : Option Int), (∀ x ∈ l, e.Announced x none) ↔
        keysOkAll e.KeysOk e.keyAfter l k := by
      intro l
      induction l with
      | nil => intro k; exact ⟨fun _ => trivial, fun _ x hx => nomatch hx⟩
      | cons x xs ih =>
        intro k
        simp only [List.mem_cons, forall_eq_or_imp, keysOkAll]
        rw [Ty.announced_iff e x false none k hl (fun h => nomatch h), ih]
    exact this v k
  | .choice _ _ _ as, v, _, _, k, hl, _ => Alts.announced_iff as v k hl
  | .openType as, v, hk, key, k, hl, h => by
    simp only [Ty.keysLocal, Bool.and_eq_true] at hl
    have := h hl.1
    subst this
    simp only [Ty.Announced, Ty.KeysOk]
    rw [Alts.announced_iff as v k hl.2]

theorem Fields.announced_iff : (fs : Fields) → (v : fs.Val) → (hk : Bool) → (key k : Option Int) →
    fs.keysLocal hk = true → (hk = true → k = key) → (fs.Announced v key ↔ fs.KeysOk v k)
  | .nil, _, _, _, _, _, _ => Iff.rfl
  | .required kf t rest, v, hk, key, k, hl, h => by
    simp only [Fields.keysLocal, Bool.and_eq_true] at hl
    simp only [Fields.Announced, Fields.KeysOk]
    rw [Ty.announced_iff t v.1 hk key k hl.1 h]
    rw [Fields.announced_iff rest v.2 _ _ (keyAfterField kf t v.1 (t.keyAfter v.1 k)) hl.2
      (keyAfterField_local h)]
  | .optional _ t rest, (some x, vs), hk, key, k, hl, h => by
    simp only [Fields.keysLocal, Bool.and_eq_true] at hl
    simp only [Fields.Announced, Fields.KeysOk]
    rw [Ty.announced_iff t x hk key k hl.1 h]
    rw [Fields.announced_iff rest vs _ key (t.keyAfter x k) hl.2 (fun hh => ?_)]
    simp only [Bool.and_eq_true, Bool.not_eq_true'] at hh
    rw [Ty.keyAfter_of t hh.2]
    exact h hh.1
  | .optional _ t rest, (none, vs), hk, key, k, hl, h => by
    simp only [Fields.keysLocal, Bool.and_eq_true] at hl
    simp only [Fields.Announced, Fields.KeysOk]
    rw [Fields.announced_iff rest vs _ key k hl.2 (fun hh => ?_)]
    simp only [Bool.and_eq_true, Bool.not_eq_true'] at hh
    exact h hh.1

theorem Alts.announced_iff : (as : Alts) → (v : as.Val) → (k : Option Int) →
    as.keysLocal = true → (as.Announced v ↔ as.KeysOk v k)
  | .cons _ _ t rest, .inl v, k, hl => by
    simp only [Alts.keysLocal, Bool.and_eq_true] at hl
    exact Ty.announced_iff t v false none k hl.1 (fun h => nomatch h)
  | .cons _ _ t rest, .inr v, k, hl => by
    simp only [Alts.keysLocal, Bool.and_eq_true] at hl
    exact Alts.announced_iff rest v k hl.2

end

end Hampi
