import Verif.Lemmas.DeriveRT
import Verif.Lemmas.Derive
import Verif.Spec.Unambiguous
/-!
# Two encoders whose outputs tell them apart

`Tells e e' R`: when both succeed from the same buffer and the results do not differ up to the end of the shorter
one, `R` holds and the results are the same.
-/
namespace Hampi
open Spec (SizeBounds FitsTwos)

variable {α : Type}

/-- See the head of this file. -/
def Tells (e e' : M Unit) (R : Prop) : Prop :=
  ∀ s sa sb x y, e s = .ok () sa → e' s = .ok () sb → sa.bits ++ x = sb.bits ++ y → R ∧ sa = sb

namespace Tells

theorem imp {e e' : M Unit} {R R' : Prop} (h : Tells e e' R) (hi : R → R') : Tells e e' R' := by
  intro s sa sb x y h1 h2 h3
  obtain ⟨h4, h5⟩ := h s sa sb x y h1 h2 h3
  exact ⟨hi h4, h5⟩

theorem same (e : M Unit) : Tells e e True := by
  intro s sa sb x y h1 h2 h3
  rw [h1] at h2
  cases h2
  exact ⟨trivial, rfl⟩

theorem failLeft {e' : M Unit} {R : Prop} : Tells M.fail e' R := by intro s sa sb x y h; cases h
theorem failRight {e : M Unit} {R : Prop} : Tells e M.fail R := by intro s sa sb x y _ h; cases h

theorem of_rt {e e' : M Unit} {d : M α} {a b : α} (h : RT e d a) (h' : RT e' d b) :
    Tells e e' (a = b) := by
  intro s sa sb x y h1 h2 h3
  obtain ⟨w, rfl, -, hd⟩ := h s sa h1
  obtain ⟨w', rfl, -, hd'⟩ := h' s sb h2
  have h4 := hd s.bits x none rfl
  have h5 := hd' s.bits y none rfl
  dsimp only at h3
  rw [h3, h5] at h4
  simp only [Res.ok.injEq, Codec.mk.injEq] at h4
  obtain ⟨h6, -, h7, -⟩ := h4
  refine ⟨h6.symm, ?_⟩
  have h8 : w.length = w'.length := by omega
  have h9 : s.bits ++ w = s.bits ++ w' := by
    refine (List.append_inj h3 ?_).1
    rw [List.length_append, List.length_append, h8]
  rw [h9]

theorem append {l l' : List Bool} (h : l.length = l'.length) : Tells (appendBits l) (appendBits l') (l = l') := by
  intro s sa sb x y h1 h2 h3
  cases h1
  cases h2
  dsimp only at h3
  rw [List.append_assoc, List.append_assoc] at h3
  have h4 := (List.append_inj (List.append_cancel_left h3) h).1
  exact ⟨h4, by rw [h4]⟩

theorem bind {e e' : M Unit} {g g' : Unit → M Unit} {R R' : Prop} (h : Tells e e' R)
    (hg : IsWriter (g ())) (hg' : IsWriter (g' ())) (h2 : R → Tells (g ()) (g' ()) R') :
    Tells (e >>= g) (e' >>= g') (R ∧ R') := by
  intro s sa sb x y h3 h4 h5
  rw [M.bind_apply] at h3 h4
  cases h6 : e s with
  | err _ => rw [h6] at h3; cases h3
  | panic => rw [h6] at h3; cases h3
  | ok u s1 =>
    cases h7 : e' s with
    | err _ => rw [h7] at h4; cases h4
    | panic => rw [h7] at h4; cases h4
    | ok u' s2 =>
      rw [h6] at h3
      rw [h7] at h4
      dsimp only at h3 h4
      obtain ⟨w, hw, -⟩ := Writes.of_ok hg h3
      obtain ⟨w', hw', -⟩ := Writes.of_ok hg' h4
      have h8 : s1.bits ++ (w ++ x) = s2.bits ++ (w' ++ y) := by
        rw [hw, hw'] at h5
        simpa only [List.append_assoc] using h5
      obtain ⟨hr, rfl⟩ := h s s1 s2 _ _ h6 h7 h8
      obtain ⟨hr', h9⟩ := h2 hr s1 sa sb x y h3 h4 h5
      exact ⟨⟨hr, hr'⟩, h9⟩

end Tells

theorem fits_i128 {w : Width} {v : Int} (h : w.Fits v) : IsI128 v := by
  unfold IsI128
  cases w <;>
  · simp only [Width.Fits, Width.signed, Width.bits, if_true, Bool.false_eq_true, if_false,
      Nat.reduceSub] at h
    omega

theorem toU128_inj {a b : Int} (ha : IsI128 a) (hb : IsI128 b) (h : toU128 a = toU128 b) : a = b := by
  unfold IsI128 at ha hb
  unfold toU128 at h
  omega

/-- The sign and the low bits give the number. -/
theorem natToBits_toU128_inj {k : Nat} {a b : Int} (ha : FitsTwos k a) (hb : FitsTwos k b)
    (h1 : 1 ≤ k) (h2 : k ≤ 16)
    (h : natToBits (8 * k) (toU128 a) = natToBits (8 * k) (toU128 b)) : a = b := by
  have h3 : toU128 a % 2 ^ (8 * k) = toU128 b % 2 ^ (8 * k) := by
    rw [← bitsToNat_natToBits, ← bitsToNat_natToBits, h]
  unfold FitsTwos at ha hb
  unfold toU128 at h3
  have hk : k = 1 ∨ k = 2 ∨ k = 3 ∨ k = 4 ∨ k = 5 ∨ k = 6 ∨ k = 7 ∨ k = 8 ∨ k = 9 ∨ k = 10 ∨ k = 11 ∨ k = 12 ∨
      k = 13 ∨ k = 14 ∨ k = 15 ∨ k = 16 := by omega
  rcases hk with rfl | rfl | rfl | rfl | rfl | rfl | rfl | rfl | rfl | rfl | rfl | rfl | rfl | rfl | rfl | rfl <;>
    · simp only [Nat.reduceMul, Nat.reduceSub] at ha hb h3
      clear h
      omega

theorem Tells.unconstrained {a b : Int} (ha : IsI128 a) (hb : IsI128 b) :
    Tells (encodeUnconstrained a) (encodeUnconstrained b) (a = b) := by
  rw [encodeUnconstrained_eq ha, encodeUnconstrained_eq hb]
  obtain ⟨h1, h2, h3, -⟩ := unconstrainedBytes_spec ha
  obtain ⟨h4, h5, h6, -⟩ := unconstrainedBytes_spec hb
  refine (Tells.bind (R' := a = b) (.of_rt (.indefinite _) (.indefinite _)) (.appendBits _) (.appendBits _)
    fun e => ?_).imp And.right
  refine (Tells.append (by simp [e])).imp fun h => ?_
  rw [← e] at h6 h
  exact natToBits_toU128_inj h3 h6 h1 h2 h

theorem Tells.integer {lb ub : Option Int} {a b : Int} (ha : IsI128 a) (hb : IsI128 b) (e : Bool) :
    Tells (encodeInteger lb ub e a false) (encodeInteger lb ub e b false) (a = b) := by
  cases lb with
  | some l =>
    have h1 := RT.integer (lb := some l) (ub := ub) ha (fun h => nomatch h) e false
    have h2 := RT.integer (lb := some l) (ub := ub) hb (fun h => nomatch h) e false
    exact (Tells.of_rt h1 h2).imp fun h => congrArg Prod.fst h
  | none =>
    unfold encodeInteger
    refine (Tells.bind (R' := a = b) (.same _) ?_ ?_ fun _ => ?_).imp And.right
    · exact .unconstrained a
    · exact .unconstrained b
    · exact .unconstrained ha hb

theorem Tells.enumerated {lb ub : Option Int} {a b : Int} (ha : IsI128 a) (hb : IsI128 b) (e : Bool) :
    Tells (encodeEnumerated lb ub e a false) (encodeEnumerated lb ub e b false) (a = b) := by
  unfold encodeEnumerated
  exact (Tells.bind (R' := a = b) (.same _) (.integer ..) (.integer ..) fun _ => .integer ha hb false).imp And.right

theorem utf8_inj {a b : String} (h : utf8 a = utf8 b) : a = b := by
  unfold utf8 at h
  have h1 : a.toUTF8 = b.toUTF8 := by
    cases ha : a.toUTF8
    cases hb : b.toUTF8
    rw [ha, hb] at h
    congr
    exact Array.toList_inj.mp h
  exact String.toByteArray_inj.mp h1

theorem bytesBits_inj {a b : List UInt8} (h : bytesBits a = bytesBits b) : a = b := by
  rw [← bitsBytes_bytesBits a, h, bitsBytes_bytesBits]

theorem Tells.string {lb ub : Option Int} (h : SizeBounds lb ub) (a b : String) (e : Bool) :
    Tells (encodeString lb ub e a false) (encodeString lb ub e b false) (a = b) := by
  unfold encodeString
  simp only [Bool.false_eq_true, if_false]
  refine (Tells.bind (R' := a = b) (.same _) ?_ ?_ fun _ => ?_).imp And.right
  · exact .bind (.length ..) fun _ => .bind (.alignIf _) fun _ => .appendBits _
  · exact .bind (.length ..) fun _ => .bind (.alignIf _) fun _ => .appendBits _
  · refine (Tells.bind (R' := a = b) (.of_rt (.length h false _) (.length h false _)) ?_ ?_ fun hl => ?_).imp And.right
    · exact .bind (.alignIf _) fun _ => .appendBits _
    · exact .bind (.alignIf _) fun _ => .appendBits _
    · rw [hl]
      refine (Tells.bind (R' := a = b) (.same _) (.appendBits _) (.appendBits _) fun _ => ?_).imp And.right
      exact (Tells.append (by simp [hl])).imp fun h => utf8_inj (bytesBits_inj h)

theorem Tells.all {α : Type} {enc : α → M Unit} (hw : ∀ x, IsWriter (enc x)) {ok : α → Option Int → Prop}
    {f : α → Option Int → Option Int} {good : α → Prop}
    (h : ∀ x y k, good x → good y → ok x k → ok y k → Tells (enc x) (enc y) (x = y)) :
    ∀ (l m : List α) (k : Option Int), l.length = m.length → (∀ x ∈ l, good x) → (∀ x ∈ m, good x) →
      keysOkAll ok f l k → keysOkAll ok f m k → Tells (encodeAll enc l) (encodeAll enc m) (l = m)
  | [], [], k, _, _, _, _, _ => (Tells.same _).imp fun _ => rfl
  | x :: l, y :: m, k, hl, h1, h2, h3, h4 => by
    refine (Tells.bind (R' := l = m) (h x y k (h1 x List.mem_cons_self) (h2 y List.mem_cons_self) h3.1 h4.1)
      (.encodeAll hw l) (.encodeAll hw m) fun e => ?_).imp fun h => by rw [h.1, h.2]
    subst e
    exact Tells.all hw h l m (f x k) (by simpa using hl) (fun z hz => h1 z (List.mem_cons_of_mem _ hz))
      (fun z hz => h2 z (List.mem_cons_of_mem _ hz)) h3.2 h4.2
  | [], y :: m, _, hl, _, _, _, _ => nomatch hl
  | x :: l, [], _, hl, _, _, _, _ => nomatch hl

/-- What an open type writes. -/
theorem encodeOpen_ok {p : M Unit} (hw : IsWriter p) {s s' : Codec} (h : encodeOpen p s = .ok () s') :
    ∃ w, p Codec.new = .ok () ⟨w, 0, none⟩ ∧ 0 < w.length ∧
      (encodeLength none none false ((w.length - 1) / 8 + 1) >>= fun _ => align >>= fun _ =>
        appendBits (w ++ pad w.length)) s = .ok () s' := by
  unfold encodeOpen at h
  cases hp : p Codec.new with
  | err _ => rw [hp] at h; cases h
  | panic => rw [hp] at h; cases h
  | ok u inner =>
    obtain ⟨w, rfl, -⟩ := Writes.of_ok hw hp
    rw [hp] at h
    simp only [Codec.new, List.nil_append] at h
    by_cases h0 : w.length = 0
    · unfold lengthInBytes at h
      simp only [h0, if_true] at h
      cases h
    · have hl : lengthInBytes ⟨w, 0, none⟩ = .ok ((w.length - 1) / 8 + 1) ⟨w, 0, none⟩ := by
        unfold lengthInBytes; exact if_neg h0
      rw [hl] at h
      dsimp only at h
      unfold appendAligned at h
      rw [Writes.align w.length ⟨w, 0, none⟩ rfl] at h
      exact ⟨w, by simp [Codec.new], by omega, h⟩

theorem Tells.open {p q : M Unit} {R : Prop} (hp : IsWriter p) (hq : IsWriter q) (h : Tells p q R) :
    Tells (encodeOpen p) (encodeOpen q) R := by
  intro s sa sb x y h1 h2 h3
  obtain ⟨w, e1, l1, f1⟩ := encodeOpen_ok hp h1
  obtain ⟨w', e2, l2, f2⟩ := encodeOpen_ok hq h2
  have h4 := Tells.bind (R' := w ++ pad w.length = w' ++ pad w'.length)
    (g := fun _ => align >>= fun _ => appendBits (w ++ pad w.length))
    (g' := fun _ => align >>= fun _ => appendBits (w' ++ pad w'.length))
    (Tells.of_rt (RT.length (lb := none) (ub := none) ⟨nofun, nofun⟩ false ((w.length - 1) / 8 + 1))
      (RT.length (lb := none) (ub := none) ⟨nofun, nofun⟩ false ((w'.length - 1) / 8 + 1)))
    (.bind .align fun _ => .appendBits _) (.bind .align fun _ => .appendBits _) fun e => by
      refine (Tells.bind (R' := w ++ pad w.length = w' ++ pad w'.length) (.same _) (.appendBits _) (.appendBits _)
        fun _ => .append ?_).imp And.right
      simp only [List.length_append, pad_length]
      unfold padLen
      omega
  obtain ⟨⟨-, h5⟩, h6⟩ := h4 s sa sb x y f1 f2 h3
  exact ⟨(h Codec.new _ _ _ _ e1 e2 h5).1, h6⟩

end Hampi
