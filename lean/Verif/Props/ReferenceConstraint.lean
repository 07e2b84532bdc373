import Verif.Props.Wire
import Verif.Props.Resolve
import Verif.Spec.Schema
import Verif.Examples.Ranap
/-!
# Constraints on references, on the wire (C70)

RANAP has `TBCD-STRING ::= OCTET STRING` and `PLMNidentity ::= TBCD-STRING (SIZE (3))` (specs/ranap/RANAP-IEs.asn:1634, 2493); the
generated file has `pub type PLMNidentity = TBCD_STRING` (examples/tests/11-ranap.rs:2225).
-/
namespace Hampi.Compiler.Props
open Hampi.Compiler.Spec

/-- **C70 is violated**: a type that is a reference with a constraint is sent by the codec of the type referred to. -/
theorem C70_same_codec_violated (n : Nat) (R : Resolver) (r : Text) (cs : List Constraint) (rt bt : RType)
    (h : resolveType n R (.mk (.reference r) (some cs)) = .ok rt) (hr : get R.resolved r = some (.type bt)) (t : Ty) :
    Means R rt t ↔ Means R bt t := by
  cases n with
  | zero => cases h
  | succ n =>
    have h : resolveType (n + 1) R (.mk (.reference r) none) = .ok rt := h
    rw [show resolveType (n + 1) R (.mk (.reference r) none) =
      (match get R.resolved r with | some (.type _) => .ok (.reference r) | _ => .err .resolve) from rfl, hr] at h
    cases h
    constructor
    · intro hm
      cases hm with
      | reference h1 h2 =>
        rw [hr] at h1
        cases h1
        exact h2
    · exact fun hm => .reference hr hm

-- `Foo ::= Bar (0..5)`, `Bar ::= BOOLEAN`.
example : ∃ rt, resolveType 1 { resolved := [("Bar".toList, .type (.base .boolean))] } (.mk (.reference "Bar".toList)
    (some [.subtype (.mk [[.range "0".toList true "5".toList true]] none)])) = .ok rt := ⟨_, rfl⟩

end Hampi.Compiler.Props

namespace Hampi
open Spec (alignment generalLength octetBits)

theorem octetBits_length (v : List UInt8) : (octetBits v).length = 8 * v.length := by
  unfold octetBits
  induction v with
  | nil => rfl
  | cons b v ih => rw [List.flatMap_cons, List.length_append, ih]; simp [Spec.be]; omega

/-- **C70 is violated** by every fixed size on a reference to OCTET STRING: what is sent, with the codec of OCTET STRING, is at no
position and for no value what X.691 prescribes for that size, for it has a length. -/
theorem C70_fixed_size_violated (v : List UInt8) (hv : v.length < 16384) (s : Codec) :
    ∃ w, (Ty.octetstring none none false).encode v s = .ok () { s with bits := s.bits ++ w } ∧
      ¬ (Ty.octetstring (some v.length) (some v.length) false).Layout v s.bits.length w := by
  obtain ⟨_, s', h⟩ := C36_permitted_accepted (.octetstring none none false) v (by
    exact ⟨⟨nofun, nofun⟩, ⟨nofun, nofun⟩, hv⟩) s
  obtain ⟨w, hw, rfl⟩ := C64_layout_partial (.octetstring none none false) v (by exact ⟨⟨nofun, nofun⟩, .inr (.inl rfl)⟩) s s' h
  refine ⟨w, h, fun hf => ?_⟩
  have h1 : w = generalLength s.bits.length v.length ++
      (if v.length = 0 then [] else alignment (s.bits.length + (generalLength s.bits.length v.length).length) ++ octetBits v) := by
    rcases hw with ⟨k, hk, _⟩ | ⟨_, l, hl, hw⟩
    · cases hk
    · cases hl
      simpa [extRoot] using hw
  have h2 : w = octetBits v ∨ w = alignment s.bits.length ++ octetBits v := by
    rcases hf with ⟨k, _, _, _, hw⟩ | ⟨hn, _⟩
    · have hw : w = if k ≤ 2 then octetBits v else alignment s.bits.length ++ octetBits v := hw
      split at hw
      · exact .inl hw
      · exact .inr hw
    · exact absurd ⟨(v.length : Int), rfl, rfl, by omega⟩ hn
  have h3 : (alignment s.bits.length).length + 8 + 8 * v.length ≤ w.length := by
    have h4 : (alignment s.bits.length).length + 8 ≤ (generalLength s.bits.length v.length).length := by
      rw [generalLength, List.length_append]
      split <;> simp [Spec.be]
    rw [h1, List.length_append]
    by_cases h0 : v.length = 0
    · rw [if_pos h0, List.length_nil]; omega
    · rw [if_neg h0, List.length_append, octetBits_length]; omega
  rcases h2 with h2 | h2 <;> rw [h2] at h3 <;> simp only [List.length_append, octetBits_length] at h3 <;> omega

/-- **C70 is violated** in RANAP: no PLMN identity is sent as `OCTET STRING (SIZE (3))`, which the schema says it is. -/
theorem C70_ranap_plmn_violated (a b c : UInt8) (s : Codec) :
    ∃ w, Ranap.PLMNidentity.encode (show List UInt8 from [a, b, c]) s = .ok () { s with bits := s.bits ++ w } ∧
      ¬ (Ty.octetstring (some 3) (some 3) false).Layout (show List UInt8 from [a, b, c]) s.bits.length w :=
  C70_fixed_size_violated [a, b, c] (by simp) s

end Hampi
