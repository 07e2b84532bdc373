import Verif.Lemmas.Sender
import Verif.Props.Messages
/-!
# C124: senders of NGAP, S1AP and RANAP do not panic
-/
namespace Hampi

/-- For any type: if the attributes exclude the other panics, a value whose lists have the elements that their sizes
demand, and that holds no variant without bits in an open type, is encoded or refused. -/
theorem C124_no_panic (not : List Int) (t : Ty) (h : t.sendable not = true) (v : t.Val) (ht : t.Typed v)
    (hm : t.Manned v) (hw : t.Without not v) (s : Codec) : t.encode v s ≠ .panic := fun e =>
  t.fine not h v ht hm hw ((C114_panics_iff t v (t.held not h v ht) s).mp e)

/-- **C124, NGAP.** Whatever numbers and strings a protocol data unit holds, if no list in it is shorter than its size
allows then the encoder returns, with `Ok` or `Err`. -/
theorem C124_ngap (v : Ngap.NGAP_PDU.Val) (ht : Ngap.NGAP_PDU.Typed v) (hm : Ngap.NGAP_PDU.Manned v) (s : Codec) :
    Ngap.NGAP_PDU.encode v s ≠ .panic := by
  refine C124_no_panic [] _ (by decide +kernel) v ht hm ?_ s
  exact Ty.without_nil _ v

/-- The S1AP information elements that are an ENUMERATED of one value: ConcurrentWarningMessageIndicator and
KillAllWarningMessages. -/
def s1apBlank : List Int := [142, 191]

/-- **C124 (partial), S1AP.** Full statement: as `C124_ngap`. Missing, because false: the messages that hold one of the
two elements in `s1apBlank`; see `C124_s1ap_violated`. -/
theorem C124_s1ap_partial (v : S1ap.S1AP_PDU.Val) (ht : S1ap.S1AP_PDU.Typed v) (hm : S1ap.S1AP_PDU.Manned v)
    (hw : S1ap.S1AP_PDU.Without s1apBlank v) (s : Codec) : S1ap.S1AP_PDU.encode v s ≠ .panic :=
  C124_no_panic s1apBlank _ (by decide +kernel) v ht hm hw s

/-- No message of S1AP that holds one of the two can be encoded at all: no KILL REQUEST for all warning messages, no
WRITE-REPLACE WARNING REQUEST beside another one. -/
theorem C124_s1ap_never (v : S1ap.S1AP_PDU.Val) (hw : ¬ S1ap.S1AP_PDU.Without s1apBlank v) (s s' : Codec) :
    S1ap.S1AP_PDU.encode v s ≠ .ok () s' :=
  Ty.stuck s1apBlank _ (by decide +kernel) v hw s s'

/-- The RANAP extensions that take no bits: IncludeVelocity, an ENUMERATED of one value, and RedirectAttemptFlag, a
NULL. -/
def ranapBlank : List Int := [164, 166]

/-- **C124 (partial), RANAP.** Full statement: as `C124_ngap`. Missing, because false: the messages that hold one of the
two extensions in `ranapBlank`; see `C124_ranap_violated`. -/
theorem C124_ranap_partial (v : Ranap.RANAP_PDU.Val) (ht : Ranap.RANAP_PDU.Typed v) (hm : Ranap.RANAP_PDU.Manned v)
    (hw : Ranap.RANAP_PDU.Without ranapBlank v) (s : Codec) : Ranap.RANAP_PDU.encode v s ≠ .panic :=
  C124_no_panic ranapBlank _ (by decide +kernel) v ht hm hw s

/-- No message of RANAP that holds one of the two can be encoded at all. -/
theorem C124_ranap_never (v : Ranap.RANAP_PDU.Val) (hw : ¬ Ranap.RANAP_PDU.Without ranapBlank v) (s s' : Codec) :
    Ranap.RANAP_PDU.encode v s ≠ .ok () s' :=
  Ty.stuck ranapBlank _ (by decide +kernel) v hw s s'

/-! ## Messages on which the sender panics -/

namespace S1apKill
open S1ap

/-- Criticality reject, the element that asks to kill all warning messages. -/
def entry : KillRequestProtocolIEs_Entry.Val :=
  show Int × Int × KillRequestProtocolIEs_EntryValue.Val × Unit from (191, 0, .inl (0 : Int), ())

def request : KillRequest.Val := show List KillRequestProtocolIEs_Entry.Val × Unit from ([entry], ())

/-- A KILL REQUEST for all warning messages. -/
def message : S1AP_PDU.Val :=
  .inl <| show Int × Int × InitiatingMessageValue.Val × Unit from
    (43, 0, (.inr <| .inr <| .inr <| .inr <| .inr <| .inr <| .inr <| .inr <| .inr <| .inr <| .inr <| .inr <| .inr <|
      .inr <| .inr <| .inr <| .inr <| .inl request), ())

end S1apKill

/-- It panicked. -/
theorem panics_anywhere (t : Ty) (v : t.Val) (h : (t.encode v Codec.new).outcome = .panic) (s : Codec) :
    t.encode v s = .panic := by
  rw [C121_any_buffer t v Codec.new s] at h
  cases hm : t.encode v s with
  | panic => rfl
  | ok _ _ => rw [hm] at h; cases h
  | err _ => rw [hm] at h; cases h

/-- **C124 is violated by S1AP.** The encoder panics on a KILL REQUEST for all warning messages. -/
theorem C124_s1ap_violated : ∃ v : S1ap.S1AP_PDU.Val, S1ap.S1AP_PDU.Typed v ∧ S1ap.S1AP_PDU.Manned v ∧
    ∀ s, S1ap.S1AP_PDU.encode v s = .panic := by
  refine ⟨S1apKill.message, ?_, ?_, panics_anywhere _ _ (by decide +kernel)⟩
  · refine ⟨(by decide : Width.u8.Fits 43), (by decide : Width.u8.Fits 0), ?_, trivial⟩
    refine ⟨?_, trivial⟩
    intro x hx
    cases List.mem_singleton.mp hx
    exact ⟨(by decide : Width.u16.Fits 191), (by decide : Width.u8.Fits 0), (by decide : Width.u8.Fits 0), trivial⟩
  · refine ⟨trivial, trivial, ?_, trivial⟩
    refine ⟨⟨fun l hl => by cases hl; decide, nofun, ?_⟩, trivial⟩
    intro x hx
    cases List.mem_singleton.mp hx
    exact ⟨trivial, trivial, trivial, trivial⟩

namespace RanapRedirect
open Ranap

def extension : InitialUE_MessageProtocolExtensions_Entry.Val :=
  show Int × Int × InitialUE_MessageProtocolExtensions_EntryExtensionValue.Val × Unit from
    (166, 0, (.inr <| .inr <| .inr <| .inr <| .inr <| .inr <| .inr <| .inr <| .inr <| .inr <| .inl ()), ())

def initial : InitialUE_Message.Val :=
  show List InitialUE_MessageProtocolIEs_Entry.Val × Option (List InitialUE_MessageProtocolExtensions_Entry.Val) × Unit
    from ([], some [extension], ())

/-- An INITIAL UE MESSAGE with the redirect attempt flag. -/
def message : RANAP_PDU.Val :=
  .inl <| show Int × Int × InitiatingMessageValue.Val × Unit from
    (19, 0, (.inr <| .inr <| .inr <| .inr <| .inr <| .inr <| .inr <| .inr <| .inr <| .inl initial), ())

end RanapRedirect

/-- **C124 is violated by RANAP.** The encoder panics on an INITIAL UE MESSAGE with the redirect attempt flag. -/
theorem C124_ranap_violated : ∃ v : Ranap.RANAP_PDU.Val, Ranap.RANAP_PDU.Typed v ∧ Ranap.RANAP_PDU.Manned v ∧
    ∀ s, Ranap.RANAP_PDU.encode v s = .panic := by
  refine ⟨RanapRedirect.message, ?_, ?_, panics_anywhere _ _ (by decide +kernel)⟩
  · refine ⟨(by decide : Width.u8.Fits 19), (by decide : Width.u8.Fits 0), ?_, trivial⟩
    refine ⟨nofun, ?_, trivial⟩
    intro x hx
    cases List.mem_singleton.mp hx
    exact ⟨(by decide : Width.u16.Fits 166), (by decide : Width.u8.Fits 0), trivial, trivial⟩
  · refine ⟨trivial, trivial, ?_, trivial⟩
    refine ⟨⟨fun l hl => by cases hl; decide, nofun, nofun⟩, ?_, trivial⟩
    refine ⟨fun l hl => by cases hl; decide, nofun, ?_⟩
    intro x hx
    cases List.mem_singleton.mp hx
    exact ⟨trivial, trivial, trivial, trivial⟩

/-! ## The hypotheses -/

example : ¬ S1ap.S1AP_PDU.Without s1apBlank S1apKill.message := fun h =>
  (h.2.2.1.2.1 S1apKill.entry List.mem_cons_self).2.2.1.1 (by decide)

example : ¬ Ranap.RANAP_PDU.Without ranapBlank RanapRedirect.message := fun h =>
  (h.2.2.1.2.2.1 RanapRedirect.extension List.mem_cons_self).2.2.1.1 (by decide)

namespace S1apKill
open S1ap

/-- A KILL REQUEST for one warning message. -/
def fine : S1AP_PDU.Val :=
  .inl <| show Int × Int × InitiatingMessageValue.Val × Unit from
    (43, 0, (.inr <| .inr <| .inr <| .inr <| .inr <| .inr <| .inr <| .inr <| .inr <| .inr <| .inr <| .inr <| .inr <|
      .inr <| .inr <| .inr <| .inr <| .inl (show KillRequest.Val from
        show List KillRequestProtocolIEs_Entry.Val × Unit from
          ([show Int × Int × KillRequestProtocolIEs_EntryValue.Val × Unit from
            (111, 0, .inr (.inl (List.replicate 16 true)), ())], ()))), ())

end S1apKill

example : S1ap.S1AP_PDU.Typed S1apKill.fine ∧ S1ap.S1AP_PDU.Manned S1apKill.fine ∧
    S1ap.S1AP_PDU.Without s1apBlank S1apKill.fine ∧
    (S1ap.S1AP_PDU.encode S1apKill.fine Codec.new).outcome = .ok := by
  refine ⟨⟨(by decide : Width.u8.Fits 43), (by decide : Width.u8.Fits 0), ⟨?_, trivial⟩, trivial⟩, ⟨trivial, trivial, ⟨⟨fun l hl => by cases hl; decide, nofun, ?_⟩, trivial⟩, trivial⟩,
    ⟨trivial, trivial, ⟨by decide, ?_, trivial⟩, trivial⟩, by decide +kernel⟩
  · intro x hx
    cases List.mem_singleton.mp hx
    exact ⟨(by decide : Width.u16.Fits 111), (by decide : Width.u8.Fits 0), trivial, trivial⟩
  · intro x hx
    cases List.mem_singleton.mp hx
    exact ⟨trivial, trivial, trivial, trivial⟩
  · intro x hx
    cases List.mem_singleton.mp hx
    exact ⟨trivial, trivial, ⟨by decide, trivial⟩, trivial⟩

end Hampi
