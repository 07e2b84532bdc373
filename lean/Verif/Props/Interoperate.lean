import Verif.Props.Refactor
import Verif.Props.Macro
/-!
# C136: programs that were generated separately understand each other
-/
namespace Hampi.Compiler.Props
open Hampi.Derive
open _root_.Hampi.Compiler.Spec

/-- **C136 (partial).** A sender and a receiver generate their codecs separately: in two runs, from texts of their own
that spell the same schema or one of them the other written differently (C132), in any layout and any order of files and
with any order of hash tables. If rustc accepts the names of both files, each type has one codec in them, and it is the
same: whatever permitted value one side encodes into a message, the other side decodes it, if the value is one that a
reader recovers. Missing, because false: the values that `Carried` excludes, and types in which something that is not
padded follows an open type. -/
theorem C136_understood_partial (u : Unicode) (sp sp' : Spelling) (files files' : List (List Char × List ParsedModule))
    (hf : ∀ f ∈ files, Spells u f.1 f.2) (hf' : ∀ f ∈ files', Spells u f.1 f.2) (n₁ n₂ : Nat) (ms ns : List Module)
    (hread : ReadAs (spelled u n₁ files) ms) (hread' : ReadAs (spelled u n₂ files') ns)
    (hs : ProperSchema ms) (hs' : ProperSchema ns) (hw : SchemaRewritten ms ns) :
    ∃ n₀, ∀ n, n₀ ≤ n → ∀ r r', Runs u sp n (files.map fun f => .text f.1) r → Runs u sp' n (files'.map fun f => .text f.1) r' →
      ∃ items items', r = .ok items ∧ r' = .ok items' ∧
        ∀ sender receiver, All2 Renders items sender → All2 Renders items' receiver → NamesFit sender → NamesFit receiver →
          ∀ M ∈ ms, ∀ x ty, (x, ⟨.type ty, none⟩) ∈ M.definitions → ∀ lax t, Describes lax ms (.module M) ty t → Bounds128 t →
            (∀ w, Codes sender (typeIdent x) w ↔ w = t) ∧ (∀ w, Codes receiver (typeIdent x) w ↔ w = t) ∧
            ∀ v, t.Permitted v → ∃ s, t.encode v Codec.new = .ok () s ∧
              (Carried t v → t.KeysOk v none → t.Framed →
                ∃ s', t.decode (Codec.fromSlice s.intoBytes) = .ok v s' ∧ s.bits.length < s'.off + 8) := by
  obtain ⟨n₁', h1⟩ := C100_text_to_codec u sp files hf n₁ ms hread hs
  obtain ⟨n₂', h2⟩ := C100_text_to_codec u sp' files' hf' n₂ ns hread' hs'
  obtain ⟨g, p⟩ := hw.rewriting hs hs'
  refine ⟨max n₁' n₂', fun n hn r r' hr hr' => ?_⟩
  obtain ⟨items, rfl, -, hi⟩ := (h1 n (by omega)).2 r hr
  obtain ⟨items', rfl, -, hj⟩ := (h2 n (by omega)).2 r' hr'
  refine ⟨items, items', rfl, rfl, fun sender receiver ha hb fa fb M hM x ty hx lax t ht hb128 => ?_⟩
  have k1 := hi sender ha fa M hM x ty lax t hx ht hb128
  have k2 : Codes receiver (typeIdent x) t ∧ ∀ w, Codes receiver (typeIdent x) w → w = t := by
    have ht : Describes true ms (.module M) ty t := by
      cases hs.proper M hM _ hx with
      | type h' => rwa [C95_one_meaning _ ms hread hs M hM x ty hx lax true t _ ht h']
    obtain ⟨d', hd, hr'⟩ := (p.ext M hM).definitions _ _ hx
    cases hr' with
    | same => exact hj receiver hb fb (g M) (p.mem M hM) x _ true t hd (p.describes (σ := .module M) hM ht _ .same) hb128
    | type hw => exact hj receiver hb fb (g M) (p.mem M hM) x _ true t hd (hw.describes (p.describes (σ := .module M) hM ht)) hb128
  refine ⟨fun w => ⟨k1.2 w, fun e => e ▸ k1.1⟩, fun w => ⟨k2.2 w, fun e => e ▸ k2.1⟩, fun v hv => ?_⟩
  obtain ⟨w, he, -, hc⟩ := C96_wire_partial _ ms hread hs M hM x ty hx lax t ht v hv Codec.new
  refine ⟨_, he, fun c k f => ?_⟩
  obtain ⟨off, h4, -, h5⟩ := (hc c [] (List.replicate (padLen (Codec.new.bits ++ w).length) false) none rfl k).2 f
  have e : Codec.fromSlice (Codec.intoBytes { Codec.new with bits := Codec.new.bits ++ w }) =
      ⟨[] ++ w ++ List.replicate (padLen (Codec.new.bits ++ w).length) false, 0, none⟩ := by
    unfold Codec.fromSlice Codec.intoBytes
    rw [bytesBits_bitsBytes]
    rfl
  exact ⟨⟨_, off, t.keyAfter v none⟩, e ▸ h4, by simpa [Codec.new] using h5⟩

/-- The first file of `Props/Main.lean`, in another layout and with a comment. -/
def laidOut : List Char := "M\nDEFINITIONS ::=\nBEGIN\n  T::=INTEGER( 0 .. 7 ) -- a digit\nEND".toList

set_option maxRecDepth 8000 in
theorem laidOut_spells : Spells ascii laidOut [parsed1] := spells_of (by decide +kernel) (by decide) file1_note

/-- The modules depend on what is spelled, not on how. -/
theorem spelled_same (u : Unicode) (n : Nat) (a a' b b' : List Char) (x y : List ParsedModule) :
    spelled u n [(a, x), (b, y)] = spelled u n [(a', x), (b', y)] := rfl

/-- One side has the files of `Props/Main.lean`, the other the first of them in another layout. -/
example := C136_understood_partial ascii plainSpelling plainSpelling exampleFiles [(laidOut, [parsed1]), (file2, [parsed2])]
  (by
    intro f hf
    rcases List.mem_cons.mp hf with rfl | hf
    · exact file1_spells
    · cases List.eq_of_mem_singleton hf
      exact file2_spells)
  (by
    intro f hf
    rcases List.mem_cons.mp hf with rfl | hf
    · exact laidOut_spells
    · cases List.eq_of_mem_singleton hf
      exact file2_spells)
  0 0 _ _ example_read (by rw [spelled_same ascii 0 laidOut file1 file2 file2]; exact example_read) example_proper example_proper
  (fun M hM => ⟨M, hM, rfl, fun _ h => h, fun _ _ h => ⟨_, h, .same⟩⟩)

end Hampi.Compiler.Props
