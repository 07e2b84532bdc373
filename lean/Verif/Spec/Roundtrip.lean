import Verif.Codec.Buffer
/-!
# Round trip and frame, in terms of the API
-/
namespace Hampi.Spec

/-- Whenever `enc` returns `Ok`, it has only appended bits, and `dec`, started at the position where
`enc` started, returns `v` and stops where `enc` stopped; whatever bits follow and whatever the
key. -/
def ReadsBack {α : Type} (enc : M Unit) (dec : M α) (v : α) : Prop :=
  ∀ s s' : Codec, enc s = .ok () s' →
    s.bits <+: s'.bits ∧
    ∀ (suffix : List Bool) (key : Option Int),
      dec ⟨s'.bits ++ suffix, s.bits.length, key⟩ =
        .ok v ⟨s'.bits ++ suffix, s'.bits.length, key⟩

/-- The call returned `Ok`. -/
def Succeeds {α : Type} (r : Res α) : Prop := ∃ a s, r = .ok a s

/-- The call returned `Err`. -/
def Refuses {α : Type} (r : Res α) : Prop := ∃ s, r = .err s

/-- The SIZE bounds of a string or list are sizes. -/
def SizeBounds (lb ub : Option Int) : Prop :=
  (∀ l, lb = some l → 0 ≤ l ∧ l < 2 ^ 64) ∧ (∀ u, ub = some u → 0 ≤ u ∧ u < 2 ^ 64)

/-- `n` is within the bounds. -/
def Within (lb ub : Option Int) (n : Int) : Prop :=
  (∀ l, lb = some l → l ≤ n) ∧ (∀ u, ub = some u → n ≤ u)

end Hampi.Spec
