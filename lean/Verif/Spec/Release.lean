import Verif.Codec.Buffer
/-!
# What it means that a release build agrees with a debug build
-/
namespace Hampi

/-- Whatever the debug build returns, a result or an error, the release build returns as well, and leaves the
same buffer behind. Nothing is said of the inputs on which the debug build panics. -/
def SameUnlessPanic {α : Type} (debug release : M α) : Prop :=
  ∀ s, debug s ≠ .panic → release s = debug s

end Hampi
