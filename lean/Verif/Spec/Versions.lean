import Verif.Spec.X691
/-!
# Extension additions of a SEQUENCE, as ITU-T X.691 prescribes them

Independent of the model, like `Verif/Spec/X691.lean`.
-/
namespace Hampi.Spec

/-- X.691 19.9 with 11.2: the additions that are present, each as an open type: the general length of
its octets and the octets (below 16K). -/
def openFields : (p : Nat) → List (Option (List UInt8)) → List Bool
  | _, [] => []
  | p, none :: rest => openFields p rest
  | p, some octets :: rest =>
      let w := generalLength p octets.length ++ octetBits octets
      w ++ openFields (p + w.length) rest

/-- X.691 19.7-19.9: what follows the root components of a SEQUENCE whose extension bit is set: the
number of additions as a normally small length, one bit for each that tells whether it is present,
and those that are. -/
def additions (p : Nat) (adds : List (Option (List UInt8))) : List Bool :=
  let head := normallySmallLength p adds.length ++ adds.map Option.isSome
  head ++ openFields (p + head.length) adds

end Hampi.Spec
