/-!
# What ITU-T X.691 (aligned PER) prescribes

Independent of the model: nothing here refers to the code. Bit strings are `List Bool`, first bit
first; `p` is the number of bits already in the message.
-/
namespace Hampi.Spec

/-- `x` as `n` bits, most significant first. -/
def be (n x : Nat) : List Bool := (List.range n).map fun i => decide (x / 2 ^ (n - 1 - i) % 2 = 1)

/-- The octets `bs` as bits. -/
def octetBits (bs : List UInt8) : List Bool := bs.flatMap fun b => be 8 b.toNat

/-- The zero bits that bring a message of `p` bits to the next octet boundary. -/
def alignment (p : Nat) : List Bool := List.replicate ((8 - p % 8) % 8) false

/-- `b` is the least number of bits able to distinguish `R` values. -/
def IsWidth (R b : Nat) : Prop := R ≤ 2 ^ b ∧ ∀ c, R ≤ 2 ^ c → b ≤ c

/-- `k ≥ 1` is the least number of octets able to hold the unsigned number `x`. -/
def IsOctets (x k : Nat) : Prop := 1 ≤ k ∧ x < 256 ^ k ∧ ∀ j, 1 ≤ j → x < 256 ^ j → k ≤ j

/-- `v` is representable in `k` octets of two's complement. -/
def FitsTwos (k : Nat) (v : Int) : Prop := -(2 ^ (8 * k - 1)) ≤ v ∧ v < 2 ^ (8 * k - 1)

instance (k : Nat) (v : Int) : Decidable (FitsTwos k v) := inferInstanceAs (Decidable (_ ∧ _))

/-- `k ≥ 1` is the least number of octets able to hold `v` in two's complement. -/
def IsTwosOctets (v : Int) (k : Nat) : Prop := 1 ≤ k ∧ FitsTwos k v ∧ ∀ j, 1 ≤ j → FitsTwos j v → k ≤ j

/-- The `n`-bit two's complement pattern of `v`, as a number. -/
def twos (n : Nat) (v : Int) : Nat := (v % 2 ^ n).toNat

/-- X.691 10.5.7: the offset `x` of a constrained whole number from its lower bound, where the
type has `R` values. Up to 255 values: minimal bit field; 256: an aligned octet; up to 64K: two
aligned octets; more: minimal number of octets, preceded by that number as a constrained number
between 1 and the octets needed for the largest offset. -/
def ConstrainedWord (p R x : Nat) (w : List Bool) : Prop :=
  if R ≤ 255 then ∃ b, IsWidth R b ∧ w = be b x
  else if R = 256 then w = alignment p ++ be 8 x
  else if R ≤ 65536 then w = alignment p ++ be 16 x
  else ∃ L k b, IsOctets (R - 1) L ∧ IsOctets x k ∧ IsWidth L b ∧
    w = be b (k - 1) ++ alignment (p + b) ++ be (8 * k) x

/-- X.691 10.9.3.5-10.9.3.7: a general length below 16K. -/
def generalLength (p n : Nat) : List Bool :=
  alignment p ++ if n < 128 then [false] ++ be 7 n else [true, false] ++ be 14 n

/-- X.691 10.9.4: a length with bounds `lb..=ub` (`ub = none`: unbounded). -/
def LengthWord (lb : Nat) (ub : Option Nat) (p n : Nat) (w : List Bool) : Prop :=
  match ub with
  | some u => if u < 65536 then ConstrainedWord p (u - lb + 1) (n - lb) w else w = generalLength p n
  | none => w = generalLength p n

/-- X.691 10.9.3.4: a normally small length (`n ≥ 1`). -/
def normallySmallLength (p n : Nat) : List Bool :=
  if n ≤ 64 then [false] ++ be 6 (n - 1) else [true] ++ generalLength (p + 1) n

/-- X.691 10.8: an unconstrained whole number in `k` octets (`k < 128`). -/
def unconstrained (p : Nat) (k : Nat) (v : Int) : List Bool :=
  generalLength p k ++ be (8 * k) (twos (8 * k) v)

/-- X.691 10.7 with 10.3: a semi-constrained offset `x` in `k` octets, unsigned. -/
def semiConstrained (p : Nat) (k : Nat) (x : Nat) : List Bool :=
  generalLength p k ++ be (8 * k) x

/-- X.691 10.6: a normally small non-negative whole number; `k` octets when above 63. -/
def normallySmallNumber (p k x : Nat) : List Bool :=
  if x ≤ 63 then [false] ++ be 6 x else [true] ++ semiConstrained (p + 1) k x

/-- X.691 10.9.3.8: one 16K/32K/48K/64K fragment (`m` = 1..4) of encoded units. -/
def fragment (m : Nat) (units : List Bool) : List Bool := [true, true] ++ be 6 m ++ units

end Hampi.Spec
