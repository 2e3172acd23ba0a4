/-!
# Specification: fixed-width big-endian two's complement
-/

namespace Verif.Spec

/-- Unsigned value of a byte string, most significant byte first. -/
def beValue : List UInt8 → Nat
  | [] => 0
  | b :: bs => b.toNat * 256 ^ bs.length + beValue bs

/-- `bs` is the `n`-byte big-endian two's-complement representation of `i`. -/
def IsTwosComplement (n : Nat) (bs : List UInt8) (i : Int) : Prop :=
  bs.length = n ∧ -(256 ^ n : Int) ≤ 2 * i ∧ 2 * i < 256 ^ n ∧ (beValue bs : Int) = i % 256 ^ n

end Verif.Spec
