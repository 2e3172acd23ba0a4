import Mathlib.Data.Rat.Defs
import Mathlib.Algebra.Order.Field.Rat
import Mathlib.Algebra.Order.Field.Basic
/-!
# Specification: IEEE 754 binary interchange formats

Written from the standard: `expBits` exponent bits and `fracBits` fraction bits, 8 and 23 for single, 11 and 52 for
double precision.
-/

namespace Verif.Spec

/-- The sign bit of a bit pattern. -/
def ieeeNeg (expBits fracBits bits : Nat) : Bool := bits / 2 ^ (expBits + fracBits) % 2 = 1

/-- The biased exponent field. -/
def ieeeExp (expBits fracBits bits : Nat) : Nat := bits / 2 ^ fracBits % 2 ^ expBits

/-- The fraction field. -/
def ieeeFrac (fracBits bits : Nat) : Nat := bits % 2 ^ fracBits

/-- Neither infinite nor NaN. -/
def ieeeFinite (expBits fracBits bits : Nat) : Prop := ieeeExp expBits fracBits bits < 2 ^ expBits - 1

/-- Infinite: greatest exponent, fraction zero. -/
def ieeeInfinite (expBits fracBits bits : Nat) : Prop :=
  ieeeExp expBits fracBits bits = 2 ^ expBits - 1 ∧ ieeeFrac fracBits bits = 0

/-- Not a number: greatest exponent, fraction not zero. -/
def ieeeNaN (expBits fracBits bits : Nat) : Prop :=
  ieeeExp expBits fracBits bits = 2 ^ expBits - 1 ∧ ieeeFrac fracBits bits ≠ 0

/-- The number a finite bit pattern denotes: (-1)^s · 1.f · 2^(e-bias), or (-1)^s · 0.f · 2^(1-bias) when e = 0. -/
def ieeeValue (expBits fracBits bits : Nat) : ℚ :=
  let e := ieeeExp expBits fracBits bits
  let f := ieeeFrac fracBits bits
  let bias : ℤ := 2 ^ (expBits - 1) - 1
  (if ieeeNeg expBits fracBits bits then -1 else 1) *
    (if e = 0 then (f : ℚ) / 2 ^ fracBits * 2 ^ (1 - bias)
     else (1 + (f : ℚ) / 2 ^ fracBits) * 2 ^ ((e : ℤ) - bias))

end Verif.Spec
