import Verif.Py.Int
/-!
# Python floats

A Python float is an IEEE 754 binary64 number.  It is represented by its bit pattern, a number below
2^64: sign (bit 63), exponent (bits 52 to 62), fraction.  Text conversion (`float(s)`, `str(x)`) is a
parameter (`FloatText`).
-/

namespace Verif.Py

/-- A Python float: its IEEE 754 binary64 bit pattern. -/
structure F64 where
  bits : Nat
  lt : bits < 2 ^ 64
  deriving DecidableEq, Repr

namespace F64

/-- The sign bit. -/
def neg (x : F64) : Bool := 2 ^ 63 ≤ x.bits
/-- The bits without the sign: for numbers that are not NaN, in the order of their absolute values. -/
def mag (x : F64) : Nat := x.bits % 2 ^ 63
/-- Not a number: maximal exponent, non-zero fraction. -/
def isNaN (x : F64) : Bool := 2047 * 2 ^ 52 < x.mag
/-- A whole number in the order of the values: sign and magnitude; both zeros give 0. -/
def key (x : F64) : Int := if x.neg then -(x.mag : Int) else x.mag
/-- `a <= b`: false when either is NaN. -/
def le (a b : F64) : Bool := !a.isNaN && !b.isNaN && decide (a.key ≤ b.key)

/-- Round the quotient `n / 2^k` to the nearest whole number, ties to even (the default IEEE rounding). -/
def roundShift (n k : Nat) : Nat :=
  let q := n / 2 ^ k
  let r := n % 2 ^ k
  if 2 * r < 2 ^ k then q else if 2 ^ k < 2 * r then q + 1 else q + q % 2

/-- The magnitude bits of the nearest binary32 number of a finite number: for results of normal
range the rounded `(e - 896) * 2^23 + fraction`, below it a multiple of 2^-149. -/
def mag32 (m : Nat) : Nat :=
  let e := m / 2 ^ 52
  let f := m % 2 ^ 52
  if e ≤ 896 then roundShift (if e = 0 then f else 2 ^ 52 + f) (926 - max e 1)
  else roundShift (m - 896 * 2 ^ 52) 29

/-- `struct.pack(">f", x)` as a 32-bit pattern: the conversion to binary32, OverflowError when a finite
number becomes infinite.  (The payload of a NaN is cut off and the number made quiet, as the hardware
conversion does.) -/
def toSingle (x : F64) : Except Err Nat :=
  let s := if x.neg then 2 ^ 31 else 0
  if x.isNaN then .ok (s + 255 * 2 ^ 23 + 2 ^ 22 + (x.mag / 2 ^ 29) % 2 ^ 22)
  else if x.mag = 2047 * 2 ^ 52 then .ok (s + 255 * 2 ^ 23)
  else if mag32 x.mag < 255 * 2 ^ 23 then .ok (s + mag32 x.mag)
  else .error .overflow

/-- The magnitude bits of the binary64 number equal to a binary32 number. -/
def magOfSingle (m : Nat) : Nat :=
  if m < 2 ^ 23 then
    if m = 0 then 0
    else (Nat.log2 m + 874) * 2 ^ 52 + (m - 2 ^ Nat.log2 m) * 2 ^ (52 - Nat.log2 m)
  else if m < 255 * 2 ^ 23 then m * 2 ^ 29 + 896 * 2 ^ 52
  else if m = 255 * 2 ^ 23 then 2047 * 2 ^ 52
  else 2047 * 2 ^ 52 + 2 ^ 51 + (m % 2 ^ 22) * 2 ^ 29

/-- `float(struct.unpack(">f", b)[0])` from a 32-bit pattern. -/
def ofSingleBits (b : Nat) : Nat := (if 2 ^ 31 ≤ b then 2 ^ 63 else 0) + magOfSingle (b % 2 ^ 31)

end F64

/-- The conversions between text and floats. -/
structure FloatText where
  /-- `float(s)`. -/
  parse : String → Except Err F64
  /-- `str(x)`. -/
  str : F64 → String
  /-- `float(str(x)) == x` (the shortest-repr guarantee of CPython), with the sign of zero; NaN loses its
  sign and payload. -/
  parse_str : ∀ x, x.isNaN = false → parse (str x) = .ok x

end Verif.Py
