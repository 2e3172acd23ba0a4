import Verif.Py.Basic
/-!
# `int.to_bytes`, `int.from_bytes`, and Python's bit operations on ints

CPython semantics (trusted, checked against the CPython documentation): `int.to_bytes(n, "big",
signed)` raises `OverflowError` when the value does not fit; `int.from_bytes` of any byte string,
the empty one included (value 0), is total.
-/

namespace Verif.Py

/-- The `n` low-order base-256 digits of `v`, most significant first. -/
def beDigits : Nat → Nat → Bytes
  | 0, _ => []
  | n + 1, v => UInt8.ofNat (v / 256 ^ n % 256) :: beDigits n v

/-- The number whose base-256 digits, most significant first, are `bs`. -/
def natOfBE (bs : Bytes) : Nat := bs.foldl (fun acc b => acc * 256 + b.toNat) 0

/-- `int.from_bytes(bs, "big", signed=True)`. -/
def fromBytesSigned (bs : Bytes) : Int :=
  if 2 * natOfBE bs ≥ 256 ^ bs.length then (natOfBE bs : Int) - 256 ^ bs.length
  else natOfBE bs

/-- `int.from_bytes(bs, "big")` (unsigned). -/
def fromBytesUnsigned (bs : Bytes) : Int := natOfBE bs

/-- `i.to_bytes(n, "big", signed=True)` written to a stream. -/
def toBytesSigned (n : Nat) (i : Int) : W :=
  if -(256 ^ n : Int) ≤ 2 * i ∧ 2 * i < 256 ^ n then
    W.emit (beDigits n (i % 256 ^ n).toNat)
  else W.fail .overflow

/-- `i.to_bytes(n, "big")` (unsigned) written to a stream. -/
def toBytesUnsigned (n : Nat) (i : Int) : W :=
  if 0 ≤ i ∧ i < 256 ^ n then W.emit (beDigits n i.toNat) else W.fail .overflow

end Verif.Py
