/-!
# Specification: base-128 varints

Written from the protocol-buffer varint description, independently of the model.
-/

namespace Verif.Spec

/-- The number denoted by base-128 groups, least significant group first; the top bit of each
byte is not part of the value. -/
def varintValue : List UInt8 → Nat
  | [] => 0
  | b :: bs => b.toNat % 128 + 128 * varintValue bs

/-- `bs` is *the* base-128 varint of `n`: right value, the continuation bit (top bit) on every
byte but the last, and no superfluous most significant zero group. -/
structure IsVarint (bs : List UInt8) (n : Nat) : Prop where
  nonempty : bs ≠ []
  value : varintValue bs = n
  continuation : ∀ k (h : k < bs.length), 128 ≤ bs[k].toNat ↔ k + 1 < bs.length
  minimal : ∀ h : bs ≠ [], bs.length = 1 ∨ bs.getLast h ≠ 0

/-- The zig-zag map of the protocol-buffer documentation: 0, -1, 1, -2, 2, ... to 0, 1, 2, 3, 4. -/
def zigzag (i : Int) : Int := if 0 ≤ i then 2 * i else -2 * i - 1

end Verif.Spec
