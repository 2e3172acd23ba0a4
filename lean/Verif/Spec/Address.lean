/-!
# Specification: the text of an IPv4 address
-/

namespace Verif

/-- `text` is the usual notation of the address with these four bytes: four decimal numbers below 256, without leading
zeros, separated by dots (what transport/transport_address.py:18 is given). -/
def Dotted (text : String) (a b c d : Nat) : Prop :=
  a < 256 ∧ b < 256 ∧ c < 256 ∧ d < 256 ∧
  text = toString a ++ "." ++ toString b ++ "." ++ toString c ++ "." ++ toString d

instance (text : String) (a b c d : Nat) : Decidable (Dotted text a b c d) := by
  unfold Dotted; exact inferInstance

end Verif
