import Verif.Spec.Varint
/-!
# Specification: strings as an OpenSearch node writes them

The peer of the extension is an OpenSearch node.  Its `StreamOutput.writeString` (Java, not in this repository) writes the
number of UTF-16 code units as a v_int and then each unit in one, two or three bytes.
-/

namespace Verif.Spec

/-- The UTF-16 code units of a character. -/
def utf16Units (c : Char) : List Nat :=
  if c.toNat < 0x10000 then [c.toNat]
  else [0xD800 + (c.toNat - 0x10000) / 0x400, 0xDC00 + (c.toNat - 0x10000) % 0x400]

/-- One code unit: one byte up to 0x7F, two up to 0x7FF, else three. -/
def unitBytes (u : Nat) : List UInt8 :=
  if u ≤ 0x7F then [UInt8.ofNat u]
  else if u ≤ 0x7FF then [UInt8.ofNat (0xC0 + u / 0x40), UInt8.ofNat (0x80 + u % 0x40)]
  else [UInt8.ofNat (0xE0 + u / 0x1000), UInt8.ofNat (0x80 + u / 0x40 % 0x40), UInt8.ofNat (0x80 + u % 0x40)]

/-- All code units of a string: what Java calls its chars. -/
def javaChars (s : String) : List Nat := s.toList.flatMap utf16Units

/-- `bs` is what a node writes for the string `s`. -/
def IsNodeString (bs : List UInt8) (s : String) : Prop :=
  ∃ count, IsVarint count (javaChars s).length ∧ bs = count ++ (javaChars s).flatMap unitBytes

end Verif.Spec
