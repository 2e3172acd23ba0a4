import Verif.Py.Basic
/-!
# `base64.urlsafe_b64encode`, and the ephemeral node ids built from it

The encoder is CPython's (RFC 4648, base64.py / binascii.c); the SDK uses it in
transport/discovery_node.py:40.
-/

namespace Verif.Base64

/-- The URL-safe alphabet, RFC 4648 table 2. -/
def alphabet : List Char :=
  "ABCDEFGHIJKLMNOPQRSTUVWXYZabcdefghijklmnopqrstuvwxyz0123456789-_".toList

/-- The character of a 6-bit group. -/
def char (n : Nat) : Char := alphabet.getD n '='

/-- Three octets become four characters; one or two left-over octets are padded. -/
def encode : Bytes → List Char
  | a :: b :: c :: rest =>
    char (a.toNat / 4) :: char (a.toNat % 4 * 16 + b.toNat / 16) ::
    char (b.toNat % 16 * 4 + c.toNat / 64) :: char (c.toNat % 64) :: encode rest
  | [a, b] =>
    [char (a.toNat / 4), char (a.toNat % 4 * 16 + b.toNat / 16), char (b.toNat % 16 * 4), '=']
  | [a] => [char (a.toNat / 4), char (a.toNat % 4 * 16), '=', '=']
  | [] => []

/-- `base64.urlsafe_b64encode(uuid.uuid4().bytes)[:-2].decode()`, transport/discovery_node.py:40. -/
def ephemeralId (uuid : Bytes) : String :=
  String.ofList ((encode uuid).take ((encode uuid).length - 2))

end Verif.Base64
