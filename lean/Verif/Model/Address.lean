import Verif.Model.Messages
/-!
# Transport addresses made from text, and as Python objects

`TransportAddress(address, port, host_name)` takes the address as text (transport/transport_address.py:18-21) and
gives it to `ipaddress.IPv4Address` of the standard library, modelled here from CPython's `Lib/ipaddress.py`
(`IPv4Address.__init__`, `_ip_int_from_string`, `_parse_octet`; since 3.9.5 leading zeros are refused).
-/

namespace Verif
open Py

/-- `s.split(c)` for a single character, as `ipaddress` does it for the text of transport/transport_address.py:19. -/
def splitChars (c : Char) : List Char → List (List Char)
  | [] => [[]]
  | x :: xs =>
    if x = c then [] :: splitChars c xs
    else match splitChars c xs with
      | [] => [[x]]
      | w :: ws => (x :: w) :: ws

/-- `int(octet_str, 10)` of ASCII digits (transport/transport_address.py:19, `ipaddress._parse_octet`). -/
def digitsValue (l : List Char) : Nat := l.foldl (fun n c => 10 * n + (c.toNat - 48)) 0

/-- `IPv4Address._parse_octet` (called for transport/transport_address.py:19); `none` stands for its ValueErrors. -/
def parseOctet (o : List Char) : Option Nat :=
  if o = [] then none
  else if ¬ o.all (fun c => decide (48 ≤ c.toNat ∧ c.toNat ≤ 57)) then none
  else if 3 < o.length then none
  else if o ≠ ['0'] ∧ o.head? = some '0' then none
  else if 255 < digitsValue o then none
  else some (digitsValue o)

/-- `ipaddress.IPv4Address(text)`, as called in transport/transport_address.py:19: the address as a number, or
AddressValueError. -/
def ipv4OfText (text : String) : Except Err Nat :=
  if '/' ∈ text.toList then .error .address
  else if text = "" then .error .address
  else match splitChars '.' text.toList with
    | [a, b, c, d] =>
      match parseOctet a, parseOctet b, parseOctet c, parseOctet d with
      | some a, some b, some c, some d => .ok (((a * 256 + b) * 256 + c) * 256 + d)
      | _, _, _, _ => .error .address
    | _ => .error .address

/-- `TransportAddress(text, port, host_name)`, transport/transport_address.py:18-21. -/
def TransportAddress.ofText (text : String) (port : Int) (host_name : Option String) : Except Err TransportAddress :=
  match ipv4OfText text with
  | .ok n => .ok (TransportAddress.new n port host_name)
  | .error e => .error e

/-! ## A transport address as an object

`class TransportAddress(ipaddress.IPv4Address)`, transport/transport_address.py:17: the inherited methods work on the
attribute `_ip`, which `IPv4Address.__init__` sets. -/

/-- An object of class `IPv4Address` or of a class derived from it: its identity, and its `_ip` if that attribute
was ever assigned (transport/transport_address.py:17). -/
structure IpObject where
  identity : Nat
  ip : Option Nat
  deriving DecidableEq, Repr

namespace IpObject

/-- `str(a)`, inherited by the class of transport/transport_address.py:17: of `self._ip`, an AttributeError without. -/
def str (o : IpObject) : Except Err String :=
  match o.ip with
  | some n => .ok (dotted n)
  | none => .error .attribute

/-- `int(a)`, inherited by the class of transport/transport_address.py:17. -/
def int (o : IpObject) : Except Err Nat :=
  match o.ip with
  | some n => .ok n
  | none => .error .attribute

/-- `hash(a)`, inherited by the class of transport/transport_address.py:17: some hash `h` of the number. -/
def hash (h : Nat → Int) (o : IpObject) : Except Err Int :=
  match o.ip with
  | some n => .ok (h n)
  | none => .error .attribute

/-- `a < b`, inherited by the class of transport/transport_address.py:17. -/
def lt (a b : IpObject) : Except Err Bool :=
  match a.ip, b.ip with
  | some m, some n => .ok (decide (m < n))
  | _, _ => .error .attribute

/-- `a == b`, inherited by the class of transport/transport_address.py:17: an AttributeError in `__eq__` becomes
NotImplemented on both sides, and Python falls back to identity. -/
def eq (a b : IpObject) : Bool :=
  match a.ip, b.ip with
  | some m, some n => decide (m = n)
  | _, _ => decide (a.identity = b.identity)

end IpObject

/-- The two objects behind a transport address, transport/transport_address.py:17-30: the object itself and the one in
its attribute `address`. -/
structure AddressObject where
  self : IpObject
  address : IpObject
  value : TransportAddress
  deriving DecidableEq, Repr

namespace AddressObject

/-- `TransportAddress(text, port, host_name)` as an object, transport/transport_address.py:18-21: `__init__` does not call
the base class's, so `_ip` of the object itself stays unassigned; `address` is an `IPv4Address` of its own.  `i` and `j`
are the identities of the new objects. -/
def new (i j : Nat) (text : String) (port : Int) (host_name : Option String) : Except Err AddressObject :=
  match ipv4OfText text with
  | .ok n => .ok ⟨⟨i, none⟩, ⟨j, some n⟩, TransportAddress.new n port host_name⟩
  | .error e => .error e

/-- `self.read_from(input)`, transport/transport_address.py:23-30: `address` becomes a new `IPv4Address` with identity `j`. -/
def readFrom (o : AddressObject) (j : Nat) (input : Bytes) : Except Err (AddressObject × Bytes) :=
  match TransportAddress.readFrom input with
  | .ok (a, rest) => .ok (⟨o.self, ⟨j, some a.address⟩, a⟩, rest)
  | .error e => .error e

end AddressObject

end Verif
