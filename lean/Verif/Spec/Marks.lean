import Verif.Spec.Trace
/-!
# Specification: the marks on a frame

The status byte is the 15th byte of a frame (after `ES`, a 4-byte length and an 8-byte id).  Its bits, from the lowest:
response, error, compressed, handshake.  A frame cut off before it has no marks.
-/

namespace Verif
open Py

/-- Bit `k` of the status byte. -/
def Marked (k : Nat) (frame : Bytes) : Prop := ∃ b : UInt8, frame[14]? = some b ∧ b.toNat.testBit k = true

def MarkedResponse (frame : Bytes) : Prop := Marked 0 frame
def MarkedError (frame : Bytes) : Prop := Marked 1 frame
def MarkedCompressed (frame : Bytes) : Prop := Marked 2 frame
def MarkedHandshake (frame : Bytes) : Prop := Marked 3 frame

end Verif
