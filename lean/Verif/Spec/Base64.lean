import Verif.Model.Base64
/-!
# Specification: The number a base64 text denotes
-/

namespace Verif
open Base64

/-- The number a URL-safe base64 text denotes: its characters as base-64 digits, most significant
first. -/
def base64Value (l : List Char) : Nat := l.foldl (fun acc c => acc * 64 + alphabet.idxOf c) 0

end Verif
