import Mathlib.Data.Int.Bitwise
import Verif.Py.Int
/-!
# transport/version.py
-/

namespace Verif

/-- `Version` objects.  Models transport/version.py:9-37; only `id` is stored, the display
components are functions of it (`Model/VersionDisplay.lean`).  `id` is an arbitrary Python int:
nothing restricts it to 32 bits. -/
structure Version where
  id : Int
  deriving DecidableEq, Repr

namespace Version

/-- `Version.MASK`, transport/version.py:10. -/
def MASK : Int := 0x08000000

/-- `Version.CURRENT`, transport/version.py:11. -/
def CURRENT : Int := 3000099

/-- `Version.MIN_COMPAT`, transport/version.py:12. -/
def MIN_COMPAT : Int := 7099999

/-- `Version(id)`, transport/version.py:15-18: the stored id is `id ^ MASK`. -/
def new (id : Int) : Version := ⟨Int.xor id MASK⟩

/-- `from_bytes`, transport/version.py:20-23: unsigned, no bit flip, any number of bytes. -/
def fromBytes (data : Bytes) : Version := ⟨Py.fromBytesUnsigned data⟩

/-- `__bytes__`, transport/version.py:36-37: 4 bytes unsigned, OverflowError if it does not fit. -/
def toBytes (v : Version) : W := Py.toBytesUnsigned 4 v.id

end Version

end Verif
