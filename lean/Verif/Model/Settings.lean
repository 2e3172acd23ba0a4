import Verif.Model.StreamInput
import Verif.Model.StreamOutput
/-!
# settings/settings.py and transport/environment_settings_response.py

`Settings()` uses a mutable default argument: all `Settings` objects created without a dict share
one dict for the life of the process (settings/settings.py:20-23).  The model therefore passes the dict that
is being filled in explicitly, and returns it also when an exception is raised half-way.
-/

namespace Verif
open Py StreamInput StreamOutput

namespace Settings

/-- The loop of `Settings.read_from`, settings/settings.py:27-30.  `depth` is the recursion limit of
`read_generic_value`. -/
def readLoop (depth : Nat) : Nat → Dict String PyVal → Bytes → Dict String PyVal × Except Err Bytes
  | 0, d, bs => (d, .ok bs)
  | n + 1, d, bs =>
    match (do let key ← readString; let value ← readGeneric depth; return (key, value) : Reader _) bs with
    | .error e => (d, .error e)
    | .ok ((key, value), rest) => readLoop depth n (d.set key value) rest

/-- `Settings.read_from`, settings/settings.py:25-31, filling the dict `d`. -/
def readFrom (depth : Nat) (d : Dict String PyVal) (bs : Bytes) : Dict String PyVal × Except Err Bytes :=
  match readVInt bs with
  | .error e => (d, .error e)
  | .ok (n, rest) => readLoop depth n.toNat d rest

/-- `Settings.write_to`, settings/settings.py:33-38. -/
def writeTo (d : Dict String PyVal) : W :=
  writeVInt d.length ++ W.forEach (fun kv => writeString kv.1 ++ writeGeneric kv.2) d

end Settings

end Verif
