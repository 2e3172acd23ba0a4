import Verif.Model.Settings
/-!
# Writing nested values within the interpreter's recursion limit

`writeGeneric` (Model/StreamOutput.lean) writes values of any depth.  The interpreter does not: `write_generic_value` and
`write_array_list` call each other, and beyond `sys.getrecursionlimit()` frames a call raises RecursionError.
-/

namespace Verif.StreamOutput
open Py

mutual
/-- `write_generic_value`, transport/stream_output.py:612-630.  The first argument is the number of nested calls the interpreter
still allows, counted as for `StreamInput.readGeneric` (transport/stream_input.py:229-271): one for each value inside another. -/
def writeGenericWithin : Nat → PyVal → W
  | 0, _ => W.fail .recursion
  | _ + 1, .none => writeByte (-1)
  | _ + 1, .bool b => writeByte 5 ++ writeBoolean b
  | _ + 1, .str s => writeByte 0 ++ writeString s
  | _ + 1, .int i => writeByte 2 ++ writeLong i
  | _ + 1, .bytes b => writeByte 6 ++ writeByteArray b
  | limit + 1, .list l => writeByte 7 ++ (writeVInt l.length ++ writeGenericListWithin limit l)
  | _ + 1, .other _ _ => W.nil
/-- The loop of `write_array_list`, transport/stream_output.py:504-507. -/
def writeGenericListWithin : Nat → List PyVal → W
  | _, [] => W.nil
  | limit, v :: vs => writeGenericWithin limit v ++ writeGenericListWithin limit vs
end

end Verif.StreamOutput

namespace Verif
open Py StreamInput StreamOutput

/-- `Settings.write_to`, settings/settings.py:33-38, within the recursion limit. -/
def Settings.writeToWithin (limit : Nat) (d : Dict String PyVal) : W :=
  writeVInt d.length ++ W.forEach (fun kv => writeString kv.1 ++ writeGenericWithin limit kv.2) d

end Verif
