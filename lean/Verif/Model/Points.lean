import Verif.Model.Host
/-!
# Text with lone surrogates

A Python `str` is any sequence of code points, surrogates included; `str.encode("utf-8")` raises `UnicodeEncodeError` for one that
contains a surrogate.  Such text never comes from the wire (`str(bytes, "utf-8")` refuses it), but user code can make it
(`json.loads('"\\ud800"')`, say) and give it to a writer.  This file repeats the writers of strings for text in general; the rest of the
model takes text without surrogates (`String`).
-/

namespace Verif
open Py StreamInput StreamOutput

/-- A code point, as in `chr(n)`: 0 to 0x10FFFF. -/
abbrev Point := Fin 0x110000

/-- A Python `str`: any code points. -/
abbrev Points := List Point

/-- The UTF-8 form of one code point; `none` (UnicodeEncodeError) for a surrogate.  Used by
`s.encode("utf-8")`, transport/stream_output.py:237. -/
def encodePoint (c : Point) : Option Bytes :=
  let n := c.val
  if n < 0x80 then some [UInt8.ofNat n]
  else if n < 0x800 then some [UInt8.ofNat (0xC0 + n / 64), UInt8.ofNat (0x80 + n % 64)]
  else if 0xD800 ≤ n ∧ n < 0xE000 then none
  else if n < 0x10000 then
    some [UInt8.ofNat (0xE0 + n / 4096), UInt8.ofNat (0x80 + n / 64 % 64), UInt8.ofNat (0x80 + n % 64)]
  else some [UInt8.ofNat (0xF0 + n / 262144), UInt8.ofNat (0x80 + n / 4096 % 64), UInt8.ofNat (0x80 + n / 64 % 64),
    UInt8.ofNat (0x80 + n % 64)]

/-- `s.encode("utf-8")`, transport/stream_output.py:237, 240. -/
def encodePoints : Points → Option Bytes
  | [] => some []
  | c :: cs =>
    match encodePoint c, encodePoints cs with
    | some b, some bs => some (b ++ bs)
    | _, _ => none

/-- `write_string` of any `str`, transport/stream_output.py:236-240: the encoding comes first. -/
def writePoints (s : Points) : W :=
  match encodePoints s with
  | none => W.fail .unicode
  | some b => writeVInt b.length ++ (if b.length > 0 then W.emit b else W.nil)

/-- `write_string_array` of any `str`s, transport/stream_output.py:321-324. -/
def writePointsArray (a : List Points) : W :=
  writeVInt a.length ++ W.forEach writePoints a

/-- `write_string_to_string_dict` of any `str`s, transport/stream_output.py:348-352. -/
def writePointsDict (d : Dict Points Points) : W :=
  writeVInt d.length ++ W.forEach (fun kv => writePoints kv.1 ++ writePoints kv.2) d

/-- `write_string_to_string_array_dict` of any `str`s, transport/stream_output.py:364-368. -/
def writePointsArrayDict (d : Dict Points (List Points)) : W :=
  writeVInt d.length ++ W.forEach (fun kv => writePoints kv.1 ++ writePointsArray kv.2) d

/-- `RestExecuteOnExtensionResponse` made from the response of a REST handler whose texts are any `str`s,
rest/rest_execute_on_extension_response.py:18-34, actions/internal/extension_rest_request_handler.py:37-44.  `consumed_params` is in the
iteration order of the set. -/
structure AnyResponse where
  status : Option RestStatus := none
  content_type : Points := []
  content : Bytes := []
  headers : Dict Points (List Points) := []
  consumed_params : List Points := []
  content_consumed : Bool := false
  deriving DecidableEq, Repr

/-- `write_to`, rest/rest_execute_on_extension_response.py:46-55. -/
def AnyResponse.writeTo (r : AnyResponse) : W :=
  writeEnumOpt r.status ++ (writePoints r.content_type ++ (writeVInt r.content.length ++
  (W.emit r.content ++ (writePointsArrayDict r.headers ++
  (writePointsArray r.consumed_params ++ writeBoolean r.content_consumed)))))

/-- `ExtensionRestRequestHandler.handle` with handlers whose responses hold any texts,
actions/internal/extension_rest_request_handler.py:27-50. -/
def handleRestAny {σ H : Type} (reg : Registry H) (run : H → σ → ExtensionRestRequest → σ × Except Err AnyResponse) (ch : Choice)
    (s : Host σ) (request : OutboundRequest) (input : Bytes) : Host σ × Except Err (Option Bytes) :=
  match ExtensionRestRequest.readFrom {} input with
  | .error e => (s, .error e)
  | .ok (req, _) =>
    match req.method with
    | none => (s, .error .attribute)
    | some m =>
      match reg.handle run (m.name ++ " " ++ req.path) s.ext req with
      | (x, .error e) => ({ s with ext := x }, .error e)
      | (x, .ok response) => sendReply ch { s with ext := x } request response.writeTo

end Verif
