import Verif.Model.Edit
/-!
# Specification: what one expects of a request or a response that was changed
-/

namespace Verif
open Py

/-- The contents of a request, as a program thinks of it. -/
structure Contents where
  ctx : ThreadContext
  features : List String
  action : String
  body : Bytes
  id : Int

/-- A change to the contents.  Assigning variable bytes is left out: they have no meaning but features and action. -/
def Contents.edit (c : Contents) : RequestEdit → Contents
  | .context f => { c with ctx := f c.ctx }
  | .features l => { c with features := l }
  | .action a => { c with action := a }
  | .messageBytes b => { c with body := b }
  | .requestId i => { c with id := i }
  | _ => c

/-- The change concerns only the body, the id, the flags or the version. -/
def RequestEdit.plain : RequestEdit → Bool
  | .messageBytes _ | .flag _ | .requestId _ | .version _ => true
  | _ => false

/-- The contents of a response, as a program thinks of it, that are sent. -/
structure ResponseContents where
  ctx : ThreadContext
  bytes : Bytes
  body : Bytes
  id : Int

/-- A change to the contents of a response. -/
def ResponseContents.edit (c : ResponseContents) : ResponseEdit → ResponseContents
  | .context f => { c with ctx := f c.ctx }
  | .variableBytes b => { c with bytes := b }
  | .messageBytes b => { c with body := b }
  | .requestId i => { c with id := i }
  | _ => c

/-- The change does not concern the thread context. -/
def ResponseEdit.plain : ResponseEdit → Bool
  | .context _ => false
  | _ => true

end Verif
