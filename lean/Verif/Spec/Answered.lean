import Verif.Model.Host
/-!
# Specification: Which requests are served
-/

namespace Verif
open Py

variable {σ H : Type}

/-- What a request other than an initialisation asks for, and the message that answers it: the version
for a TCP handshake, the SDK's node for a transport handshake, the response of the matching handler
for a REST request, the not-found message for an unknown action. -/
inductive Serves (env : Ext σ H) (ch : Choice) (x : σ) (action : String) (body : Bytes) : W → Prop
  | tcp (m : HandshakerRequest) (rest : Bytes) (ha : action = "internal:tcp/handshake")
      (hb : HandshakerRequest.readFrom body = .ok (m, rest)) :
      Serves env ch x action body (HandshakerResponse.writeTo ⟨Version.new 3000099⟩)
  | transport (m : ServiceHandshakeRequest) (rest : Bytes) (ha : action = "internal:transport/handshake")
      (hb : ServiceHandshakeRequest.readFrom body = .ok (m, rest)) :
      Serves env ch x action body
        (ServiceHandshakeResponse.writeTo ⟨some (helloWorldNode ch), "", Version.new 3000099⟩)
  | rest (r : ExtensionRestRequest) (rest : Bytes) (m : RestMethod) (hd : H) (x' : σ) (resp : ExtensionRestResponse)
      (ha : action = "internal:extensions/restexecuteonextensiontaction")
      (hb : ExtensionRestRequest.readFrom {} body = .ok (r, rest)) (hm : r.method = some m)
      (hroute : env.registry.dispatch (m.name ++ " " ++ r.path) = some hd)
      (hrun : env.run hd x r = (x', .ok resp)) :
      Serves env ch x action body (RestExecuteOnExtensionResponse.writeTo ⟨resp.status, resp.content_type, resp.content,
        resp.headers, ch.ho.order resp.consumed_params, resp.content_consumed⟩)
  | unknown (ha : action ∉ ["internal:discovery/extensions", "internal:extensions/restexecuteonextensiontaction",
        "internal:tcp/handshake", "internal:transport/handshake"]) :
      Serves env ch x action body (notFoundResponse action).writeTo

end Verif
