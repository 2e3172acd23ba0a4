import Verif.Spec.History
/-!
# A concrete extension, host and traffic, for the non-vacuity examples
-/

namespace Verif
open Py

/-- The identity iteration order. -/
def sampleOrder : HashOrder := ⟨fun l => l, fun l => List.Perm.refl l⟩

/-- The choices of one run. -/
def sampleChoice : Choice where
  ho := sampleOrder
  uuid := List.replicate 16 7
  uuid_len := by simp
  roles := [CLUSTER_MANAGER_ROLE, DATA_ROLE, INGEST_ROLE, REMOTE_CLUSTER_CLIENT_ROLE]
  roles_perm := List.Perm.refl _

/-- An extension with one route, `GET /hello/{name}`, whose handler counts its calls and answers with the
request's content. -/
def sampleExt : Ext Nat Bool where
  name := "hello-world"
  interfaces := ["Extension", "ActionExtension"]
  registry := ((Registry.mk (H := Bool) [] []).register true [⟨.GET, "/hello/{name}", "greet"⟩]).1
  run := fun _ n r => (n + 1, .ok (ExtensionRestResponse.new (some r) (some .OK) (r.content_ ++ [33])))
  depth := 3

/-- The host before any traffic. -/
def sampleHost : Host Nat := { ext := 0 }

/-- A thread context with one request header. -/
def sampleCtx : ThreadContext := { request_headers := [("_system_index_access_allowed", "false")] }

/-- The frame a peer sends: request `id` with this action and body. -/
def sampleFrame (message : W) (action : String) (id : Int) : Bytes :=
  match OutboundRequest.new (some sampleCtx) ["f"] (some message) (.obj (Version.new 2070099)) action (some id)
      false false 0 with
  | (.ok r, _) => (r.writeTo sampleOrder).out
  | _ => []

/-- The frame a peer sends: response to `id`. -/
def sampleAnswer (message : W) (id : Int) : Bytes :=
  match OutboundResponse.new (some sampleCtx) [] (some message) (.obj (Version.new 2070099)) (some id)
      false false 0 with
  | (.ok r, _) => (r.writeTo sampleOrder).out
  | _ => []

/-- A node of the cluster. -/
def sampleNode : DiscoveryNode :=
  DiscoveryNode.new "n1" "id1" none none none (TransportAddress.new (10 * 256 ^ 3 + 1) 9300 none) [("k", "é")]
    [DATA_ROLE] none "AAAAAAAAAAAAAAAAAAAAAA"

/-- An initialisation request. -/
def sampleInit : InitializeExtensionRequest :=
  ⟨⟨"", none⟩, sampleNode, { sampleNode with minimum_compatible_version := Version.new 3000099, dependencies := [] }⟩

/-- A REST request for `GET /hello/Ann`. -/
def sampleRest : ExtensionRestRequest where
  method := some .GET
  uri := "/hello/Ann?x=1"
  path := "/hello/Ann"
  params := [("x", "1")]
  headers := [("Accept", ["*/*"])]
  content_ := [1, 2, 3]
  http_version := some .HTTP_1_1

/-- The frames of the sample traffic. -/
def sampleInitFrame : Bytes := sampleFrame sampleInit.writeTo "internal:discovery/extensions" 11
def sampleRestFrame : Bytes :=
  sampleFrame sampleRest.writeTo "internal:extensions/restexecuteonextensiontaction" 12
def sampleAck (b : Bool) (id : Int) : Bytes := sampleAnswer (AcknowledgedResponse.writeTo ⟨b⟩) id
def sampleSettings : Dict String PyVal := [("a", .list [.int 5, .none]), ("b", .str "é")]
def sampleSettingsFrame (id : Int) : Bytes := sampleAnswer (Settings.writeTo sampleSettings) id

/-- The host after an initialisation request. -/
def sampleInited : Host Nat := (onInput sampleExt sampleChoice sampleHost sampleInitFrame).1

theorem sampleHost_started : Started sampleHost := ⟨rfl, rfl⟩

theorem sampleHost_reachable : Reachable sampleExt sampleHost := ⟨_, sampleHost_started, .refl⟩

theorem sampleInited_reachable : Reachable sampleExt sampleInited :=
  ⟨_, sampleHost_started, .input _ _ .refl trivial⟩

end Verif
