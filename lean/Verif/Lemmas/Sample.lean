import Verif.Lemmas.Host
import Verif.Spec.Sample
/-!
# Facts about the concrete traffic of `Spec/Sample.lean`

Used in the examples beside the theorems about the host: the kernel computes what the frames decode to and what the host
sends.
-/

namespace Verif
open Py StreamInput StreamOutput

/-- The sample REST frame. -/
theorem sampleRestFrame_ok : RequestFrame sampleRestFrame sampleCtx ["f"] sampleRest.writeTo
    "internal:extensions/restexecuteonextensiontaction" 12 false false :=
  ⟨sampleOrder, Version.new 2070099, 0, 0, _, rfl, rfl, by decide +kernel, by decide +kernel, by decide +kernel,
    by decide +kernel, by decide +kernel, by decide +kernel⟩

theorem sampleRest_ok : RequestOK sampleRest := by constructor <;> decide +kernel

theorem sampleRestAnswer_ok : ResponseOK (ExtensionRestResponse.new (some sampleRest) (some .OK) [1, 2, 3, 33]) := by
  constructor <;> decide +kernel

/-- The sample initialisation frame. -/
theorem sampleInitFrame_ok : RequestFrame sampleInitFrame sampleCtx ["f"] sampleInit.writeTo
    "internal:discovery/extensions" 11 false false :=
  ⟨sampleOrder, Version.new 2070099, 0, 0, _, rfl, rfl, by decide +kernel, by decide +kernel, by decide +kernel,
    by decide +kernel, by decide +kernel, by decide +kernel⟩

theorem sampleAck_ok (b : Bool) : ResponseFrame (sampleAck b 3) (AcknowledgedResponse.writeTo ⟨b⟩) 3 := by
  cases b
  · exact ⟨sampleOrder, sampleCtx, [], Version.new 2070099, false, false, 0, 0, _, rfl, rfl, by decide +kernel,
      by decide +kernel, by decide +kernel, by decide +kernel⟩
  · exact ⟨sampleOrder, sampleCtx, [], Version.new 2070099, false, false, 0, 0, _, rfl, rfl, by decide +kernel,
      by decide +kernel, by decide +kernel, by decide +kernel⟩

theorem sampleSettingsFrame_ok : ResponseFrame (sampleSettingsFrame 2) (Settings.writeTo sampleSettings) 2 :=
  ⟨sampleOrder, sampleCtx, [], Version.new 2070099, false, false, 0, 0, _, rfl, rfl, by decide +kernel,
    by decide +kernel, by decide +kernel, by decide +kernel⟩

/-- The task id, action body and handshake frames of the examples. -/
def sampleTcp : HandshakerRequest := ⟨⟨"n", some 3⟩, some (Version.new 3000099)⟩
def sampleTcpFrame : Bytes := sampleFrame sampleTcp.writeTo "internal:tcp/handshake" 7
def sampleServiceFrame : Bytes :=
  sampleFrame (ServiceHandshakeRequest.writeTo ⟨⟨"n", some 3⟩⟩) "internal:transport/handshake" 7
/-- A request nobody handles. -/
def sampleUnknownFrame : Bytes := sampleFrame (W.emit [1, 2]) "internal:unknown" 8

theorem sampleTcpFrame_ok : RequestFrame sampleTcpFrame sampleCtx ["f"] sampleTcp.writeTo
    "internal:tcp/handshake" 7 false false :=
  ⟨sampleOrder, Version.new 2070099, 0, 0, _, rfl, rfl, by decide +kernel, by decide +kernel, by decide +kernel,
    by decide +kernel, by decide +kernel, by decide +kernel⟩

theorem sampleServiceFrame_ok : RequestFrame sampleServiceFrame sampleCtx ["f"]
    (ServiceHandshakeRequest.writeTo ⟨⟨"n", some 3⟩⟩) "internal:transport/handshake" 7 false false :=
  ⟨sampleOrder, Version.new 2070099, 0, 0, _, rfl, rfl, by decide +kernel, by decide +kernel, by decide +kernel,
    by decide +kernel, by decide +kernel, by decide +kernel⟩

theorem sampleUnknownFrame_ok : RequestFrame sampleUnknownFrame sampleCtx ["f"] (W.emit [1, 2])
    "internal:unknown" 8 false false :=
  ⟨sampleOrder, Version.new 2070099, 0, 0, _, rfl, rfl, by decide +kernel, by decide +kernel, by decide +kernel,
    by decide +kernel, by decide +kernel, by decide +kernel⟩

/-- A message as a fresh object holds it. -/
def blankReq : OutboundRequest := ((OutboundRequest.new none [] none .none "" none false false 0).1).toOption.getD
  ⟨⟨⟨TcpHeader.ES, 0, 0, .none, 0, 0⟩, {}, none, none⟩, [], ""⟩
def blankResp : OutboundResponse := ((OutboundResponse.new none [] none .none none false false 0).1).toOption.getD
  ⟨⟨⟨TcpHeader.ES, 0, 0, .none, 0, 0⟩, {}, none, none⟩, []⟩

/-- The request and the body in a frame. -/
def requestIn (raw : Bytes) : OutboundRequest := ((blankReq.readFrom none raw).toOption.getD (blankReq, [])).1
def requestBody (raw : Bytes) : Bytes := ((blankReq.readFrom none raw).toOption.getD (blankReq, [])).2
/-- The response and the body in a frame. -/
def responseIn (raw : Bytes) : OutboundResponse := ((blankResp.readFrom none raw).toOption.getD (blankResp, [])).1
def responseBody (raw : Bytes) : Bytes := ((blankResp.readFrom none raw).toOption.getD (blankResp, [])).2

theorem isRequest_of {raw : Bytes} (h : blankReq.readFrom none raw = .ok (requestIn raw, requestBody raw))
    (h' : (requestIn raw).tcp_header.isRequest = true) : IsRequest raw (requestIn raw) (requestBody raw) :=
  ⟨⟨0, _, blankReq, rfl, h⟩, h'⟩

theorem isResponse_of {raw : Bytes} (h : blankResp.readFrom none raw = .ok (responseIn raw, responseBody raw))
    (h' : (responseIn raw).tcp_header.isResponse = true) : IsResponse raw (responseIn raw) (responseBody raw) :=
  ⟨⟨0, _, blankResp, rfl, h⟩, h'⟩

/-- What the host sends on an input (nothing if it raises). -/
def sentOut {σ H : Type} (env : Ext σ H) (ch : Choice) (s : Host σ) (raw : Bytes) : Bytes :=
  match (onInput env ch s raw).2 with
  | .ok (some out) => out
  | _ => []

theorem sends_of {σ H : Type} {env : Ext σ H} {ch : Choice} {s : Host σ} {raw : Bytes} (h : sentOut env ch s raw ≠ []) :
    onInput env ch s raw = ((onInput env ch s raw).1, .ok (some (sentOut env ch s raw))) := by
  unfold sentOut at h ⊢
  generalize onInput env ch s raw = r at h ⊢
  obtain ⟨s', o⟩ := r
  cases o with
  | error e => exact absurd rfl h
  | ok o => cases o with
    | none => exact absurd rfl h
    | some out => rfl

theorem sampleRest_isRequest : IsRequest sampleRestFrame (requestIn sampleRestFrame) (requestBody sampleRestFrame) :=
  isRequest_of (by decide +kernel) (by decide +kernel)
theorem sampleTcp_isRequest : IsRequest sampleTcpFrame (requestIn sampleTcpFrame) (requestBody sampleTcpFrame) :=
  isRequest_of (by decide +kernel) (by decide +kernel)
theorem sampleUnknown_isRequest :
    IsRequest sampleUnknownFrame (requestIn sampleUnknownFrame) (requestBody sampleUnknownFrame) :=
  isRequest_of (by decide +kernel) (by decide +kernel)
theorem sampleInit_isRequest : IsRequest sampleInitFrame (requestIn sampleInitFrame) (requestBody sampleInitFrame) :=
  isRequest_of (by decide +kernel) (by decide +kernel)
theorem sampleAck_isResponse :
    IsResponse (sampleAck true 3) (responseIn (sampleAck true 3)) (responseBody (sampleAck true 3)) :=
  isResponse_of (by decide +kernel) (by decide +kernel)
theorem sampleNack_isResponse :
    IsResponse (sampleAck false 3) (responseIn (sampleAck false 3)) (responseBody (sampleAck false 3)) :=
  isResponse_of (by decide +kernel) (by decide +kernel)

theorem sampleRest_sends : onInput sampleExt sampleChoice sampleHost sampleRestFrame =
    ((onInput sampleExt sampleChoice sampleHost sampleRestFrame).1,
      .ok (some (sentOut sampleExt sampleChoice sampleHost sampleRestFrame))) := sends_of (by decide +kernel)
theorem sampleTcp_sends : onInput sampleExt sampleChoice sampleHost sampleTcpFrame =
    ((onInput sampleExt sampleChoice sampleHost sampleTcpFrame).1,
      .ok (some (sentOut sampleExt sampleChoice sampleHost sampleTcpFrame))) := sends_of (by decide +kernel)
theorem sampleInit_sends : onInput sampleExt sampleChoice sampleHost sampleInitFrame =
    ((onInput sampleExt sampleChoice sampleHost sampleInitFrame).1,
      .ok (some (sentOut sampleExt sampleChoice sampleHost sampleInitFrame))) := sends_of (by decide +kernel)

/-- The handshake with request id 0 (a sender of this library cannot produce it, another can). -/
def sampleZeroFrame : Bytes := sampleTcpFrame.take 6 ++ List.replicate 8 0 ++ sampleTcpFrame.drop 14
/-- The acknowledgement of request 3, marked as an error. -/
def sampleErrorFrame : Bytes := (sampleAck true 3).take 14 ++ [3] ++ (sampleAck true 3).drop 15
/-- A REST request no route of the sample extension matches. -/
def sampleLost : ExtensionRestRequest := { sampleRest with path := "/nothing" }
def sampleLostFrame : Bytes :=
  sampleFrame sampleLost.writeTo "internal:extensions/restexecuteonextensiontaction" 12

theorem sampleLostFrame_ok : RequestFrame sampleLostFrame sampleCtx ["f"] sampleLost.writeTo
    "internal:extensions/restexecuteonextensiontaction" 12 false false :=
  ⟨sampleOrder, Version.new 2070099, 0, 0, _, rfl, rfl, by decide +kernel, by decide +kernel, by decide +kernel,
    by decide +kernel, by decide +kernel, by decide +kernel⟩

theorem sampleLost_ok : RequestOK sampleLost := by constructor <;> decide +kernel

theorem sampleZero_isRequest : IsRequest sampleZeroFrame (requestIn sampleZeroFrame) (requestBody sampleZeroFrame) :=
  isRequest_of (by decide +kernel) (by decide +kernel)
theorem sampleError_isResponse :
    IsResponse sampleErrorFrame (responseIn sampleErrorFrame) (responseBody sampleErrorFrame) :=
  isResponse_of (by decide +kernel) (by decide +kernel)

theorem sampleZero_sends : onInput sampleExt sampleChoice sampleHost sampleZeroFrame =
    ((onInput sampleExt sampleChoice sampleHost sampleZeroFrame).1,
      .ok (some (sentOut sampleExt sampleChoice sampleHost sampleZeroFrame))) := sends_of (by decide +kernel)

/-- The request the host keeps while it waits for the acknowledgement. -/
def sampleNext : OutboundRequest :=
  match sampleInited.pending.get? (responseIn (sampleAck false 3)).tcp_header.request_id with
  | some (.registerRest n) => n
  | _ => blankReq

theorem sampleInited_pending :
    sampleInited.pending.get? (responseIn (sampleAck false 3)).tcp_header.request_id = some (.registerRest sampleNext) := by
  decide +kernel

/-- The host after an initialisation and a REST request, and what it sends on another initialisation. -/
def sampleServed : Host Nat := (onInput sampleExt sampleChoice sampleInited sampleRestFrame).1

theorem sampleInit_asks : IsRequest (sentOut sampleExt sampleChoice sampleHost sampleInitFrame)
    (requestIn (sentOut sampleExt sampleChoice sampleHost sampleInitFrame))
    (requestBody (sentOut sampleExt sampleChoice sampleHost sampleInitFrame)) :=
  isRequest_of (by decide +kernel) (by decide +kernel)
theorem sampleInit_sends_again : onInput sampleExt sampleChoice sampleServed sampleInitFrame =
    ((onInput sampleExt sampleChoice sampleServed sampleInitFrame).1,
      .ok (some (sentOut sampleExt sampleChoice sampleServed sampleInitFrame))) := sends_of (by decide +kernel)
theorem sampleInit_asks_again : IsRequest (sentOut sampleExt sampleChoice sampleServed sampleInitFrame)
    (requestIn (sentOut sampleExt sampleChoice sampleServed sampleInitFrame))
    (requestBody (sentOut sampleExt sampleChoice sampleServed sampleInitFrame)) :=
  isRequest_of (by decide +kernel) (by decide +kernel)

end Verif
