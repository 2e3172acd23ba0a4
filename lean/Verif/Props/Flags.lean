import Verif.Model.NetworkMessage
import Verif.Lemmas.Stream
/-!
# C20: what a message that was read says about itself
-/

namespace Verif
open Py StreamInput

private theorem header_parts {marker size id : Bytes} {flags : UInt8} {tail rest : Bytes} {t : TcpHeader}
    (h1 : marker.length = 2) (h2 : size.length = 4) (h3 : id.length = 8)
    (h : TcpHeader.readFrom (marker ++ (size ++ (id ++ (flags :: tail)))) = .ok (t, rest)) :
    t.status = fromBytesSigned [flags] ∧ t.request_id = fromBytesSigned id := by
  have e1 : readBytes 2 (marker ++ (size ++ (id ++ (flags :: tail)))) = .ok (marker, size ++ (id ++ (flags :: tail))) := take_append h1 _
  have e2 : readInt (size ++ (id ++ (flags :: tail))) = .ok (fromBytesSigned size, id ++ (flags :: tail)) := by
    unfold readInt; rw [Reader.bind_ok (take_append h2 _)]; rfl
  have e3 : readLong (id ++ (flags :: tail)) = .ok (fromBytesSigned id, flags :: tail) := by
    unfold readLong; rw [Reader.bind_ok (take_append h3 _)]; rfl
  have e4 : readByte (flags :: tail) = .ok (fromBytesSigned [flags], tail) := rfl
  unfold TcpHeader.readFrom at h
  rw [Reader.bind_ok e1, Reader.bind_ok e2, Reader.bind_ok e3, Reader.bind_ok e4] at h
  obtain ⟨v, r1, -, h⟩ := Reader.bind_eq_ok.1 h
  obtain ⟨n, r2, -, h⟩ := Reader.bind_eq_ok.1 h
  have : (Except.ok _ : Except Err _) = .ok _ := h
  cases this
  exact ⟨rfl, rfl⟩

private theorem bits (b : UInt8) : (decide (Int.land (fromBytesSigned [b]) 1 ≠ 0) = b.toNat.testBit 0) ∧
    (decide (Int.land (fromBytesSigned [b]) 2 ≠ 0) = b.toNat.testBit 1) ∧
    (decide (Int.land (fromBytesSigned [b]) 4 ≠ 0) = b.toNat.testBit 2) ∧
    (decide (Int.land (fromBytesSigned [b]) 8 ≠ 0) = b.toNat.testBit 3) := by
  have key : ∀ n : Fin 256, (decide (Int.land (fromBytesSigned [UInt8.ofFin n]) 1 ≠ 0) = n.val.testBit 0) ∧
    (decide (Int.land (fromBytesSigned [UInt8.ofFin n]) 2 ≠ 0) = n.val.testBit 1) ∧
    (decide (Int.land (fromBytesSigned [UInt8.ofFin n]) 4 ≠ 0) = n.val.testBit 2) ∧
    (decide (Int.land (fromBytesSigned [UInt8.ofFin n]) 8 ≠ 0) = n.val.testBit 3) := by decide +kernel
  exact key b.toFin

/-- C20, on the wire: the flags that a message reports after it was read are the four low bits of the byte after the prefix, the size and
the request id, whatever its other bits are; a message is a request exactly if it is not a response.  The request id is the big-endian
signed number of the eight bytes before. -/
theorem C20_message (self m : OutboundMessage) (marker size id : Bytes) (flags : UInt8) (tail rest : Bytes)
    (h1 : marker.length = 2) (h2 : size.length = 4) (h3 : id.length = 8)
    (h : self.readFrom none (marker ++ (size ++ (id ++ (flags :: tail)))) = .ok (m, rest)) :
    m.isResponse = flags.toNat.testBit 0 ∧ m.isRequest = !flags.toNat.testBit 0 ∧ m.isError = flags.toNat.testBit 1 ∧
    m.isCompress = flags.toNat.testBit 2 ∧ m.isHandshake = flags.toNat.testBit 3 ∧ m.requestId = fromBytesSigned id := by
  have h : (TcpHeader.readFrom >>= fun h => (ThreadContext.readFrom >>= fun ctx =>
    if h.variable_header_size > 0 then (readBytes (h.variable_header_size - ctx.size) >>= fun vb =>
      pure { self with tcp_header := h, ctx := ctx, variable_bytes := some vb })
    else pure { self with tcp_header := h, ctx := ctx } : Reader OutboundMessage)) (marker ++ (size ++ (id ++ (flags :: tail)))) = .ok (m, rest) := h
  obtain ⟨t, r1, ht, h⟩ := Reader.bind_eq_ok.1 h
  obtain ⟨c, r2, hc, h⟩ := Reader.bind_eq_ok.1 h
  have hm : m.tcp_header = t := by
    by_cases hv : t.variable_header_size > 0
    · rw [if_pos hv] at h
      obtain ⟨b, r3, hb, h⟩ := Reader.bind_eq_ok.1 h
      have : (Except.ok _ : Except Err _) = .ok _ := h
      cases this
      rfl
    · rw [if_neg hv] at h
      have : (Except.ok _ : Except Err _) = .ok _ := h
      cases this
      rfl
  obtain ⟨hs, hi⟩ := header_parts h1 h2 h3 ht
  obtain ⟨b0, b1, b2, b3⟩ := bits flags
  have r : m.tcp_header.isResponse = flags.toNat.testBit 0 := by rw [hm, ← b0, ← hs]; rfl
  refine ⟨?_, ?_, ?_, ?_, ?_, ?_⟩
  · show (!(!m.tcp_header.isResponse)) = _
    rw [r, Bool.not_not]
  · show (!m.tcp_header.isResponse) = _
    rw [r]
  · show m.tcp_header.isError = _
    rw [hm, ← b1, ← hs]; rfl
  · show m.tcp_header.isCompress = _
    rw [hm, ← b2, ← hs]; rfl
  · show m.tcp_header.isHandshake = _
    rw [hm, ← b3, ← hs]; rfl
  · show m.tcp_header.request_id = _
    rw [hm, hi]

/-- A response that is an error and a handshake, with a bit set that has no meaning. -/
example : (match OutboundMessage.readFrom ⟨⟨[], 0, 0, .none, 0, 0⟩, {}, none, none⟩ none
      ([0x45, 0x53] ++ ([0, 0, 0, 19] ++ ([0, 0, 0, 0, 0, 0, 1, 2] ++ (0x8B :: [0, 0, 0, 0, 0, 0, 0, 0, 0, 0, 7])))) with
    | .ok (m, rest) => m.isResponse && m.isError && !m.isCompress && m.isHandshake && m.requestId = 258 && rest = [7]
    | .error _ => false) = true := by decide +kernel

end Verif
