import Verif.Model.Message
/-!
# What a message says about itself: transport/network_message.py
-/

namespace Verif
namespace OutboundMessage

/-- `NetworkMessage.version`, transport/network_message.py:33-35. -/
def version (m : OutboundMessage) : VerField := m.tcp_header.version
/-- `NetworkMessage.request_id`, transport/network_message.py:37-39. -/
def requestId (m : OutboundMessage) : Int := m.tcp_header.request_id
/-- `NetworkMessage.is_request`, transport/network_message.py:41-43. -/
def isRequest (m : OutboundMessage) : Bool := m.tcp_header.isRequest
/-- `NetworkMessage.is_response`, transport/network_message.py:45-47. -/
def isResponse (m : OutboundMessage) : Bool := !m.tcp_header.isRequest
/-- `NetworkMessage.is_error`, transport/network_message.py:49-51. -/
def isError (m : OutboundMessage) : Bool := m.tcp_header.isError
/-- `NetworkMessage.is_compress`, transport/network_message.py:53-55. -/
def isCompress (m : OutboundMessage) : Bool := m.tcp_header.isCompress
/-- `NetworkMessage.is_handshake`, transport/network_message.py:57-59. -/
def isHandshake (m : OutboundMessage) : Bool := m.tcp_header.isHandshake

end OutboundMessage
end Verif
