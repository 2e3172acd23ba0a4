import Verif.Spec.Wire
import Verif.Props.Collections
import Verif.Model.Protobuf
/-!
# C11: the numbers on the wire

The peer is a Java program that writes the ordinal of each enum constant; these tables are the
declaration orders of the Java enums (for REST statuses: the order of the HTTP status codes).
-/

namespace Verif
open Py StreamInput StreamOutput

/-- C11: each member is written as one byte, its position in the peer's enum, and every member has a
position. -/
theorem C11_wire_values :
    (∀ m : RestMethod, ∃ i : Fin 9, javaMethods[i]? = some (m, m.name) ∧ (writeEnum m).out = [UInt8.ofNat i]) ∧
    (∀ v : HttpVersion, ∃ i : Fin 2, javaHttpVersions[i]? = some v ∧ (writeEnum v).out = [UInt8.ofNat i]) ∧
    (∀ s : RestStatus, ∃ i : Fin 47, (javaStatuses.map (·.1))[i]? = some s ∧ (writeEnum s).out = [UInt8.ofNat i]) ∧
    (∀ u : TimeUnit, ∃ i : Fin 7, javaTimeUnits[i]? = some u ∧ (writeEnum u).out = [UInt8.ofNat i]) ∧
    (∀ u : ByteSizeUnit, ∃ i : Fin 6, javaByteSizeUnits[i]? = some u ∧ (writeEnum u).out = [UInt8.ofNat i]) ∧
    (∀ r : RequestType, ∃ i : Fin 9, javaRequestTypes[i]? = some r ∧ (writeEnum r).out = [UInt8.ofNat i] ∧
      ∀ uid, (ExtensionTransportRequest.new r uid).er.requestType = i) := by
  refine ⟨?_, ?_, ?_, ?_, ?_, ?_⟩
  iterate 5 (exact fun e => by cases e <;> decide +kernel)
  intro e
  refine ⟨⟨e.value.toNat, by cases e <;> decide⟩, by cases e <;> decide +kernel, by cases e <;> decide +kernel, fun uid => ?_⟩
  cases e <;> rfl

/-- C11: REST statuses are numbered in the order of their HTTP codes. -/
theorem C11_status_order : (javaStatuses.map (·.2)).Pairwise (· < ·) := by decide +kernel

end Verif
