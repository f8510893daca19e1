import Verif.Spec.Trace
import Verif.Spec.Monitor

/-!
# What the library keeps in memory: vocabulary of C124 and C125
-/

namespace Knx.Spec

/-- The number of bytes a decoded telegram takes: message code, size of the additional information, the blocks, the rest. -/
def telegramSize (c : Cemi) : Nat := 2 + infosSize c.infos + c.serviceInfo.length

/-- The bytes all telegrams in the list take. -/
def roomFor (cs : List Cemi) : Nat := (cs.map telegramSize).sum

/-- The value of the length field in the header of a datagram. -/
def statedLength (d : Bytes) : Nat := 256 * (d.getD 4 0).toNat + (d.getD 5 0).toNat

/-- The bytes received as datagrams. -/
def receivedBytes (tr : List Obs) : Nat := ((received tr).map List.length).sum

end Knx.Spec
