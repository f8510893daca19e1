import Verif.Model.Parse
import Verif.Spec.Emi

/-!
# Specification: KNXnet/IP frames

The frame layouts of the KNXnet/IP core and tunneling standards (03.08.02, 03.08.04) as byte
strings, independent of the code's encoders and decoders.
-/

namespace Knx.Spec

/-- A KNXnet/IP frame: header length 6, version 1.0, service type, total length, body. -/
def frame (service : Nat) (body : Bytes) : Bytes :=
  [0x06, 0x10] ++ word service ++ word (6 + body.length) ++ body

/-- A header with an arbitrary length field. -/
def header (service len : Nat) : Bytes := [0x06, 0x10] ++ word service ++ word len

/-- Host protocol address information. -/
def hpai (h : Hpai) : Bytes :=
  [8, h.protocolCode, h.address.ip.a, h.address.ip.b, h.address.ip.c, h.address.ip.d]
    ++ word h.address.port.toNat

/-- Service types. -/
def SEARCH_REQUEST : Nat := 0x0201
def SEARCH_RESPONSE : Nat := 0x0202
def CONNECT_REQUEST : Nat := 0x0205
def CONNECT_RESPONSE : Nat := 0x0206
def CONNECTIONSTATE_REQUEST : Nat := 0x0207
def CONNECTIONSTATE_RESPONSE : Nat := 0x0208
def DISCONNECT_REQUEST : Nat := 0x0209
def DISCONNECT_RESPONSE : Nat := 0x020A
def TUNNELING_REQUEST : Nat := 0x0420
def TUNNELING_ACK : Nat := 0x0421
def TUNNELING_FEATURE_RESPONSE : Nat := 0x0423
def TUNNELING_FEATURE_SET : Nat := 0x0424

/-- Feature identifiers (03.08.04). -/
def featureCode : KnxIpFeature → Nat
  | .maskVersion => 2
  | .individualAddress => 6
  | .maxApduLength => 7
  | .infoServiceEnable => 8

/-- KNX medium codes. -/
def mediumCode : KnxMedium → Nat
  | .tp1 => 2
  | .pl110 => 3
  | .rf => 0x10
  | .ip => 0x20

/-- Code number of an individual address (area and line are 4-bit numbers). -/
def indCode (a : IndAddr) : Nat := a.area.toNat * 4096 + a.line.toNat * 256 + a.address.toNat

/-- The individual address has 4-bit area and line. -/
def IndInRange (a : IndAddr) : Prop := a.area.toNat < 16 ∧ a.line.toNat < 16

/-- CONNECT_RESPONSE: channel, status, data endpoint HPAI, CRD (length 4, tunnel, address).
`len` is the total-length field. -/
def connectResponse (len : Nat) (c : ConnectionResponse) : Bytes :=
  header CONNECT_RESPONSE len ++ [c.channel, c.status] ++ hpai c.dataEndpoint
    ++ [0x04, 0x04] ++ word (indCode c.crd.address)

/-- The four statuses of a refused connection (03.08.02 section 7.8.2 and 03.08.04). -/
def refusedStatus (s : U8) : Prop := s = 0x22 ∨ s = 0x23 ∨ s = 0x24 ∨ s = 0x29

/-- The body of a device information block (52 bytes). -/
def deviceInfoBody (d : DeviceInfo) : Bytes :=
  [byte (mediumCode d.medium), d.status.bits] ++ word (indCode d.address) ++ word d.projectId.toNat
    ++ d.serial.toList ++ [d.multicast.a, d.multicast.b, d.multicast.c, d.multicast.d] ++ d.mac.toList
    ++ d.friendlyName.toList

/-- The body of a supported-service-families block. -/
def familiesBody (fs : List ServiceFamily) : Bytes := (fs.map fun f => [f.family, f.version]).flatten

/-- The four bytes of an IP address. -/
def ip4 (i : Ipv4) : Bytes := [i.a, i.b, i.c, i.d]

/-- A description information block: length, type code, body. -/
def dib (len code : Nat) (body : Bytes) : Bytes := [byte len, byte code] ++ body

/-- The device information is representable: 4-bit area/line, only the programming-mode bit. -/
def DeviceInfoOk (d : DeviceInfo) : Prop :=
  IndInRange d.address ∧ d.status.bits.toNat < 2 ∧ d.descriptionType = .deviceInfo

/-- `Decodes r x`: the byte string `r` starts with a frame denoting response `x`. The tunneling
request's cEMI is what the declared total length says, continued with zeros if `r` is shorter.
There is deliberately no case for a disconnect request: see property C22. -/
inductive Decodes : Bytes → Response → Prop
  | tunnelingRequest (channel seq pad : U8) (len : Nat) (rest : Bytes) : 10 ≤ len → len < 65536 →
      Decodes (header TUNNELING_REQUEST len ++ [4, channel, seq, pad] ++ rest)
        (.tunnelingRequest ⟨channel, seq, padded (len - 10) rest⟩)
  | tunnelingAck (channel seq status : U8) (rest : Bytes) :
      Decodes (frame TUNNELING_ACK [4, channel, seq, status] ++ rest) (.tunnelingAck ⟨channel, seq, status⟩)
  | featureResponse (channel seq res status value : U8) (f : KnxIpFeature) (rest : Bytes) :
      Decodes (frame TUNNELING_FEATURE_RESPONSE [4, channel, seq, res, byte (featureCode f), status, value] ++ rest)
        (.featureResponse ⟨f, value, status, channel, seq⟩)
  | connectionstateResponse (channel status : U8) (rest : Bytes) :
      Decodes (frame CONNECTIONSTATE_RESPONSE [channel, status] ++ rest)
        (.connectionstateResponse ⟨channel, status⟩)
  | disconnectResponse (channel status : U8) (rest : Bytes) :
      Decodes (frame DISCONNECT_RESPONSE [channel, status] ++ rest) (.disconnectResponse ⟨channel, status⟩)

end Knx.Spec
