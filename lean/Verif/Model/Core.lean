import Verif.Model.Addresses

/-!
# Model of `src/packets/core.rs`
-/

namespace Knx

/-- core.rs:31 `SYSTEM_MULTICAST_ADDRESS`. -/
def systemMulticastAddress : Ipv4 := ⟨224, 0, 23, 12⟩
/-- core.rs:33 `DISCOVERY_ENDPOINT_PORT`. -/
def discoveryEndpointPort : U16 := 3671

/-! ## Header (core.rs:35-87) -/

/-- core.rs:38-41 `struct KnxNetIpHeader`. -/
structure Header where
  serviceType : U16
  totalLength : U16
  deriving DecidableEq, Repr

/-- core.rs:44-49 `KnxNetIpHeader::packet` (constants at core.rs:14, 16). -/
def Header.packet (h : Header) : Bytes := [6, 0x10] ++ be16 h.serviceType ++ be16 h.totalLength

/-- core.rs:51-86 `KnxNetIpHeader::from_packet`. -/
def Header.fromPacket : Rd Header := do
  let headerLength ← Rd.u8
  Rd.ensure (headerLength == 6)
  let version ← Rd.u8
  Rd.ensure (version == 0x10)
  let serviceType ← Rd.u16
  let totalLength ← Rd.u16
  return ⟨serviceType, totalLength⟩

/-! ## HPAI (core.rs:700-781) -/

/-- core.rs:706-709 `struct HPAI`. -/
structure Hpai where
  protocolCode : U8
  address : SockAddr
  deriving DecidableEq, Repr

/-- core.rs:712-717 `HPAI::udp` (`HPAI_IPV4_UDP = 1`, address 0.0.0.0:0). -/
def Hpai.udp : Hpai := ⟨1, ⟨⟨0, 0, 0, 0⟩, 0⟩⟩
/-- core.rs:719-724 `HPAI::tcp` (`HPAI_IPV4_TCP = 2`). -/
def Hpai.tcp : Hpai := ⟨2, ⟨⟨0, 0, 0, 0⟩, 0⟩⟩
/-- core.rs:726-728 `HPAI::set_addr`. -/
def Hpai.setAddr (h : Hpai) (a : SockAddr) : Hpai := { h with address := a }

/-- core.rs:730-738 `HPAI::packet`. -/
def Hpai.packet (h : Hpai) : Bytes :=
  [8] ++ [h.protocolCode] ++ h.address.ip.octets ++ be16 h.address.port

/-- core.rs:740-780 `HPAI::from_packet`. -/
def Hpai.fromPacket : Rd Hpai := do
  let size ← Rd.u8
  Rd.ensure (size == 8)
  let code ← Rd.u8
  let ip1 ← Rd.u8
  let ip2 ← Rd.u8
  let ip3 ← Rd.u8
  let ip4 ← Rd.u8
  let port ← Rd.u16
  return ⟨code, ⟨⟨ip1, ip2, ip3, ip4⟩, port⟩⟩

/-! ## Connection request information (core.rs:89-112) -/

/-- core.rs:89-92 `struct CRI`. -/
structure Cri where
  connectionType : U8
  deriving DecidableEq, Repr

/-- core.rs:95-99 `CRI::tunnel_linklayer` (0x02). -/
def Cri.tunnelLinklayer : Cri := ⟨0x02⟩
/-- core.rs:100-102 `CRI::tunnel_raw` (0x04). -/
def Cri.tunnelRaw : Cri := ⟨0x04⟩
/-- core.rs:103-107 `CRI::tunnel_busmonitor` (0x80). -/
def Cri.tunnelBusmonitor : Cri := ⟨0x80⟩
/-- core.rs:109-111 `CRI::packet`. -/
def Cri.packet (c : Cri) : Bytes := [4, 4, c.connectionType, 0]

/-! ## Connection response data block (core.rs:114-153) -/

/-- core.rs:117-119 `struct CRD`. -/
structure Crd where
  address : IndAddr
  deriving DecidableEq, Repr

/-- core.rs:122-146 `CRD::from_packet`. -/
def Crd.fromPacket : Rd Crd := do
  let size ← Rd.u8
  Rd.ensure (size == 4)
  let tunnelConnection ← Rd.u8
  Rd.ensure (tunnelConnection == 4)
  let addr ← Rd.u16
  return ⟨IndAddr.ofU16 addr⟩

/-- core.rs:148-152 `CRD::packet`. -/
def Crd.packet (c : Crd) : Bytes := [0x04, 0x04] ++ be16 c.address.toU16

/-! ## Connection request (core.rs:155-200) -/

/-- core.rs:159-163 `struct ConnectionRequest`. -/
structure ConnectionRequest where
  controlEndpoint : Hpai
  dataEndpoint : Hpai
  cri : Cri
  deriving DecidableEq, Repr

/-- core.rs:166-172 `ConnectionRequest::tunnel`. -/
def ConnectionRequest.tunnel : ConnectionRequest := ⟨Hpai.udp, Hpai.udp, Cri.tunnelLinklayer⟩
/-- core.rs:174-180 `ConnectionRequest::busmonitor`. -/
def ConnectionRequest.busmonitor : ConnectionRequest := ⟨Hpai.udp, Hpai.udp, Cri.tunnelBusmonitor⟩

/-- core.rs:182-199 `ConnectionRequest::packet`. -/
def ConnectionRequest.packet (c : ConnectionRequest) : Bytes :=
  let size := 6 + c.controlEndpoint.packet.length + c.dataEndpoint.packet.length + c.cri.packet.length
  [6, 0x10, 2, 5] ++ be16 (BitVec.ofNat 16 size) ++ c.controlEndpoint.packet ++ c.dataEndpoint.packet
    ++ c.cri.packet

/-! ## Connection response (core.rs:202-301) -/

/-- core.rs:206-211 `struct ConnectionResponse`. -/
structure ConnectionResponse where
  channel : U8
  status : U8
  dataEndpoint : Hpai
  crd : Crd
  deriving DecidableEq, Repr

/-- core.rs:223-293 `ConnectionResponse::from_packet`. -/
def ConnectionResponse.fromPacket : Rd ConnectionResponse := do
  let headerSize ← Rd.u8
  Rd.ensure (headerSize == 6)
  let version ← Rd.u8
  Rd.ensure (version == 0x10)
  let connectResponse ← Rd.u16
  Rd.ensure (connectResponse == 0x0206)
  let size ← Rd.u16
  Rd.ensure (decide (size ≥ 8))
  let channel ← Rd.u8
  let status ← Rd.u8
  -- core.rs:270-282: E_CONNECTION_TYPE, E_CONNECTION_OPTION, E_NO_MORE_CONNECTIONS, E_TUNNELING_LAYER
  Rd.ensure (!(status == 0x22 || status == 0x23 || status == 0x24 || status == 0x29))
  let dataEndpoint ← Hpai.fromPacket
  let crd ← Crd.fromPacket
  return ⟨channel, status, dataEndpoint, crd⟩

/-- core.rs:295-300 `ConnectionResponse::packet` (only one byte for the length). -/
def ConnectionResponse.packet (c : ConnectionResponse) : Bytes :=
  [0x06, 0x10, 0x02, 0x06, 0x08, c.channel, c.status] ++ c.dataEndpoint.packet ++ c.crd.packet

/-! ## Connectionstate request / response (core.rs:303-453) -/

/-- core.rs:307-310 `struct ConnectionstateRequest`. -/
structure ConnectionstateRequest where
  channel : U8
  controlEndpoint : Hpai
  deriving DecidableEq, Repr

/-- core.rs:320-325 `ConnectionstateRequest::from_connection_response`. -/
def ConnectionstateRequest.ofResponse (r : ConnectionResponse) : ConnectionstateRequest :=
  ⟨r.channel, r.dataEndpoint⟩

/-- core.rs:327-371 `ConnectionstateRequest::from_packet`. -/
def ConnectionstateRequest.fromPacket : Rd ConnectionstateRequest := do
  let headerSize ← Rd.u8
  Rd.ensure (headerSize == 6)
  let version ← Rd.u8
  Rd.ensure (version == 0x10)
  let code ← Rd.u16
  Rd.ensure (code == 0x0207)
  let _size ← Rd.u16
  let channel ← Rd.u8
  let _padding ← Rd.u8
  let controlEndpoint ← Hpai.fromPacket
  return ⟨channel, controlEndpoint⟩

/-- core.rs:373-384 `ConnectionstateRequest::packet`. -/
def ConnectionstateRequest.packet (c : ConnectionstateRequest) : Bytes :=
  let size := 4 + 4 + c.controlEndpoint.packet.length
  [0x06, 0x10, 0x02, 0x07] ++ be16 (BitVec.ofNat 16 size) ++ [c.channel] ++ [0] ++ c.controlEndpoint.packet

/-- core.rs:394-397 `struct ConnectionstateResponse`. -/
structure ConnectionstateResponse where
  channel : U8
  status : U8
  deriving DecidableEq, Repr

/-- core.rs:400-447 `ConnectionstateResponse::from_packet`. -/
def ConnectionstateResponse.fromPacket : Rd ConnectionstateResponse := do
  let headerSize ← Rd.u8
  Rd.ensure (headerSize == 6)
  let version ← Rd.u8
  Rd.ensure (version == 0x10)
  let code ← Rd.u16
  Rd.ensure (code == 0x0208)
  let size ← Rd.u16
  Rd.ensure (size == 8)
  let channel ← Rd.u8
  let status ← Rd.u8
  return ⟨channel, status⟩

/-- core.rs:449-452 `ConnectionstateResponse::packet`. -/
def ConnectionstateResponse.packet (c : ConnectionstateResponse) : Bytes :=
  [0x06, 0x10, 0x02, 0x08, 0x00, 0x08, c.channel, c.status]

/-! ## Disconnect request / response (core.rs:455-593) -/

/-- core.rs:459-462 `struct DisconnectRequest`. -/
structure DisconnectRequest where
  channel : U8
  controlEndpoint : Hpai
  deriving DecidableEq, Repr

/-- core.rs:471-476 `DisconnectRequest::from_connection_response`. -/
def DisconnectRequest.ofResponse (r : ConnectionResponse) : DisconnectRequest :=
  ⟨r.channel, r.dataEndpoint⟩

/-- core.rs:478-503 `DisconnectRequest::from_packet` (reads three bytes, the first one at least
8, and then an HPAI; no header, no service code). -/
def DisconnectRequest.fromPacket : Rd DisconnectRequest := do
  let headerSize ← Rd.u8
  Rd.ensure (decide (headerSize ≥ 8))
  let channel ← Rd.u8
  let _reserved ← Rd.u8
  let controlEndpoint ← Hpai.fromPacket
  return ⟨channel, controlEndpoint⟩

/-- core.rs:505-516 `DisconnectRequest::packet`. -/
def DisconnectRequest.packet (c : DisconnectRequest) : Bytes :=
  let size := 4 + 4 + c.controlEndpoint.packet.length
  [0x06, 0x10, 0x02, 0x09] ++ be16 (BitVec.ofNat 16 size) ++ [c.channel] ++ [0] ++ c.controlEndpoint.packet

/-- core.rs:523-526 `struct DisconnectResponse`. -/
structure DisconnectResponse where
  channel : U8
  status : U8
  deriving DecidableEq, Repr

/-- core.rs:529-534 `DisconnectResponse::from_disconnect_request`. -/
def DisconnectResponse.ofRequest (r : DisconnectRequest) : DisconnectResponse := ⟨r.channel, 0⟩

/-- core.rs:536-583 `DisconnectResponse::from_packet`. -/
def DisconnectResponse.fromPacket : Rd DisconnectResponse := do
  let headerSize ← Rd.u8
  Rd.ensure (headerSize == 6)
  let version ← Rd.u8
  Rd.ensure (version == 0x10)
  let code ← Rd.u16
  Rd.ensure (code == 0x020a)
  let size ← Rd.u16
  Rd.ensure (size == 8)
  let channel ← Rd.u8
  let status ← Rd.u8
  return ⟨channel, status⟩

/-- core.rs:585-592 `DisconnectResponse::packet`. -/
def DisconnectResponse.packet (c : DisconnectResponse) : Bytes :=
  [0x06, 0x10, 0x02, 0x0A] ++ be16 8 ++ [c.channel] ++ [c.status]

/-! ## Search request (core.rs:595-643) -/

/-- core.rs:599-601 `struct SearchRequest`. -/
structure SearchRequest where
  discoveryEndpoint : Hpai
  deriving DecidableEq, Repr

/-- core.rs:607-611 `SearchRequest::udp`. -/
def SearchRequest.udp : SearchRequest :=
  ⟨Hpai.udp.setAddr ⟨systemMulticastAddress, discoveryEndpointPort⟩⟩

/-- core.rs:615-619 `SearchRequest::udp_unicast`. -/
def SearchRequest.udpUnicast (a : SockAddr) : SearchRequest := ⟨Hpai.udp.setAddr a⟩

/-- core.rs:621-629 `SearchRequest::packet`. -/
def SearchRequest.packet (s : SearchRequest) : Bytes :=
  let size := 4 + 2 + s.discoveryEndpoint.packet.length
  [0x06, 0x10, 0x02, 0x01] ++ be16 (BitVec.ofNat 16 size) ++ s.discoveryEndpoint.packet

/-- core.rs:631-642 `SearchRequest::from_packet`. -/
def SearchRequest.fromPacket : Rd SearchRequest := do
  let header ← Header.fromPacket
  Rd.ensure (header.serviceType == 0x0201)
  let discoveryEndpoint ← Hpai.fromPacket
  return ⟨discoveryEndpoint⟩

/-! ## Description information blocks (core.rs:783-1289) -/

/-- core.rs:786-793 `enum DescriptionTypeCode`. -/
inductive DescType where
  | deviceInfo
  | supportedServiceFamilies
  | ipConfig
  | ipCurrentConfig
  | knxAddresses
  | manufacturerData
  deriving DecidableEq, Repr

/-- core.rs:787-792: the discriminants (`type_code as u8` at 849). -/
def DescType.code : DescType → U8
  | .deviceInfo => 0x01
  | .supportedServiceFamilies => 0x02
  | .ipConfig => 0x03
  | .ipCurrentConfig => 0x04
  | .knxAddresses => 0x05
  | .manufacturerData => 0xFE

/-- core.rs:795-809 `DescriptionTypeCode::try_from(u8)`. -/
def DescType.ofU8 (v : U8) : Res DescType :=
  if v = 0x01 then .ok .deviceInfo
  else if v = 0x02 then .ok .supportedServiceFamilies
  else if v = 0x03 then .ok .ipConfig
  else if v = 0x04 then .ok .ipCurrentConfig
  else if v = 0x05 then .ok .knxAddresses
  else if v = 0xFE then .ok .manufacturerData
  else .err

/-- core.rs:899-904 `enum KnxMedium`. -/
inductive KnxMedium where
  | tp1
  | pl110
  | rf
  | ip
  deriving DecidableEq, Repr

/-- core.rs:900-903: the discriminants. -/
def KnxMedium.code : KnxMedium → U8
  | .tp1 => 0x02
  | .pl110 => 0x03
  | .rf => 0x10
  | .ip => 0x20

/-- core.rs:906-918 `KnxMedium::try_from(u8)`. -/
def KnxMedium.ofU8 (v : U8) : Res KnxMedium :=
  if v = 0x02 then .ok .tp1
  else if v = 0x03 then .ok .pl110
  else if v = 0x10 then .ok .rf
  else if v = 0x20 then .ok .ip
  else .err

/-- core.rs:920-927 `bitflags! struct DeviceStatus: u8` (one defined flag, 0x01). -/
structure DeviceStatus where
  bits : U8
  deriving DecidableEq, Repr

/-- bitflags `from_bits_truncate`: undefined bits are dropped (used at core.rs:1005). -/
def DeviceStatus.ofBitsTruncate (b : U8) : DeviceStatus := ⟨b &&& 0x01#8⟩

/-- core.rs:932-944 `struct DeviceInformationDIB`. -/
structure DeviceInfo where
  structureLength : U8
  descriptionType : DescType
  medium : KnxMedium
  status : DeviceStatus
  address : IndAddr
  projectId : U16
  serial : Vector U8 6
  multicast : Ipv4
  mac : Vector U8 6
  friendlyName : Vector U8 30
  deriving DecidableEq, Repr

/-- `ISO_8859_1.encode(_, EncoderTrap::Strict)` of the `encoding` crate: every character up to
U+00FF is its code point, any other character is an error. -/
def isoEncode : List Char → Option Bytes
  | [] => some []
  | c :: cs =>
    if c.toNat ≤ 0xff then (isoEncode cs).map (BitVec.ofNat 8 c.toNat :: ·) else none

/-- `ISO_8859_1.decode(_, DecoderTrap::Strict)`: every byte is the character with that code. -/
def isoDecode (b : Bytes) : List Char := b.map fun x => Char.ofNat x.toNat

/-- core.rs:948-979 `DeviceInformationDIB::new`: `try_into::<[u8; 30]>` needs exactly 30 bytes. -/
def DeviceInfo.new (structureLength : U8) (medium : KnxMedium) (status : DeviceStatus) (address : IndAddr)
    (projectId : U16) (serial : Vector U8 6) (multicast : Ipv4) (mac : Vector U8 6)
    (friendlyName : List Char) : Res DeviceInfo :=
  match isoEncode friendlyName with
  | none => .err
  | some b =>
    if h : b.length = 30 then
      .ok { structureLength, descriptionType := .deviceInfo, medium, status, address, projectId, serial,
            multicast, mac, friendlyName := ⟨b.toArray, by simpa using h⟩ }
    else .err

/-- core.rs:982-986 `DeviceInformationDIB::friendly_name`. -/
def DeviceInfo.friendlyNameStr (d : DeviceInfo) : Res (List Char) := .ok (isoDecode d.friendlyName.toList)

/-- core.rs:988-999 `DeviceInformationDIB::packet`. -/
def DeviceInfo.packet (d : DeviceInfo) : Bytes :=
  [d.medium.code] ++ [d.status.bits] ++ be16 d.address.toU16 ++ be16 d.projectId ++ d.serial.toList
    ++ d.multicast.octets ++ d.mac.toList ++ d.friendlyName.toList

/-- core.rs:1001-1042 `DeviceInformationDIB::from_packet`. -/
def DeviceInfo.fromPacket (structureLength : U8) : Rd DeviceInfo := do
  let mediumByte ← Rd.u8
  let medium ← Rd.lift (KnxMedium.ofU8 mediumByte)
  let statusByte ← Rd.u8
  let addr ← Rd.u16
  let projectId ← Rd.u16
  let serial ← Rd.exact 6
  let multicast ← Rd.exact 4
  let mac ← Rd.exact 6
  let friendlyName ← Rd.exact 30
  return { structureLength, descriptionType := .deviceInfo, medium,
           status := DeviceStatus.ofBitsTruncate statusByte, address := IndAddr.ofU16 addr, projectId,
           serial, multicast := Ipv4.ofVec multicast, mac, friendlyName }

/-- core.rs:1048-1051 `struct ServiceFamily`. -/
structure ServiceFamily where
  family : U8
  version : U8
  deriving DecidableEq, Repr

/-- core.rs:1056-1060 `struct SupportedServiceFamiliesDIB`. -/
structure ServiceFamilies where
  structureLength : U8
  descriptionType : DescType
  families : List ServiceFamily
  deriving DecidableEq, Repr

/-- core.rs:1063-1072 `SupportedServiceFamiliesDIB::packet`. -/
def ServiceFamilies.packet (s : ServiceFamilies) : Bytes :=
  s.families.flatMap fun f => [f.family, f.version]

/-- core.rs:1076-1081: the loop body executed `n` times. -/
def readFamilies : Nat → Rd (List ServiceFamily)
  | 0 => pure []
  | n + 1 => do
    let family ← Rd.u8
    let version ← Rd.u8
    let rest ← readFamilies n
    return ⟨family, version⟩ :: rest

/-- core.rs:1074-1088 `SupportedServiceFamiliesDIB::from_packet`; `(structure_length - 2) / 2`
is a checked `u8` subtraction. -/
def ServiceFamilies.fromPacket (m : Mode) (structureLength : U8) : Rd ServiceFamilies := do
  let len ← Rd.lift (subU m structureLength 2)
  let families ← readFamilies (len.toNat / 2)
  return ⟨structureLength, .supportedServiceFamilies, families⟩

/-- core.rs:1094-1102 `struct IpConfigDIB`. -/
structure IpConfig where
  structureLength : U8
  descriptionType : DescType
  ipAddress : Ipv4
  subnetMask : Ipv4
  defaultGateway : Ipv4
  capabilities : U8
  assignmentMethod : U8
  deriving DecidableEq, Repr

/-- core.rs:1105-1113 `IpConfigDIB::packet`. -/
def IpConfig.packet (c : IpConfig) : Bytes :=
  c.ipAddress.octets ++ c.subnetMask.octets ++ c.defaultGateway.octets ++ [c.capabilities]
    ++ [c.assignmentMethod]

/-- core.rs:1115-1142 `IpConfigDIB::from_packet`. -/
def IpConfig.fromPacket (structureLength : U8) : Rd IpConfig := do
  let ipAddress ← Rd.exact 4
  let subnetMask ← Rd.exact 4
  let defaultGateway ← Rd.exact 4
  let capabilities ← Rd.u8
  let assignmentMethod ← Rd.u8
  return ⟨structureLength, .ipConfig, Ipv4.ofVec ipAddress, Ipv4.ofVec subnetMask,
    Ipv4.ofVec defaultGateway, capabilities, assignmentMethod⟩

/-- core.rs:1148-1157 `struct IpCurrentConfigDIB`. -/
structure IpCurrentConfig where
  structureLength : U8
  descriptionType : DescType
  ipAddress : Ipv4
  subnetMask : Ipv4
  defaultGateway : Ipv4
  dhcpServer : Ipv4
  assignmentMethod : U8
  reserved : U8
  deriving DecidableEq, Repr

/-- core.rs:1160-1169 `IpCurrentConfigDIB::packet`. -/
def IpCurrentConfig.packet (c : IpCurrentConfig) : Bytes :=
  c.ipAddress.octets ++ c.subnetMask.octets ++ c.defaultGateway.octets ++ c.dhcpServer.octets
    ++ [c.assignmentMethod] ++ [c.reserved]

/-- core.rs:1171-1207 `IpCurrentConfigDIB::from_packet`. -/
def IpCurrentConfig.fromPacket (structureLength : U8) : Rd IpCurrentConfig := do
  let ipAddress ← Rd.exact 4
  let subnetMask ← Rd.exact 4
  let defaultGateway ← Rd.exact 4
  let dhcpServer ← Rd.exact 4
  let assignmentMethod ← Rd.u8
  let reserved ← Rd.u8
  return ⟨structureLength, .ipCurrentConfig, Ipv4.ofVec ipAddress, Ipv4.ofVec subnetMask,
    Ipv4.ofVec defaultGateway, Ipv4.ofVec dhcpServer, assignmentMethod, reserved⟩

/-- core.rs:1213-1218 `struct KNXAddressesDIB` (the addresses are stored as `Ipv4Addr`). -/
structure KnxAddresses where
  structureLength : U8
  descriptionType : DescType
  individual : Ipv4
  additional : List Ipv4
  deriving DecidableEq, Repr

/-- core.rs:1221-1228 `KNXAddressesDIB::packet`. -/
def KnxAddresses.packet (k : KnxAddresses) : Bytes :=
  k.individual.octets ++ k.additional.flatMap Ipv4.octets

/-- core.rs:1238-1245: the loop body executed `n` times (4 bytes each). -/
def readIps : Nat → Rd (List Ipv4)
  | 0 => pure []
  | n + 1 => do
    let a ← Rd.exact 4
    let rest ← readIps n
    return Ipv4.ofVec a :: rest

/-- core.rs:1230-1253 `KNXAddressesDIB::from_packet`; `(structure_length - 4) / 2` iterations. -/
def KnxAddresses.fromPacket (m : Mode) (structureLength : U8) : Rd KnxAddresses := do
  let individual ← Rd.exact 4
  let len ← Rd.lift (subU m structureLength 4)
  let additional ← readIps (len.toNat / 2)
  return ⟨structureLength, .knxAddresses, Ipv4.ofVec individual, additional⟩

/-- core.rs:1259-1264 `struct ManufacturerDataDIB`. -/
structure ManufacturerData where
  structureLength : U8
  descriptionType : DescType
  manufacturerId : U16
  data : Bytes
  deriving DecidableEq, Repr

/-- core.rs:1267-1272 `ManufacturerDataDIB::packet`. -/
def ManufacturerData.packet (d : ManufacturerData) : Bytes := be16 d.manufacturerId ++ d.data

/-- core.rs:1274-1288 `ManufacturerDataDIB::from_packet`: reads `structure_length` data bytes. -/
def ManufacturerData.fromPacket (structureLength : U8) : Rd ManufacturerData := do
  let manufacturerId ← Rd.u16
  let data ← Rd.exactVec structureLength.toNat
  return ⟨structureLength, .manufacturerData, manufacturerId, data⟩

/-- core.rs:814-821 `enum DIB`. -/
inductive Dib where
  | deviceInformation (d : DeviceInfo)
  | supportedServiceFamilies (s : ServiceFamilies)
  | ipConfig (c : IpConfig)
  | ipCurrentConfig (c : IpCurrentConfig)
  | knxAddresses (k : KnxAddresses)
  | manufacturerData (d : ManufacturerData)
  deriving DecidableEq, Repr

/-- core.rs:824-833 `DIB::structure_length`. -/
def Dib.structureLength : Dib → U8
  | .deviceInformation d => d.structureLength
  | .supportedServiceFamilies s => s.structureLength
  | .ipConfig c => c.structureLength
  | .ipCurrentConfig c => c.structureLength
  | .knxAddresses k => k.structureLength
  | .manufacturerData d => d.structureLength

/-- core.rs:838-845: type code and data part. -/
def Dib.parts : Dib → DescType × Bytes
  | .deviceInformation d => (.deviceInfo, d.packet)
  | .supportedServiceFamilies s => (.supportedServiceFamilies, s.packet)
  | .ipConfig c => (.ipConfig, c.packet)
  | .ipCurrentConfig c => (.ipCurrentConfig, c.packet)
  | .knxAddresses k => (.knxAddresses, k.packet)
  | .manufacturerData d => (.manufacturerData, d.packet)

/-- core.rs:835-859 `DIB::packet`. -/
def Dib.packet (d : Dib) : Bytes :=
  let (typeCode, dataPacket) := d.parts
  let structureLength := 2 + dataPacket.length
  [BitVec.ofNat 8 structureLength] ++ [typeCode.code] ++ dataPacket
    ++ (if structureLength % 2 ≠ 0 then [0x00] else [])

/-- core.rs:861-894 `DIB::from_packet`. -/
def Dib.fromPacket (m : Mode) : Rd Dib := do
  let structureLength ← Rd.u8
  let typeByte ← Rd.u8
  let descType ← Rd.lift (DescType.ofU8 typeByte)
  match descType with
  | .deviceInfo => return .deviceInformation (← DeviceInfo.fromPacket structureLength)
  | .supportedServiceFamilies => return .supportedServiceFamilies (← ServiceFamilies.fromPacket m structureLength)
  | .ipConfig => return .ipConfig (← IpConfig.fromPacket structureLength)
  | .ipCurrentConfig => return .ipCurrentConfig (← IpCurrentConfig.fromPacket structureLength)
  | .knxAddresses => return .knxAddresses (← KnxAddresses.fromPacket m structureLength)
  | .manufacturerData => return .manufacturerData (← ManufacturerData.fromPacket structureLength)

/-! ## Search response (core.rs:645-698) -/

/-- core.rs:649-653 `struct SearchResponse`. -/
structure SearchResponse where
  controlEndpoint : Hpai
  deviceHardware : DeviceInfo
  serviceFamilies : ServiceFamilies
  deriving DecidableEq, Repr

/-- core.rs:656-670 `SearchResponse::packet` (the DIB headers are missing). -/
def SearchResponse.packet (s : SearchResponse) : Bytes :=
  let size := 4 + 2 + s.controlEndpoint.packet.length + s.deviceHardware.packet.length
    + s.serviceFamilies.packet.length
  [0x06, 0x10, 0x02, 0x02] ++ be16 (BitVec.ofNat 16 size) ++ s.controlEndpoint.packet
    ++ s.deviceHardware.packet ++ s.serviceFamilies.packet

/-- core.rs:672-697 `SearchResponse::from_packet`. -/
def SearchResponse.fromPacket (m : Mode) : Rd SearchResponse := do
  let header ← Header.fromPacket
  Rd.ensure (header.serviceType == 0x0202)
  let controlEndpoint ← Hpai.fromPacket
  let dib1 ← Dib.fromPacket m
  let deviceHardware ← match dib1 with
    | .deviceInformation d => pure d
    | _ => Rd.fail
  let dib2 ← Dib.fromPacket m
  let serviceFamilies ← match dib2 with
    | .supportedServiceFamilies s => pure s
    | _ => Rd.fail
  return ⟨controlEndpoint, deviceHardware, serviceFamilies⟩

end Knx
