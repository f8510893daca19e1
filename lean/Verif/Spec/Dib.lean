import Verif.Spec.Frames

/-!
# Specification: description information blocks
-/

namespace Knx.Spec

/-- Type code (03.08.02 section 7.5.4.1) and body of a description information block. -/
def dibCode : Dib → Nat
  | .deviceInformation _ => 1
  | .supportedServiceFamilies _ => 2
  | .ipConfig _ => 3
  | .ipCurrentConfig _ => 4
  | .knxAddresses _ => 5
  | .manufacturerData _ => 0xFE

/-- The body bytes of a block. -/
def dibBody : Dib → Bytes
  | .deviceInformation d => deviceInfoBody d
  | .supportedServiceFamilies s => familiesBody s.families
  | .ipConfig c =>
    ip4 c.ipAddress ++ ip4 c.subnetMask ++ ip4 c.defaultGateway ++ [c.capabilities, c.assignmentMethod]
  | .ipCurrentConfig c =>
    ip4 c.ipAddress ++ ip4 c.subnetMask ++ ip4 c.defaultGateway ++ ip4 c.dhcpServer
      ++ [c.assignmentMethod, c.reserved]
  | .knxAddresses k => ip4 k.individual ++ (k.additional.map ip4).flatten
  | .manufacturerData d => word d.manufacturerId.toNat ++ d.data

/-- The block's type tag as stored in the value. -/
def dibTag : Dib → DescType
  | .deviceInformation d => d.descriptionType
  | .supportedServiceFamilies s => s.descriptionType
  | .ipConfig c => c.descriptionType
  | .ipCurrentConfig c => c.descriptionType
  | .knxAddresses k => k.descriptionType
  | .manufacturerData d => d.descriptionType

/-- The tag a block of this kind should have. -/
def dibKindTag : Dib → DescType
  | .deviceInformation _ => .deviceInfo
  | .supportedServiceFamilies _ => .supportedServiceFamilies
  | .ipConfig _ => .ipConfig
  | .ipCurrentConfig _ => .ipCurrentConfig
  | .knxAddresses _ => .knxAddresses
  | .manufacturerData _ => .manufacturerData

/-- The block value is consistent: right tag, structure length = 2 + body length (so at most
255), and device information with representable address and status. -/
def DibConsistent (d : Dib) : Prop :=
  dibTag d = dibKindTag d ∧ d.structureLength.toNat = 2 + (dibBody d).length ∧
  ∀ i, d = .deviceInformation i → IndInRange i.address ∧ i.status.bits.toNat < 2

/-- `r` starts with a block that declares an impossible structure length: a service-family block
of declared length below 2, or an address block of declared length below 4 followed by at least
four bytes. -/
def ImpossibleDib (r : Bytes) : Prop :=
  (∃ (l : U8) (rest : Bytes), l.toNat < 2 ∧ r = l :: 2 :: rest) ∨
  (∃ (l : U8) (rest : Bytes), l.toNat < 4 ∧ 4 ≤ rest.length ∧ r = l :: 5 :: rest)

/-- A standard SEARCH_RESPONSE frame: endpoint, device information, service families. -/
def searchResponse (ep : Hpai) (d : DeviceInfo) (fs : List ServiceFamily) : Bytes :=
  frame SEARCH_RESPONSE (hpai ep ++ dib 54 1 (deviceInfoBody d) ++ dib (2 + 2 * fs.length) 2 (familiesBody fs))

end Knx.Spec
