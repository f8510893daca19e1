import Verif.Spec.Dib

/-!
# Specification vocabulary: gateway search
-/

namespace Knx.Spec

/-- Byte `j` of a buffer into which the datagrams `ds` have been received one after the other: that of the last datagram reaching
so far, or 0. -/
def byteAt (j : Nat) (ds : List Bytes) : U8 := (((ds.filter fun d => j < d.length).getLast?).bind fun d => d[j]?).getD 0

/-- The first 100 bytes of that buffer. -/
def visible (ds : List Bytes) : Bytes := (List.range 100).map fun j => byteAt j ds

/-- Bytes `b` start with a search response denoting `s`: header, control endpoint, device information, supported service
families. The reserved bits of the device status are ignored. -/
def SearchFrame (b : Bytes) (s : SearchResponse) : Prop :=
  ∃ (len : Nat) (st : U8) (rest : Bytes), len < 65536 ∧
    s.deviceHardware.descriptionType = .deviceInfo ∧ s.serviceFamilies.descriptionType = .supportedServiceFamilies ∧
    IndInRange s.deviceHardware.address ∧ s.deviceHardware.status.bits = st &&& 1 ∧
    s.serviceFamilies.families.length = (s.serviceFamilies.structureLength - 2).toNat / 2 ∧
    b = header SEARCH_RESPONSE len ++ hpai s.controlEndpoint
      ++ [s.deviceHardware.structureLength, 1] ++ deviceInfoBody { s.deviceHardware with status := ⟨st⟩ }
      ++ [s.serviceFamilies.structureLength, 2] ++ familiesBody s.serviceFamilies.families ++ rest

end Knx.Spec
