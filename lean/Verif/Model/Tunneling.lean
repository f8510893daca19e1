import Verif.Model.Prim

/-!
# Model of `src/packets/tunneling.rs`
-/

namespace Knx

/-- tunneling.rs:278-290 `verify_header`. -/
def verifyHeader : Rd Unit := do
  let size ← Rd.u8
  Rd.ensure (size == 6)
  let version ← Rd.u8
  Rd.ensure (version == 0x10)

/-- tunneling.rs:8-13 `struct TunnelingRequest`, with its constructor `new` (16-22) and `get_cemi` (24-26). -/
structure TunnelingRequest where
  channel : U8
  seq : U8
  cemi : Bytes
  deriving DecidableEq, Repr

/-- tunneling.rs:28-37 `TunnelingRequest::packet`; `10 + self.cemi.len() as u16` truncates the
length to 16 bits and then adds with an overflow check. -/
def TunnelingRequest.packet (m : Mode) (t : TunnelingRequest) : Res Bytes :=
  match addU m (10 : U16) (BitVec.ofNat 16 t.cemi.length) with
  | .ok size => .ok ([0x06, 0x10, 0x04, 0x20] ++ be16 size ++ [4, t.channel, t.seq, 0] ++ t.cemi)
  | .err => .err
  | .panic => .panic

/-- tunneling.rs:39-86 `TunnelingRequest::from_packet`. `vec![0; size as usize - 10]` with
`size < 10`: the subtraction panics in debug builds; in release builds it wraps to more than
`isize::MAX` and the allocation panics with "capacity overflow". So it panics in both modes. -/
def TunnelingRequest.fromPacket : Rd TunnelingRequest := do
  verifyHeader
  let code ← Rd.u16
  Rd.ensure (code == 0x0420)
  let size ← Rd.u16
  let structSize ← Rd.u8
  Rd.ensure (structSize == 0x04)
  let channel ← Rd.u8
  let seq ← Rd.u8
  let _padding ← Rd.u8
  if size.toNat < 10 then Rd.lift .panic
  else
    let cemi ← Rd.fill (size.toNat - 10)
    return ⟨channel, seq, cemi⟩

/-- tunneling.rs:92-97 `struct TunnelingAck`, with its constructor `new` (100-106). -/
structure TunnelingAck where
  channel : U8
  seq : U8
  status : U8
  deriving DecidableEq, Repr

/-- tunneling.rs:108-115 `TunnelingAck::packet`. -/
def TunnelingAck.packet (t : TunnelingAck) : Bytes :=
  [0x06, 0x10, 0x04, 0x21, 0, 0x0a] ++ [4, t.channel, t.seq, t.status]

/-- tunneling.rs:117-155 `TunnelingAck::from_packet`. -/
def TunnelingAck.fromPacket : Rd TunnelingAck := do
  verifyHeader
  let code ← Rd.u16
  Rd.ensure (code == 0x0421)
  let size ← Rd.u16
  Rd.ensure (size == 0x0a)
  let structSize ← Rd.u8
  Rd.ensure (structSize == 0x04)
  let channel ← Rd.u8
  let seq ← Rd.u8
  let status ← Rd.u8
  return ⟨channel, seq, status⟩

/-- tunneling.rs:158-165 `enum KnxIpFeature`. -/
inductive KnxIpFeature where
  | maskVersion
  | individualAddress
  | maxApduLength
  | infoServiceEnable
  deriving DecidableEq, Repr

/-- tunneling.rs:161-164: the discriminants. -/
def KnxIpFeature.code : KnxIpFeature → U8
  | .maskVersion => 0x02
  | .individualAddress => 0x06
  | .maxApduLength => 0x07
  | .infoServiceEnable => 0x08

/-- tunneling.rs:292-304 `KnxIpFeature::try_from(u8)`. -/
def KnxIpFeature.ofU8 (v : U8) : Res KnxIpFeature :=
  if v = KnxIpFeature.maskVersion.code then .ok .maskVersion
  else if v = KnxIpFeature.individualAddress.code then .ok .individualAddress
  else if v = KnxIpFeature.maxApduLength.code then .ok .maxApduLength
  else if v = KnxIpFeature.infoServiceEnable.code then .ok .infoServiceEnable
  else .err

/-- tunneling.rs:167-173 `struct FeatureSet`, with its constructor `new` (176-183). -/
structure FeatureSet where
  feature : KnxIpFeature
  value : U8
  channel : U8
  seq : U8
  deriving DecidableEq, Repr

/-- tunneling.rs:185-195 `FeatureSet::packet`. -/
def FeatureSet.packet (f : FeatureSet) : Bytes :=
  [0x06, 0x10, 0x04, 0x24, 0, 0x0d] ++ [4, f.channel, f.seq, 0, f.feature.code, 0, f.value]

/-- tunneling.rs:198-205 `struct FeatureResp`. -/
structure FeatureResp where
  feature : KnxIpFeature
  value : U8
  status : U8
  channel : U8
  seq : U8
  deriving DecidableEq, Repr

/-- tunneling.rs:208-218 `FeatureResp::packet` (service code 0x0424, status not written). -/
def FeatureResp.packet (f : FeatureResp) : Bytes :=
  [0x06, 0x10, 0x04, 0x24, 0, 0x0d] ++ [4, f.channel, f.seq, 0, f.feature.code, 0, f.value]

/-- tunneling.rs:220-275 `FeatureResp::from_packet`. -/
def FeatureResp.fromPacket : Rd FeatureResp := do
  verifyHeader
  let code ← Rd.u16
  Rd.ensure (code == 0x0423)
  let size ← Rd.u16
  Rd.ensure (size == 0x0d)
  let structSize ← Rd.u8
  Rd.ensure (structSize == 0x04)
  let channel ← Rd.u8
  let seq ← Rd.u8
  let _reserved ← Rd.u8
  let featureByte ← Rd.u8
  let feature ← Rd.lift (KnxIpFeature.ofU8 featureByte)
  let status ← Rd.u8
  let value ← Rd.u8
  return ⟨feature, value, status, channel, seq⟩

end Knx
