import Verif.Model.Addresses
import Verif.Model.Apdu

/-!
# Model of `src/packets/emi.rs`
-/

namespace Knx

/-- emi.rs:246-275 `enum CEMIMessageCode` (the four codes used by the transports). -/
def codeLDataReq : U8 := 0x11
def codeLDataCon : U8 := 0x2e
def codeLDataInd : U8 := 0x29
def codeLBusmonInd : U8 := 0x2b

/-- emi.rs:277-290 `enum CEMIAdditionalInfoType`. -/
inductive InfoType where
  | plMedium
  | rfMedium
  | busmonitorStatus
  | timestampRelative
  | timeDelayUntilSending
  | extendedRelativeTime
  | biBat
  | rfMulti
  | preambleAndPostamble
  | rfFastAck
  | manufacturerSpecific
  deriving DecidableEq, Repr

/-- emi.rs:278-290: the discriminants. -/
def InfoType.code : InfoType → U8
  | .plMedium => 0x01
  | .rfMedium => 0x02
  | .busmonitorStatus => 0x03
  | .timestampRelative => 0x04
  | .timeDelayUntilSending => 0x05
  | .extendedRelativeTime => 0x06
  | .biBat => 0x07
  | .rfMulti => 0x08
  | .preambleAndPostamble => 0x09
  | .rfFastAck => 0x0a
  | .manufacturerSpecific => 0xfe

/-- emi.rs:298-317 `CEMIAdditionalInfoType::try_from(u8)` (same order of tests). -/
def InfoType.ofU8 (v : U8) : Option InfoType :=
  if v = InfoType.plMedium.code then some .plMedium
  else if v = InfoType.rfMedium.code then some .rfMedium
  else if v = InfoType.busmonitorStatus.code then some .busmonitorStatus
  else if v = InfoType.timestampRelative.code then some .timestampRelative
  else if v = InfoType.timeDelayUntilSending.code then some .timeDelayUntilSending
  else if v = InfoType.extendedRelativeTime.code then some .extendedRelativeTime
  else if v = InfoType.biBat.code then some .biBat
  else if v = InfoType.rfMulti.code then some .rfMulti
  else if v = InfoType.preambleAndPostamble.code then some .preambleAndPostamble
  else if v = InfoType.rfFastAck.code then some .rfFastAck
  else if v = InfoType.manufacturerSpecific.code then some .manufacturerSpecific
  else none

/-- emi.rs:292-296 `struct CEMIAdditionalInfo`. -/
structure AddInfo where
  infoType : InfoType
  value : Bytes
  deriving DecidableEq, Repr

/-- emi.rs:186-191 `struct CEMI`. -/
structure Cemi where
  msgCode : U8
  infos : List AddInfo
  serviceInfo : Bytes
  deriving DecidableEq, Repr

/-- emi.rs:206-231: the `while position < additional_infos_size` loop of `CEMI::from_packet`.
`position` and the sizes are `u8`; `position += additional_info_size + 2` is two checked
additions. The block contents are read with `read` (short reads leave zeros). The loop is a
recursion on the bytes not yet read, which shrink by at least two per iteration. -/
def cemiInfos (m : Mode) (total : U8) (position : U8) (r : Bytes) : Res (List AddInfo × Bytes) :=
  if position < total then
    match r with
    | t :: s :: r' =>
      match InfoType.ofU8 t with
      | none => .err
      | some ty =>
        let value := r'.take s.toNat ++ List.replicate (s.toNat - r'.length) 0
        match addU m s 2 with
        | .ok step =>
          match addU m position step with
          | .ok position' =>
            match cemiInfos m total position' (r'.drop s.toNat) with
            | .ok (rest, r'') => .ok (⟨ty, value⟩ :: rest, r'')
            | .err => .err
            | .panic => .panic
          | .err => .err
          | .panic => .panic
        | .err => .err
        | .panic => .panic
    | _ => .err
  else .ok ([], r)
  termination_by r.length
  decreasing_by simp [List.length_drop]; omega

/-- emi.rs:195-243 `CEMI::from_packet`. -/
def Cemi.fromPacket (m : Mode) : Rd Cemi := do
  let msgCode ← Rd.u8
  let total ← Rd.u8
  let infos ← Rd.of (cemiInfos m total 0)
  let serviceInfo ← Rd.toEnd
  return ⟨msgCode, infos, serviceInfo⟩

/-- emi.rs:56-64 `struct LData`. -/
structure LData where
  src : U16
  dest : U16
  frameType : Bool
  repetition : Bool
  systemBroadcast : Bool
  ackRequest : Bool
  deriving DecidableEq, Repr

/-- emi.rs:35-38 and 105-108: the flags taken from the first control byte. -/
def LData.ofControl (src dest : U16) (control1 : U8) : LData :=
  { src, dest
    frameType := decide ((control1 &&& 0x80#8) > 0)
    repetition := decide ((control1 &&& (1#8 <<< 5)) > 0)
    systemBroadcast := decide ((control1 &&& (1#8 <<< 4)) > 0)
    ackRequest := decide ((control1 &&& (1#8 <<< 1)) > 0) }

/-- emi.rs:8-13 `struct LDataCon`. -/
structure LDataCon where
  cemi : Cemi
  lData : LData
  confirm : Bool
  deriving DecidableEq, Repr

/-- emi.rs:16-53 `LDataCon::from_cemi`. -/
def LDataCon.fromCemi (cemi : Cemi) : Res LDataCon :=
  let rd : Rd LDataCon := do
    let control1 ← Rd.u8
    let _control2 ← Rd.u8
    let src ← Rd.u16
    let dest ← Rd.u16
    return ⟨cemi, LData.ofControl src dest control1, decide ((control1 &&& 1#8) = 0)⟩
  match rd cemi.serviceInfo with
  | .ok (x, _) => .ok x
  | .err => .err
  | .panic => .panic

/-- emi.rs:68-73 `struct LDataInd`. -/
structure LDataInd where
  cemi : Cemi
  lData : LData
  value : Bytes
  deriving DecidableEq, Repr

/-- emi.rs:77-138 `LDataInd::from_cemi`. (`len - 1` at line 96 is guarded by `len > 0`.) -/
def LDataInd.fromCemi (cemi : Cemi) : Res LDataInd :=
  let rd : Rd LDataInd := do
    let control1 ← Rd.u8
    let _control2 ← Rd.u8
    let src ← Rd.u16
    let dest ← Rd.u16
    let len ← Rd.u8
    let length : U8 := if len > 0 then len - 1 else 0
    let octets67 ← Rd.u16
    let value ← if length > 0 then Rd.fill length.toNat
                else pure [(octets67 &&& 0x3f#16).setWidth 8]
    return ⟨cemi, LData.ofControl src dest control1, value⟩
  match rd cemi.serviceInfo with
  | .ok (x, _) => .ok x
  | .err => .err
  | .panic => .panic

/-- emi.rs:143-148 `struct LDataReqMessage`. -/
structure LDataReq where
  priority : U8
  dest : KnxAddress
  tpdu : Tpdu
  deriving DecidableEq, Repr

/-- emi.rs:151-157 `LDataReqMessage::new`. -/
def LDataReq.new (dest : KnxAddress) (tpdu : Tpdu) : LDataReq := ⟨0b11, dest, tpdu⟩

/-- emi.rs:159-161 `LDataReqMessage::set_priority`. -/
def LDataReq.setPriority (r : LDataReq) (p : U8) : LDataReq := { r with priority := p }

/-- emi.rs:163-181 `LDataReqMessage::packet`. The length octet is
`tpdu_packet.len() as u8 - 1` (truncation, then a checked subtraction). -/
def LDataReq.packet (m : Mode) (r : LDataReq) : Res Bytes :=
  let control : U8 := 0
  let control := control ||| (1#8 <<< 7)
  let control := control ||| (1#8 <<< 5)
  let control := control ||| (1#8 <<< 4)
  let control := control ||| ((r.priority &&& 0x3#8) <<< 2)
  let control2 : U8 := 0xe0
  let packet : Bytes := [codeLDataReq, 0, control, control2, 0, 0]
  let packet := packet ++ be16 r.dest.toU16
  let tpduPacket := r.tpdu.packet
  match subU m (BitVec.ofNat 8 tpduPacket.length) 1 with
  | .ok len => .ok (packet ++ [len] ++ tpduPacket)
  | .err => .err
  | .panic => .panic

end Knx
