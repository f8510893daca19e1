import Verif.Model.Texts

/-!
# Model of the texts of the errors of the other decoders

The decoders of `packets` whose errors are only logged by the library itself; they are public, so that their errors reach whoever calls
them. As in `Model/Texts.lean`; `Props/Layouts.lean` shows that without the texts they are the functions modelled before.
-/

namespace Knx

/-- `{:02X}` of a `u8`: two hexadecimal digits at least. -/
def hex02 (n : Nat) : Text :=
  if n < 16 then '0' :: (Nat.toDigits 16 n).map Char.toUpper else (Nat.toDigits 16 n).map Char.toUpper

/-- `{:0x?}` of a `u8` or `u16`: small hexadecimal digits, no width given. -/
def hexLow (n : Nat) : Text := Nat.toDigits 16 n

/-- A reader given as a function. -/
def TRd.of {α : Type} (f : Bytes → TRes (α × Bytes)) : TRd α := f

/-- `read_to_end`. -/
def TRd.toEnd : TRd Bytes := fun r => .ok (r, [])

/-- core.rs:122-146 `CRD::from_packet`. -/
def Crd.read (x : StdText) : TRd Crd := do
  let size ← TRd.u8 ("Unable to read CRD packet size ".toList ++ x.eof)
  TRd.ensure (size == 4) ("Connection Response Data Block should have length 4 instead of ".toList ++ showU size)
  let tunnelConnection ← TRd.u8 ("Unable to read CRD tunnel connection ".toList ++ x.eof)
  TRd.ensure (tunnelConnection == 4)
    ("Connection Response Data Block should have connection type 4 (TUNNELING) instead of ".toList ++ showU tunnelConnection)
  let addr ← TRd.u16 ("Unable to read CRD KNX individual address ".toList ++ x.eof)
  return ⟨IndAddr.ofU16 addr⟩

/-- core.rs:269-281: what is said of a status that refuses the connection. -/
def refusalText (status : U8) : Text :=
  if status = 0x22 then "Target KNX/IP device does not support requested connection type".toList
  else if status = 0x23 then "Target KNX/IP device does not support one or more requested connection options".toList
  else if status = 0x24 then "No more connections available on target KNX/IP device".toList
  else "Target KNX/IP device does not support requested tunneling layer".toList

/-- core.rs:223-293 `ConnectionResponse::from_packet`. -/
def ConnectionResponse.read (x : StdText) : TRd ConnectionResponse := do
  let headerSize ← TRd.u8 ("Unable to read header size ".toList ++ x.eof)
  TRd.ensure (headerSize == 6) ("Header size should be 6 instead of ".toList ++ showU headerSize)
  let version ← TRd.u8 ("Unable to read KNXIP version ".toList ++ x.eof)
  -- core.rs:234: the header size is shown
  TRd.ensure (version == 0x10) ("KNXIP version should be 0x10 instead of ".toList ++ hex02 headerSize.toNat)
  let connectResponse ← TRd.u16 ("Unable to read Connect Response ".toList ++ x.eof)
  TRd.ensure (connectResponse == 0x0206) ("Connect response should be 0x0206 instead of ".toList ++ hex02 connectResponse.toNat)
  let size ← TRd.u16 ("Unable to read packet size ".toList ++ x.eof)
  TRd.ensure (decide (size ≥ 8)) ("Packet size should greather than 8, received size ".toList ++ showU size)
  let channel ← TRd.u8 ("Unable to read Communication Channel Id ".toList ++ x.eof)
  let status ← TRd.u8 ("Unable to read status ".toList ++ x.eof)
  TRd.ensure (!(status == 0x22 || status == 0x23 || status == 0x24 || status == 0x29)) (refusalText status)
  let dataEndpoint ← Hpai.read x
  let crd ← Crd.read x
  return ⟨channel, status, dataEndpoint, crd⟩

/-- core.rs:327-371 `ConnectionstateRequest::from_packet`. -/
def ConnectionstateRequest.read (x : StdText) : TRd ConnectionstateRequest := do
  let headerSize ← TRd.u8 ("Unable to read header size ".toList ++ x.eof)
  TRd.ensure (headerSize == 6) ("Header size should be 6 instead of ".toList ++ showU headerSize)
  let version ← TRd.u8 ("Unable to read KNXIP version ".toList ++ x.eof)
  -- core.rs:338: the header size is shown
  TRd.ensure (version == 0x10) ("KNXIP version should be 0x10 instead of ".toList ++ hex2 headerSize.toNat)
  let code ← TRd.u16 ("Unable to read Connectstate request code ".toList ++ x.eof)
  TRd.ensure (code == 0x0207) ("Connect request should be 0x0207 instead of ".toList ++ hex2 code.toNat)
  let _size ← TRd.u16 ("Unable to read packet size ".toList ++ x.eof)
  let channel ← TRd.u8 ("Unable to read communication channel id ".toList ++ x.eof)
  let _padding ← TRd.u8 ("Unable to read padding data ".toList ++ x.eof)
  let controlEndpoint ← Hpai.read x
  return ⟨channel, controlEndpoint⟩

/-- core.rs:478-503 `DisconnectRequest::from_packet`. -/
def DisconnectRequest.read (x : StdText) : TRd DisconnectRequest := do
  let headerSize ← TRd.u8 ("Unable to read header size ".toList ++ x.eof)
  TRd.ensure (decide (headerSize ≥ 8)) ("Header size should be at least 8 instead of ".toList ++ showU headerSize)
  let channel ← TRd.u8 ("Unable to read communication channel id ".toList ++ x.eof)
  let _reserved ← TRd.u8 ("Unable to read reserved data ".toList ++ x.eof)
  let controlEndpoint ← Hpai.read x
  return ⟨channel, controlEndpoint⟩

/-- core.rs:631-642 `SearchRequest::from_packet`. -/
def SearchRequest.read (x : StdText) : TRd SearchRequest := do
  let header ← Header.read x
  TRd.ensure (header.serviceType == 0x0201) ("Search request should be 0x0201 instead of ".toList ++ hex2 header.serviceType.toNat)
  let discoveryEndpoint ← Hpai.read x
  return ⟨discoveryEndpoint⟩

/-- tunneling.rs:278-290 `verify_header` (the error of the read is not shown). -/
def verifyHeaderT : TRd Unit := do
  let size ← TRd.u8 "Unable to read header size".toList
  TRd.ensure (size == 6) ("Header size should be 6 instead of ".toList ++ showU size)
  let version ← TRd.u8 "Unable to read header version".toList
  TRd.ensure (version == 0x10) ("Version should be 0x10 instead of ".toList ++ hexLow version.toNat)

/-- tunneling.rs:39-86 `TunnelingRequest::from_packet` (reading the cEMI part cannot fail). -/
def TunnelingRequest.read (x : StdText) : TRd TunnelingRequest := do
  verifyHeaderT
  let code ← TRd.u16 ("Unable to read code ".toList ++ x.eof)
  TRd.ensure (code == 0x0420) ("Code should be 0x0420 instead of ".toList ++ hexLow code.toNat)
  let size ← TRd.u16 ("Unable to read packet size ".toList ++ x.eof)
  let structSize ← TRd.u8 ("Unable to read message code ".toList ++ x.eof)
  TRd.ensure (structSize == 0x04) ("Size should be 0x04 instead of ".toList ++ showU structSize)
  let channel ← TRd.u8 ("Unable to read communication channel id ".toList ++ x.eof)
  let seq ← TRd.u8 ("Unable to read sequence number ".toList ++ x.eof)
  let _padding ← TRd.u8 ("Unable to read padding ".toList ++ x.eof)
  if size.toNat < 10 then TRd.lift .panic []
  else
    let cemi ← TRd.fill (size.toNat - 10)
    return ⟨channel, seq, cemi⟩

/-- tunneling.rs:117-155 `TunnelingAck::from_packet`. -/
def TunnelingAck.read (x : StdText) : TRd TunnelingAck := do
  verifyHeaderT
  let code ← TRd.u16 ("Unable to read response code ".toList ++ x.eof)
  TRd.ensure (code == 0x0421) ("Response code should be 0x0421 instead of ".toList ++ hexLow code.toNat)
  let size ← TRd.u16 ("Unable to read packet size ".toList ++ x.eof)
  TRd.ensure (size == 0x0a) ("Packet size should be 0x0a instead of ".toList ++ hexLow size.toNat)
  let structSize ← TRd.u8 ("Unable to read struct size ".toList ++ x.eof)
  TRd.ensure (structSize == 0x04) ("Structure size should be 0x04 instead of ".toList ++ hexLow structSize.toNat)
  let channel ← TRd.u8 ("Unable to read communication channel id ".toList ++ x.eof)
  -- tunneling.rs:145: the same text once more
  let seq ← TRd.u8 ("Unable to read communication channel id ".toList ++ x.eof)
  let status ← TRd.u8 ("Unable to read status ".toList ++ x.eof)
  return ⟨channel, seq, status⟩

/-- tunneling.rs:220-275 `FeatureResp::from_packet`. -/
def FeatureResp.read (x : StdText) : TRd FeatureResp := do
  verifyHeaderT
  let code ← TRd.u16 ("Unable to read response code ".toList ++ x.eof)
  TRd.ensure (code == 0x0423) ("Response code should be 0x0423 instead of ".toList ++ hexLow code.toNat)
  let size ← TRd.u16 ("Unable to read packet size ".toList ++ x.eof)
  TRd.ensure (size == 0x0d) ("Packet size should be 0x0d instead of ".toList ++ hexLow size.toNat)
  let structSize ← TRd.u8 ("Unable to read struct size ".toList ++ x.eof)
  TRd.ensure (structSize == 0x04) ("Structure size should be 0x04 instead of ".toList ++ hexLow structSize.toNat)
  let channel ← TRd.u8 ("Unable to read communication channel id ".toList ++ x.eof)
  -- tunneling.rs:246: the same text once more
  let seq ← TRd.u8 ("Unable to read communication channel id ".toList ++ x.eof)
  let _reserved ← TRd.u8 ("Unable to read reserved field ".toList ++ x.eof)
  -- tunneling.rs:256: the text of the status
  let featureByte ← TRd.u8 ("Unable to read status ".toList ++ x.eof)
  -- tunneling.rs:301
  let feature ← TRd.lift (KnxIpFeature.ofU8 featureByte) ("Unknown KNXIP feature ".toList ++ showU featureByte)
  let status ← TRd.u8 ("Unable to read status ".toList ++ x.eof)
  let value ← TRd.u8 ("Unable to read value ".toList ++ x.eof)
  return ⟨feature, value, status, channel, seq⟩

/-- emi.rs:206-231: the loop of `CEMI::from_packet`, as `cemiInfos`; the type is looked at before the size is read, and the error of an
unknown type is `()` (emi.rs:299). -/
def cemiInfosT (x : StdText) (m : Mode) (total : U8) (position : U8) (r : Bytes) : TRes (List AddInfo × Bytes) :=
  if position < total then
    match r with
    | [] => .err ("Unable to read addition info type ".toList ++ x.eof)
    | [t] =>
      match InfoType.ofU8 t with
      | none => .err "Unknown additional info type ()".toList
      | some _ => .err ("Unable to read addition info size ".toList ++ x.eof)
    | t :: s :: r' =>
      match InfoType.ofU8 t with
      | none => .err "Unknown additional info type ()".toList
      | some ty =>
        let value := r'.take s.toNat ++ List.replicate (s.toNat - r'.length) 0
        match addU m s 2 with
        | .ok step =>
          match addU m position step with
          | .ok position' =>
            match cemiInfosT x m total position' (r'.drop s.toNat) with
            | .ok (rest, r'') => .ok (⟨ty, value⟩ :: rest, r'')
            | .err t => .err t
            | .panic => .panic
          | .err => .err []
          | .panic => .panic
        | .err => .err []
        | .panic => .panic
  else .ok ([], r)
  termination_by r.length
  decreasing_by simp [List.length_drop]; omega

/-- emi.rs:195-243 `CEMI::from_packet` (reading to the end cannot fail). -/
def Cemi.read (x : StdText) (m : Mode) : TRd Cemi := do
  let msgCode ← TRd.u8 ("Unable to read message code ".toList ++ x.eof)
  let total ← TRd.u8 ("Unable to read addition infos size ".toList ++ x.eof)
  let infos ← TRd.of (cemiInfosT x m total 0)
  let serviceInfo ← TRd.toEnd
  return ⟨msgCode, infos, serviceInfo⟩

end Knx
