import Verif.Model.Monitor
import Verif.Model.Search
import Verif.Model.DpTypes

/-!
# Model of the texts of errors

Elsewhere in the model an error is only an error. Here the functions whose errors reach the user of the library are given once more,
with the texts that `Whatever` displays; `Lemmas/Texts.lean` shows that without the texts they are the functions modelled before.
Text is a list of characters. `whatever_context("..")` and `with_whatever_context(..)` display the text given; what went wrong below is
only to be had from `source()`, which is not modelled.

Texts written by the standard library, and the `Debug` output of large structures, are parameters.
-/

namespace Knx

/-- A text. -/
abbrev Text := List Char

/-- Texts that are not written by the library. -/
structure StdText where
  /-- `Debug` of the `io::Error` of a read beyond the end of a `Cursor`. -/
  eof : Text
  /-- `Debug` of the `io::Error` of a socket operation that failed. -/
  sock : Text
  /-- `Debug` of a `Whatever` with the text given. -/
  whatever : Text → Text
  /-- `Debug` of a `DIB`. -/
  dib : Dib → Text
  /-- `Debug` of a `str`: between quotes, with escapes. -/
  quoted : Text → Text

/-- A result with the text of its error. -/
inductive TRes (α : Type) where
  | ok (a : α)
  | err (t : Text)
  | panic
  deriving DecidableEq, Repr

/-- Without the text. -/
def TRes.erase {α : Type} : TRes α → Res α
  | .ok a => .ok a
  | .err _ => .err
  | .panic => .panic

/-- A reader whose errors have texts. -/
def TRd (α : Type) := Bytes → TRes (α × Bytes)

namespace TRd

instance : Monad TRd where
  pure a := fun r => .ok (a, r)
  bind p f := fun r =>
    match p r with
    | .ok (a, r') => f a r'
    | .err t => .err t
    | .panic => .panic

/-- Without the texts. -/
def erase {α : Type} (p : TRd α) : Rd α := fun r => (p r).erase

/-- `read_u8`, with the text of the error. -/
def u8 (t : Text) : TRd U8
  | [] => .err t
  | b :: r => .ok (b, r)

/-- `read_u16::<BigEndian>`, with the text of the error. -/
def u16 (t : Text) : TRd U16
  | a :: b :: r => .ok (ofBe16 a b, r)
  | _ => .err t

/-- `read_exact`, with the text of the error. -/
def exact (n : Nat) (t : Text) : TRd (Vector U8 n) := fun r =>
  match Rd.exact n r with
  | .ok x => .ok x
  | .err => .err t
  | .panic => .panic

/-- `read_exact` into a vector, with the text of the error. -/
def exactVec (n : Nat) (t : Text) : TRd Bytes := fun r =>
  match Rd.exactVec n r with
  | .ok x => .ok x
  | .err => .err t
  | .panic => .panic

/-- `ensure_whatever!`. -/
def ensure (c : Bool) (t : Text) : TRd Unit := fun r => if c then .ok ((), r) else .err t

/-- `whatever!`. -/
def fail {α : Type} (t : Text) : TRd α := fun _ => .err t

/-- `read` into a buffer of `n` zero octets, which cannot fail. -/
def fill (n : Nat) : TRd Bytes := fun r =>
  match Rd.fill n r with
  | .ok x => .ok x
  | .err => .err []
  | .panic => .panic

/-- A computation that does not touch the cursor, with the text of its error. -/
def lift {α : Type} (x : Res α) (t : Text) : TRd α := fun r =>
  match x with
  | .ok a => .ok (a, r)
  | .err => .err t
  | .panic => .panic

end TRd

/-- Run a reader on a whole byte string. -/
def runTRd {α : Type} (p : TRd α) (r : Bytes) : TRes α :=
  match p r with
  | .ok (a, _) => .ok a
  | .err t => .err t
  | .panic => .panic

/-! ## Numbers -/

/-- `{:2X}` of a `u8` or `u16`: hexadecimal digits without leading zeros, a blank before a single one. -/
def hex2 (n : Nat) : Text :=
  if n < 16 then ' ' :: (Nat.toDigits 16 n).map Char.toUpper else (Nat.toDigits 16 n).map Char.toUpper

/-! ## Responses -/

/-- core.rs:400-447 `ConnectionstateResponse::from_packet`. -/
def ConnectionstateResponse.read (x : StdText) : TRd ConnectionstateResponse := do
  let headerSize ← TRd.u8 ("Unable to read header size ".toList ++ x.eof)
  TRd.ensure (headerSize == 6) ("Header size should be 6 instead of ".toList ++ showU headerSize)
  let version ← TRd.u8 ("Unable to read KNXIP version ".toList ++ x.eof)
  -- core.rs:411: the header size is shown
  TRd.ensure (version == 0x10) ("KNXIP version should be 0x10 instead of ".toList ++ hex2 headerSize.toNat)
  let code ← TRd.u16 ("Unable to read Connectstate Response ".toList ++ x.eof)
  TRd.ensure (code == 0x0208) ("Connect response should be 0x0208 instead of ".toList ++ hex2 code.toNat)
  let size ← TRd.u16 ("Unable to read packet size ".toList ++ x.eof)
  TRd.ensure (size == 8) ("Packet size should be 8, received size ".toList ++ showU size)
  let channel ← TRd.u8 ("Unable to read Communication Channel Id ".toList ++ x.eof)
  let status ← TRd.u8 ("Unable to read status ".toList ++ x.eof)
  return ⟨channel, status⟩

/-- core.rs:536-583 `DisconnectResponse::from_packet`. -/
def DisconnectResponse.read (x : StdText) : TRd DisconnectResponse := do
  let headerSize ← TRd.u8 ("Unable to read header size ".toList ++ x.eof)
  TRd.ensure (headerSize == 6) ("Header size should be 6 instead of ".toList ++ showU headerSize)
  let version ← TRd.u8 ("Unable to read KNXIP version ".toList ++ x.eof)
  -- core.rs:547: the header size is shown
  TRd.ensure (version == 0x10) ("KNXIP version should be 0x10 instead of ".toList ++ hex2 headerSize.toNat)
  let code ← TRd.u16 ("Unable to read Disconnect Response ".toList ++ x.eof)
  TRd.ensure (code == 0x020a) ("Disconnect response should be 0x020A instead of ".toList ++ hex2 code.toNat)
  let size ← TRd.u16 ("Unable to read packet size ".toList ++ x.eof)
  TRd.ensure (size == 8) ("Packet size should be 8, received size ".toList ++ showU size)
  let channel ← TRd.u8 ("Unable to read Communication Channel Id ".toList ++ x.eof)
  let status ← TRd.u8 ("Unable to read status ".toList ++ x.eof)
  return ⟨channel, status⟩

/-- core.rs:51-86 `KnxNetIpHeader::from_packet`. -/
def Header.read (x : StdText) : TRd Header := do
  let headerLength ← TRd.u8 ("Unable to read header length ".toList ++ x.eof)
  TRd.ensure (headerLength == 6) ("Header length should be 6 instead of ".toList ++ showU headerLength)
  let version ← TRd.u8 ("Unable to read KNXIP version ".toList ++ x.eof)
  -- core.rs:67-71: the version expected is shown
  TRd.ensure (version == 0x10) ("KNXIP protocol version should be 0x10 instead of ".toList ++ hex2 0x10)
  let serviceType ← TRd.u16 "Unable to read service type identifier".toList
  let totalLength ← TRd.u16 "Unable to read total length".toList
  return ⟨serviceType, totalLength⟩

/-- core.rs:740-780 `HPAI::from_packet`. -/
def Hpai.read (x : StdText) : TRd Hpai := do
  let size ← TRd.u8 ("Unable to read HPAI size ".toList ++ x.eof)
  TRd.ensure (size == 8) ("HPAI size must be 8 instead of ".toList ++ showU size)
  let code ← TRd.u8 ("Unable to read HPAI host protocol code ".toList ++ x.eof)
  let ip1 ← TRd.u8 ("Unable to read HPAI IP part 1 ".toList ++ x.eof)
  let ip2 ← TRd.u8 ("Unable to read HPAI IP part 2 ".toList ++ x.eof)
  let ip3 ← TRd.u8 ("Unable to read HPAI IP part 3 ".toList ++ x.eof)
  let ip4 ← TRd.u8 ("Unable to read HPAI IP part 4 ".toList ++ x.eof)
  let port ← TRd.u16 ("Unable to read HPAI IP Port ".toList ++ x.eof)
  return ⟨code, ⟨⟨ip1, ip2, ip3, ip4⟩, port⟩⟩

/-- core.rs:1001-1042 `DeviceInformationDIB::from_packet`. -/
def DeviceInfo.read (structureLength : U8) : TRd DeviceInfo := do
  let mediumByte ← TRd.u8 "Unable to read knx mediumn".toList
  -- core.rs:915
  let medium ← TRd.lift (KnxMedium.ofU8 mediumByte) ("Unknown KnxMedium ".toList ++ showU mediumByte)
  let statusByte ← TRd.u8 "Unable to read knx device status".toList
  let addr ← TRd.u16 "Unable to read knx individual address".toList
  let projectId ← TRd.u16 "Unable to read project installation identifier".toList
  let serial ← TRd.exact 6 "Unable to read serial number".toList
  let multicast ← TRd.exact 4 "Unable to read routing multicast address".toList
  let mac ← TRd.exact 6 "Unable to read mac address".toList
  let friendlyName ← TRd.exact 30 "Unable to read friendly name".toList
  return { structureLength, descriptionType := .deviceInfo, medium,
           status := DeviceStatus.ofBitsTruncate statusByte, address := IndAddr.ofU16 addr, projectId,
           serial, multicast := Ipv4.ofVec multicast, mac, friendlyName }

/-- core.rs:1076-1081: the loop body executed `n` times. -/
def readFamiliesT : Nat → TRd (List ServiceFamily)
  | 0 => pure []
  | n + 1 => do
    let family ← TRd.u8 "Unable to read service family".toList
    let version ← TRd.u8 "Unable to read version".toList
    let rest ← readFamiliesT n
    return ⟨family, version⟩ :: rest

/-- core.rs:1074-1088 `SupportedServiceFamiliesDIB::from_packet`. -/
def ServiceFamilies.read (m : Mode) (structureLength : U8) : TRd ServiceFamilies := do
  let len ← TRd.lift (subU m structureLength 2) []
  let families ← readFamiliesT (len.toNat / 2)
  return ⟨structureLength, .supportedServiceFamilies, families⟩

/-- core.rs:1115-1142 `IpConfigDIB::from_packet`. -/
def IpConfig.read (structureLength : U8) : TRd IpConfig := do
  let ipAddress ← TRd.exact 4 "Unable to read ip address".toList
  let subnetMask ← TRd.exact 4 "Unable to read subnet_mask".toList
  let defaultGateway ← TRd.exact 4 "Unable to read default gateway".toList
  let capabilities ← TRd.u8 "Unable to read ip capabilities".toList
  let assignmentMethod ← TRd.u8 "Unable to read ip assignment method".toList
  return ⟨structureLength, .ipConfig, Ipv4.ofVec ipAddress, Ipv4.ofVec subnetMask,
    Ipv4.ofVec defaultGateway, capabilities, assignmentMethod⟩

/-- core.rs:1171-1207 `IpCurrentConfigDIB::from_packet`. -/
def IpCurrentConfig.read (structureLength : U8) : TRd IpCurrentConfig := do
  let ipAddress ← TRd.exact 4 "Unable to read current ip address".toList
  let subnetMask ← TRd.exact 4 "Unable to read current subnet_mask".toList
  let defaultGateway ← TRd.exact 4 "Unable to read current default gateway".toList
  let dhcpServer ← TRd.exact 4 "Unable to read dhcp server".toList
  let assignmentMethod ← TRd.u8 "Unable to read current ip assignment method".toList
  let reserved ← TRd.u8 "Unable to read reserved".toList
  return ⟨structureLength, .ipCurrentConfig, Ipv4.ofVec ipAddress, Ipv4.ofVec subnetMask,
    Ipv4.ofVec defaultGateway, Ipv4.ofVec dhcpServer, assignmentMethod, reserved⟩

/-- core.rs:1238-1245: the loop body executed `n` times. -/
def readIpsT : Nat → TRd (List Ipv4)
  | 0 => pure []
  | n + 1 => do
    let a ← TRd.exact 4 "Unable to read additional individual address".toList
    let rest ← readIpsT n
    return Ipv4.ofVec a :: rest

/-- core.rs:1230-1253 `KNXAddressesDIB::from_packet`. -/
def KnxAddresses.read (m : Mode) (structureLength : U8) : TRd KnxAddresses := do
  let individual ← TRd.exact 4 "Unable to read knx individual address".toList
  let len ← TRd.lift (subU m structureLength 4) []
  let additional ← readIpsT (len.toNat / 2)
  return ⟨structureLength, .knxAddresses, Ipv4.ofVec individual, additional⟩

/-- core.rs:1274-1288 `ManufacturerDataDIB::from_packet`. -/
def ManufacturerData.read (structureLength : U8) : TRd ManufacturerData := do
  let manufacturerId ← TRd.u16 "Unable to read knx manufacturer id".toList
  let data ← TRd.exactVec structureLength.toNat "Unable to read manufacturer specific data".toList
  return ⟨structureLength, .manufacturerData, manufacturerId, data⟩

/-- core.rs:861-894 `DIB::from_packet`. -/
def Dib.read (m : Mode) : TRd Dib := do
  let structureLength ← TRd.u8 "Unable to read structure length".toList
  let typeByte ← TRd.u8 "Unable to read structure length".toList
  -- core.rs:806
  let descType ← TRd.lift (DescType.ofU8 typeByte) ("Unknown DescriptionTypeCode ".toList ++ showU typeByte)
  match descType with
  | .deviceInfo => return .deviceInformation (← DeviceInfo.read structureLength)
  | .supportedServiceFamilies => return .supportedServiceFamilies (← ServiceFamilies.read m structureLength)
  | .ipConfig => return .ipConfig (← IpConfig.read structureLength)
  | .ipCurrentConfig => return .ipCurrentConfig (← IpCurrentConfig.read structureLength)
  | .knxAddresses => return .knxAddresses (← KnxAddresses.read m structureLength)
  | .manufacturerData => return .manufacturerData (← ManufacturerData.read structureLength)

/-- core.rs:672-697 `SearchResponse::from_packet`. -/
def SearchResponse.read (x : StdText) (m : Mode) : TRd SearchResponse := do
  let header ← Header.read x
  TRd.ensure (header.serviceType == 0x0202) ("Search response should be 0x0202 instead of ".toList ++ hex2 header.serviceType.toNat)
  let controlEndpoint ← Hpai.read x
  let dib1 ← Dib.read m
  let deviceHardware ← match dib1 with
    | .deviceInformation d => pure d
    | other => TRd.fail ("Expected device information dib instead of ".toList ++ x.dib other)
  let dib2 ← Dib.read m
  let serviceFamilies ← match dib2 with
    | .supportedServiceFamilies s => pure s
    | other => TRd.fail ("Expected supported service families dib instead of ".toList ++ x.dib other)
  return ⟨controlEndpoint, deviceHardware, serviceFamilies⟩

/-- udp.rs:303: the text of a search that ends because of a datagram, the buffer being `b`. -/
def searchText (x : StdText) (m : Mode) (b : Bytes) : Option Text :=
  match runTRd (SearchResponse.read x m) b with
  | .err t => some t
  | _ => none

/-! ## Indications -/

/-- emi.rs:77-138 `LDataInd::from_cemi` (reading the value, 116-119, cannot fail). -/
def LDataInd.read (x : StdText) (cemi : Cemi) : TRes LDataInd :=
  let rd : TRd LDataInd := do
    let control1 ← TRd.u8 ("Unable to read control 1 byte ".toList ++ x.eof)
    let _control2 ← TRd.u8 ("Unable to read control 2 byte ".toList ++ x.eof)
    let src ← TRd.u16 ("Unable to read source address ".toList ++ x.eof)
    let dest ← TRd.u16 ("Unable to read destination address ".toList ++ x.eof)
    let len ← TRd.u8 ("Unable to read length ".toList ++ x.eof)
    let length : U8 := if len > 0 then len - 1 else 0
    let octets67 ← TRd.u16 ("Unable to read octets 6 and 7 ".toList ++ x.eof)
    let value ← if length > 0 then TRd.fill length.toNat
                else pure [(octets67 &&& 0x3f#16).setWidth 8]
    return ⟨cemi, LData.ofControl src dest control1, value⟩
  runTRd rd cemi.serviceInfo

/-! ## Addresses -/

/-- std `IntErrorKind`, as far as it occurs when an unsigned number is parsed. -/
inductive IntErr where
  | empty
  | invalidDigit
  | posOverflow
  deriving DecidableEq, Repr

/-- `Debug` of `ParseIntError`. -/
def IntErr.debug : IntErr → Text
  | .empty => "ParseIntError { kind: Empty }".toList
  | .invalidDigit => "ParseIntError { kind: InvalidDigit }".toList
  | .posOverflow => "ParseIntError { kind: PosOverflow }".toList

/-- The digit loop of `core::num::from_str_radix`: a character that is no digit is noticed before an overflow. -/
def parseDigitsT (max : Nat) : Nat → List Char → Except IntErr Nat
  | acc, [] => .ok acc
  | acc, c :: cs =>
    match digitVal c with
    | none => .error .invalidDigit
    | some d => if acc * 10 + d ≤ max then parseDigitsT max (acc * 10 + d) cs else .error .posOverflow

/-- std `str::parse::<uN>()` with `max = uN::MAX`. -/
def parseUIntT (max : Nat) : List Char → Except IntErr Nat
  | [] => .error .empty
  | ['+'] => .error .invalidDigit
  | '+' :: cs => parseDigitsT max 0 cs
  | cs => parseDigitsT max 0 cs

/-- A part of an address, parsed as `u8`; `text` makes the text of the error. -/
def partU8 (p : List Char) (text : IntErr → Text) : TRes U8 :=
  match parseUIntT 255 p with
  | .ok n => .ok (BitVec.ofNat 8 n)
  | .error e => .err (text e)

/-- addresses.rs:135-146: `parts.get(i)` is an `Option<&&str>`, shown with `Debug`. -/
def indText (x : StdText) (what : String) (p : List Char) (e : IntErr) : Text :=
  "Unable to parse ".toList ++ what.toList ++ " value Some(".toList ++ x.quoted p ++ "), error ".toList ++ e.debug

/-- addresses.rs:128-149 `IndividualAddress::try_from(&str)`. -/
def IndAddr.parseT (x : StdText) (s : List Char) : TRes IndAddr :=
  match splitOn '.' s with
  | [p0, p1, p2] =>
    match partU8 p0 (indText x "area" p0) with
    | .ok area =>
      match partU8 p1 (indText x "line" p1) with
      | .ok line =>
        match partU8 p2 (indText x "address" p2) with
        | .ok address => .ok ⟨area, line, address⟩
        | .err t => .err t
        | .panic => .panic
      | .err t => .err t
      | .panic => .panic
    | .err t => .err t
    | .panic => .panic
  | _ => .err ("Individial address should be in the format area.line.address instead of ".toList ++ x.quoted s)

/-- addresses.rs:64-88: the parts of a group address of two or three levels are not shown. -/
def groupText (what : String) (e : IntErr) : Text :=
  "Unable to parse ".toList ++ what.toList ++ " address ".toList ++ e.debug

/-- addresses.rs:42-96 `KnxAddress::try_from(&str)`. -/
def KnxAddress.parseT (x : StdText) (s : List Char) : TRes KnxAddress :=
  if s.contains '.' then
    match IndAddr.parseT x s with
    | .ok a => .ok (.individual a)
    | .err t => .err t
    | .panic => .panic
  else
    match splitOn '/' s with
    | [p0] =>
      match parseUIntT 65535 p0 with
      | .ok main => .ok (.group1 ⟨BitVec.ofNat 16 main⟩)
      -- addresses.rs:56: the part is shown with `Display`
      | .error e => .err ("Unable to parse main address ".toList ++ p0 ++ " ".toList ++ e.debug)
    | [p0, p1] =>
      match partU8 p0 (groupText "main") with
      | .ok main =>
        match partU8 p1 (groupText "sub") with
        | .ok sub => .ok (.group2 ⟨main, sub⟩)
        | .err t => .err t
        | .panic => .panic
      | .err t => .err t
      | .panic => .panic
    | [p0, p1, p2] =>
      match partU8 p0 (groupText "main") with
      | .ok main =>
        match partU8 p1 (groupText "mid") with
        | .ok middle =>
          match partU8 p2 (groupText "sub") with
          | .ok sub => .ok (.group3 ⟨main, middle, sub⟩)
          | .err t => .err t
          | .panic => .panic
        | .err t => .err t
        | .panic => .panic
      | .err t => .err t
      | .panic => .panic
    | _ => .err ("Unable to parse group address ".toList ++ x.quoted s ++ ", parts should be 1 to 3".toList)

/-! ## Calls -/

/-- udp.rs:196-219: the texts of the three lookups of the connection. -/
def noConn (what : String) : Text := "Disconnected from knx device, ".toList ++ what.toList

/-- The text of the error a call of the client returns in a step, where it returns one. -/
def apiText (x : StdText) (s : Sys) (e : ApiEv) : Option Text :=
  match s.api, e with
  -- udp.rs:203
  | .seqNr _ _, .run => some (noConn "NR")
  -- udp.rs:210
  | .chanId _ _ _, .run => some (noConn "ID")
  -- udp.rs:245
  | .sendReq _ _, .sendFail => some ("Unable to send request ".toList ++ x.sock)
  -- udp.rs:522, 529, 530
  | .reading _ _, .run =>
    match s.bg.queue with
    | c :: _ =>
      match LDataInd.read x c with
      | .err t => some t
      | _ => none
    | [] => some "No more data will be received from client".toList
  | .reading _ _, .timer => some "Request timed out".toList
  -- udp.rs:557-559
  | .writing _, .run =>
    match s.bg.queue with
    | c :: _ => some ("Unknown cEMI message code ".toList ++ showU c.msgCode)
    | [] => some "No more data will be received from client".toList
  | .writing _, .timer => some "Write request timed out".toList
  -- udp.rs:210, 217, 224, 229, 233
  | .stChan, .run => some (noConn "ID")
  | .stEp _, .run => some (noConn "HPAI")
  | .stSend _, .sendFail => some ("Unable to send connection state request ".toList ++ x.sock)
  | .stRecv, .dgram d =>
    match runTRd (ConnectionstateResponse.read x) (buffer d) with
    | .err t => some t
    | _ => none
  | .stRecv, .recvErr => some ("Connectionstate not responded ".toList ++ x.sock)
  -- udp.rs:210, 217, 270
  | .dcChan, .run => some (noConn "ID")
  | .dcEp _, .run => some (noConn "HPAI")
  | .dcLog _, .run => some (noConn "ID")
  | .dcRecv, .run => some "Transport closed before disconnection response".toList
  | _, _ => none

/-- udp_monitor.rs:332-334: `solecitate_group_read` puts a text before that of `tunnel_req`, `write_group_address_value` (346) passes it
on. -/
def telegramText (x : StdText) (c : Call) (t : Text) : Text :=
  match c with
  | .solicit _ => "Unable to send connection state request ".toList ++ x.whatever t
  | _ => t

/-- The text of the error a call `c` of the monitor returns in a step, where it returns one; for `disconnect`, `channel` is the channel
it asks to disconnect (udp_monitor.rs:229). -/
def mapiText (x : StdText) (c : Call) (channel : U8) (s : MSys) (e : MApiEv) : Option Text :=
  match s.api, e with
  -- udp_monitor.rs:194, 176, 223
  | .seqNr _, .run => some (telegramText x c (noConn "NR"))
  | .chanId _ _, .run => some (telegramText x c (noConn "ID"))
  | .sendReq _, .sendFail => some (telegramText x c ("Unable to send request ".toList ++ x.sock))
  -- udp_monitor.rs:176, 183, 243
  | .dcChan, .run => some (noConn "ID")
  | .dcEp _, .run => some (noConn "HPAI")
  | .dcRecv, .dgram d =>
    match runTRd (DisconnectResponse.read x) (buffer d) with
    | .err t => some ("Unable to request disconnection for id ".toList ++ showU channel ++ ", ".toList ++ x.whatever t)
    | _ => none
  | _, _ => none

/-- The text of the error `next_msg` of the monitor returns, where it returns one (udp_monitor.rs:299, 308, 316). -/
def nextText (x : StdText) (s : MSys) : Option Text :=
  match s.bg.queue with
  | c :: _ =>
    match LDataInd.read x c with
    | .err t => some t
    | _ => none
  | [] => some "Transport is closed".toList

end Knx
