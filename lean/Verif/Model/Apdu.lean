import Verif.Model.Prim

/-!
# Model of `src/packets/apdu.rs` and `src/packets/tpdu.rs`
-/

namespace Knx

/-- apdu.rs:64-68 `struct APCI`. -/
structure Apci where
  code : U8
  extendedCode : Option U8
  deriving DecidableEq, Repr

/-- apdu.rs:71-76 `APCI::a_group_value_read`. -/
def Apci.groupValueRead : Apci := ⟨0, some 0⟩

/-- apdu.rs:78-80 `APCI::a_group_value_write`. -/
def Apci.groupValueWrite : Apci := ⟨2, none⟩

/-- apdu.rs:82-91 `APCI::packet` (always two bytes: high, low). -/
def Apci.packet (a : Apci) : U8 × U8 :=
  let hw := (a.code &&& 0b1100#8) >>> 2
  let lw := (a.code &&& 0b11#8) <<< 6
  match a.extendedCode with
  | some e => (hw, lw ||| (e &&& 0x3f#8))
  | none => (hw, lw)

/-- apdu.rs:12-16 `enum APDUData`. -/
inductive ApduData where
  | small (d : U8)
  | big (d : Bytes)
  deriving DecidableEq, Repr

/-- apdu.rs:6-10 `struct APDU`, with its constructor `new` (19-21). -/
structure Apdu where
  apci : Apci
  data : ApduData
  deriving DecidableEq, Repr

/-- apdu.rs:23-28 `APDU::group_value_read`. -/
def Apdu.groupValueRead : Apdu := ⟨Apci.groupValueRead, .small 0⟩

/-- apdu.rs:30-36 `APDU::group_value_write`: `data[0]` panics on an empty vector. -/
def Apdu.groupValueWrite (data : Bytes) (small : Bool) : Res Apdu :=
  if small then
    match data with
    | [] => .panic
    | d :: _ => .ok ⟨Apci.groupValueWrite, .small d⟩
  else .ok ⟨Apci.groupValueWrite, .big data⟩

/-- apdu.rs:38-48 `APDU::group_value_write_pd`, for a data point whose `is_small()` is
`isSmall` (it may panic, `todo!()`) and whose `get_bytes()` is `bytes`. -/
def Apdu.groupValueWritePd (isSmall : Res Bool) (bytes : Bytes) : Res Apdu :=
  match isSmall with
  | .ok true => .ok ⟨Apci.groupValueWrite, .small (bytes.head?.getD 0)⟩
  | .ok false => .ok ⟨Apci.groupValueWrite, .big bytes⟩
  | .err => .err
  | .panic => .panic

/-- apdu.rs:50-58 `APDU::packet`. -/
def Apdu.packet (a : Apdu) : Bytes :=
  let p := a.apci.packet
  match a.data with
  | .small d => [p.1, p.2 ||| (d &&& 0x3f#8)]
  | .big d => [p.1, p.2] ++ d

/-- tpdu.rs:17-21 `enum TpduKind`. -/
inductive TpduKind where
  | data
  | control
  deriving DecidableEq, Repr

/-- tpdu.rs:23-27 `enum TpduAddressType`. -/
inductive TpduAddressType where
  | individual
  | group
  deriving DecidableEq, Repr

/-- tpdu.rs:8-15 `struct TPDU`. -/
structure Tpdu where
  addressType : TpduAddressType
  kind : TpduKind
  numbered : Bool
  sequenceNumber : U8
  apdu : Apdu
  deriving DecidableEq, Repr

/-- tpdu.rs:30-38 `TPDU::t_data_broadcast`. -/
def Tpdu.dataBroadcast (a : Apdu) : Tpdu := ⟨.group, .data, false, 0, a⟩
/-- tpdu.rs:39-47 `TPDU::t_data_group`. -/
def Tpdu.dataGroup (a : Apdu) : Tpdu := ⟨.group, .data, false, 0, a⟩
/-- tpdu.rs:48-56 `TPDU::t_data_tag_group`. -/
def Tpdu.dataTagGroup (a : Apdu) : Tpdu := ⟨.group, .data, false, 1, a⟩
/-- tpdu.rs:57-65 `TPDU::t_data_individual`. -/
def Tpdu.dataIndividual (a : Apdu) : Tpdu := ⟨.individual, .data, false, 0, a⟩
/-- tpdu.rs:66-74 `TPDU::t_data_connected`. -/
def Tpdu.dataConnected (a : Apdu) (seq : U8) : Tpdu := ⟨.individual, .data, true, seq, a⟩
/-- tpdu.rs:75-83 `TPDU::t_connect`. -/
def Tpdu.connect (a : Apdu) : Tpdu := ⟨.individual, .control, false, 0, a⟩
/-- tpdu.rs:84-92 `TPDU::t_disconnect`. -/
def Tpdu.disconnect (a : Apdu) : Tpdu := ⟨.individual, .control, false, 1, a⟩

/-- tpdu.rs:94-96 `TPDU::packet` (the transport control field is not encoded). -/
def Tpdu.packet (t : Tpdu) : Bytes := t.apdu.packet

end Knx
