import Verif.Model.Emi
import Verif.Spec.Bytes

/-!
# Specification: APDU and cEMI frames

The frame layouts of the KNX standard (03.06.03 EMI_IMI, 03.03.07 application layer), written
as plain byte strings.
-/

namespace Knx.Spec

/-- A_GroupValue_Read. -/
def apduRead : Bytes := [0x00, 0x00]

/-- A_GroupValue_Write of a value of at most six bits, placed in the second byte. -/
def apduWriteSmall (d : U8) : Bytes := [0x00, byte (0x80 + d.toNat % 64)]

/-- A_GroupValue_Write of a byte string. -/
def apduWriteBig (v : Bytes) : Bytes := [0x00, 0x80] ++ v

/-- cEMI L_Data.req: message code, no additional information, control 1 (standard frame, do not
repeat, broadcast, priority in bits 2-3), control 2 (group address, hop count 6), source 0,
destination, TPDU length minus one, TPDU. -/
def lDataReqFrame (priority dest : Nat) (tpdu : Bytes) : Bytes :=
  [0x11, 0x00, byte (0xB0 + 4 * (priority % 4)), 0xE0, 0x00, 0x00] ++ word dest
    ++ [byte (tpdu.length - 1)] ++ tpdu

/-- The type codes of additional information (03.06.03 table 4.1.4.3.1). -/
def infoCode : InfoType → Nat
  | .plMedium => 1
  | .rfMedium => 2
  | .busmonitorStatus => 3
  | .timestampRelative => 4
  | .timeDelayUntilSending => 5
  | .extendedRelativeTime => 6
  | .biBat => 7
  | .rfMulti => 8
  | .preambleAndPostamble => 9
  | .rfFastAck => 10
  | .manufacturerSpecific => 254

/-- One additional-information block on the wire. -/
def infoBytes (i : AddInfo) : Bytes := [byte (infoCode i.infoType), byte i.value.length] ++ i.value

/-- Several blocks. -/
def infosBytes (is : List AddInfo) : Bytes := (is.map infoBytes).flatten

/-- The total size of the blocks (type and length byte included). -/
def infosSize (is : List AddInfo) : Nat := (is.map fun i => i.value.length + 2).sum

/-- A complete cEMI frame on the wire. -/
def cemiFrame (c : Cemi) : Bytes :=
  [c.msgCode, byte (infosSize c.infos)] ++ infosBytes c.infos ++ c.serviceInfo

/-- The first `n` bytes of `b` continued with zeros. -/
def padded (n : Nat) (b : Bytes) : Bytes := (b ++ List.replicate n 0).take n

/-- `b` starts with the blocks `is`, and `rest` follows. Of the last block of a frame bytes may be missing; then they count as zeros. -/
inductive Blocks : List AddInfo → Bytes → Bytes → Prop
  | none (b : Bytes) : Blocks [] b b
  | block (i : AddInfo) (is : List AddInfo) (b rest : Bytes) : i.value.length < 256 → Blocks is b rest →
      Blocks (i :: is) (infoBytes i ++ b) rest
  | short (ty : InfoType) (s : U8) (v : Bytes) : v.length < s.toNat →
      Blocks [⟨ty, padded s.toNat v⟩] ([byte (infoCode ty), s] ++ v) []

end Knx.Spec
