import Verif.Spec.Emi

/-!
# Specification: transport services and the kind of a telegram

The transport layer services of 03.03.04 with their control fields, and the L_Data.req frame that the
standard (03.06.03 section 4.1.5.3) prescribes for each of them.
-/

namespace Knx.Spec

/-- The services of the transport layer. -/
inductive Service where
  | broadcast
  | group
  | tagGroup
  | individual
  | connected (number : U8)
  | connect
  | disconnect
  deriving DecidableEq

/-- The transport control field (03.03.04 chapter 2), as the value of the first octet of the TPDU without
the two bits of the application layer. -/
def tpci : Service → Nat
  | .broadcast => 0x00
  | .group => 0x00
  | .tagGroup => 0x04
  | .individual => 0x00
  | .connected n => 0x40 + 4 * (n.toNat % 16)
  | .connect => 0x80
  | .disconnect => 0x81

/-- Connecting and disconnecting carry no data. -/
def isControl : Service → Bool
  | .connect => true
  | .disconnect => true
  | _ => false

/-- The TPDU of the standard: the control field above the two high bits of the application control field;
or the control field alone. -/
def stdTpdu (s : Service) (apdu : Bytes) : Bytes :=
  if isControl s then [byte (tpci s)]
  else byte (tpci s + (apdu.headD 0).toNat % 4) :: apdu.tail

/-- Group destinations. -/
def isGroup : KnxAddress → Bool
  | .individual _ => false
  | _ => true

/-- The frame of the standard: a standard frame (bit 7 of the first control octet) carries at most 15
octets after the first of the TPDU, and bit 7 of the second control octet says whether the destination
is a group. -/
def stdReq (priority : Nat) (s : Service) (dest : KnxAddress) (apdu : Bytes) : Bytes :=
  let t := stdTpdu s apdu
  [0x11, 0x00, byte ((if t.length - 1 ≤ 15 then 0x80 else 0) + 0x30 + 4 * (priority % 4)),
    byte ((if isGroup dest then 0x80 else 0) + 0x60), 0x00, 0x00] ++ word dest.toU16.toNat
    ++ [byte (t.length - 1)] ++ t

end Knx.Spec
