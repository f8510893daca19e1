import Verif.Spec.Monitor

/-!
# Specification vocabulary: telegrams on the bus

What a telegram looks like in an L_Data.ind (03.06.03 section 4.1.5.3.5) and, raw, in an L_Busmon.ind (03.02.02 section 2.2: the
octets on the wire with the check octet).
-/

namespace Knx.Spec

/-- Service data of an L_Data.ind: two control octets, source, destination, number of octets after the first one, TPDU. -/
def indBytes (ctrl1 ctrl2 : U8) (src dest : U16) (tpdu : Bytes) : Bytes :=
  [ctrl1, ctrl2] ++ word src.toNat ++ word dest.toNat ++ [byte (tpdu.length - 1)] ++ tpdu

/-- A standard frame on the wire: control octet, source, destination, one octet with address type and hop count (`npci`) and the number
of octets after the first one, TPDU, check octet. -/
def standardFrame (ctrl : U8) (src dest : U16) (npci : Nat) (tpdu : Bytes) (check : U8) : Bytes :=
  [ctrl] ++ word src.toNat ++ word dest.toNat ++ [byte (npci * 16 + (tpdu.length - 1))] ++ tpdu ++ [check]

/-- An extended frame on the wire: control octet, extended control octet, source, destination, number of octets after the first one,
TPDU, check octet. -/
def extendedFrame (ctrl ctrle : U8) (src dest : U16) (tpdu : Bytes) (check : U8) : Bytes :=
  [ctrl, ctrle] ++ word src.toNat ++ word dest.toNat ++ [byte (tpdu.length - 1)] ++ tpdu ++ [check]

/-- The data of a TPDU with an APCI: in the low six bits of the second octet, or in the octets after that. -/
def tpduData (tpdu : Bytes) : Bytes :=
  match tpdu with
  | [_, b] => [byte (b.toNat % 64)]
  | _ :: _ :: rest => rest
  | _ => []

/-- `r` shows a telegram from `src` to `dest` with data `v`. -/
def Tells (src dest : U16) (v : Bytes) (r : Ret) : Prop := ∃ i, r = .ind i ∧ i.lData.src = src ∧ i.lData.dest = dest ∧ i.value = v

end Knx.Spec
