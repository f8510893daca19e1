import Verif.Spec.Trace

/-!
# Specification vocabulary: telegrams and requests on the wire
-/

namespace Knx.Spec

/-- Message code of an L_Data.ind, L_Data.con, L_Busmon.ind (03.06.03 section 4.1.3). -/
def L_DATA_IND : U8 := 0x29
def L_DATA_CON : U8 := 0x2e
def L_BUSMON_IND : U8 := 0x2b

/-- Telegram `c` is an indication to destination `dest` with value `v` (two control bytes, source, destination, length,
TPCI/APCI; a length of 0 or 1 means that the value is in the low six bits of the APCI). -/
def IndicationFor (dest : U16) (c : Cemi) (v : Bytes) : Prop :=
  c.msgCode = L_DATA_IND ∧ ∃ c1 c2 s1 s2 d1 d2 l a b rest,
    c.serviceInfo = [c1, c2, s1, s2, d1, d2, l, a, b] ++ rest ∧ [d1, d2] = word dest.toNat ∧
    v = if 2 ≤ l.toNat then padded (l.toNat - 1) rest else [byte (b.toNat % 64)]

/-- `p` is a tunneling request on channel `channel` with sequence number `seq` carrying `cemi`. -/
def RequestPacket (channel seq : U8) (cemi p : Bytes) : Prop :=
  ∃ len, p = header TUNNELING_REQUEST len ++ [4, channel, seq, 0] ++ cemi

/-- The tunneling requests sent by API calls, in order. -/
def requestsSent (tr : List Obs) : List Bytes := (apiSent tr).filter (serviceIs TUNNELING_REQUEST)

/-- Request `p`, about to be sent after `tr`: its sequence number is the last one drawn; its channel is that of the connection
the number was drawn from, or of one established after the draw. -/
def PairedUpTo (tr : List Obs) (p : Bytes) : Prop :=
  ∃ r seq cemi, RequestPacket r.channel seq cemi p ∧ (drawn tr).getLast? = some seq ∧
    (lastUp (upto isDrew tr) = some r ∨ Obs.up r ∈ since isDrew tr)

end Knx.Spec
