import Verif.Spec.Telegrams

/-!
# Specification vocabulary: what happens to a telegram between two clients
-/

namespace Knx.Spec

/-- What an interface does with a request to send a telegram on the bus, seen by another client of the same or another interface:
datagram `p` is a tunneling request with an L_Data.req without additional information; datagram `d` is a tunneling request, on
channel `ch` with sequence number `seq`, with the L_Data.ind that has the same control bytes, destination, length and TPDU, and
source address `src` (03.06.03 section 4.1.5.3; 03.08.04 section 2.6). -/
def Forwards (src : U16) (ch seq : U8) (p d : Bytes) : Prop :=
  ∃ ch0 n0 len c1 c2 s1 s2 tail,
    p = header TUNNELING_REQUEST len ++ [4, ch0, n0, 0] ++ ([0x11, 0, c1, c2, s1, s2] ++ tail) ∧
    d = frame TUNNELING_REQUEST ([4, ch, seq, 0] ++ ([0x29, 0, c1, c2] ++ word src.toNat ++ tail))

/-- The value that is on the bus after a write of `v`: one byte with the low six bits of the first byte of `v` for a small
write, `v` itself otherwise. -/
def onBus (v : Bytes) (small : Bool) : Bytes := if small then [byte ((v.headD 0).toNat % 64)] else v

end Knx.Spec
