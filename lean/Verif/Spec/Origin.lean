import Verif.Spec.Telegrams
import Verif.Spec.Monitor

/-!
# Specification vocabulary: where a value comes from
-/

namespace Knx.Spec

/-- `v` is made of what datagram `d` contains: consecutive bytes of `d` continued with zeros, or the low six bits of one byte. -/
def MadeOf (d v : Bytes) : Prop :=
  (∃ w n, w <:+: d ∧ v = w ++ List.replicate n 0) ∨ ∃ b ∈ d, v = [byte (b.toNat % 64)]

/-- `d` is the datagram, of at most 100 bytes, with which an interface following the standard delivers the value `v`: all its lengths
are right, and the value is what follows the nine bytes of an L_Data.ind, or the low six bits of the ninth if nothing follows. -/
def Delivers (d v : Bytes) : Prop :=
  d.length ≤ 100 ∧ ∃ ch seq res c c1 c2 s1 s2 d1 d2 l a b rest,
    d = frame TUNNELING_REQUEST ([4, ch, seq, res] ++ cemiFrame c) ∧ infosSize c.infos < 256 ∧
    c.serviceInfo = [c1, c2, s1, s2, d1, d2, l, a, b] ++ rest ∧ l.toNat = rest.length + 1 ∧
    v = if rest = [] then [byte (b.toNat % 64)] else rest

end Knx.Spec
