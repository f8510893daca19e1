import Verif.Spec.Stories
import Verif.Spec.Wire
import Verif.Spec.Dib

/-!
# Where it matters whether overflow checks are compiled in
-/

namespace Knx.Spec
open Knx

/-- A value whose telegram, or whose request, has a length that does not fit the length field. -/
def LongWrite (v : Bytes) : Prop := (v.length + 2) % 256 = 0 ∨ 65526 ≤ (v.length + 11) % 65536

/-- What is seen when a debug build and a release build may go on differently: a write of such a value, and a tunneling request whose additional
information is longer than 255 octets. -/
def BuildMatters : Obs → Prop
  | .call (.write _ v false) => LongWrite v
  | .rx d => ∃ t, Decodes (seen d) (.tunnelingRequest t) ∧ Explosive .debug t.cemi
  | _ => False

/-- A search response whose first or second block has a length too small for its type. -/
def ImpossibleSearch (r : Bytes) : Prop :=
  ∃ (len : Nat) (ep : Hpai) (r1 : Bytes), len < 65536 ∧ r = header SEARCH_RESPONSE len ++ hpai ep ++ r1 ∧
    (ImpossibleDib r1 ∨ ∃ (l : U8) (d : DeviceInfo) (r2 : Bytes), IndInRange d.address ∧ r1 = [l, 1] ++ deviceInfoBody d ++ r2 ∧ ImpossibleDib r2)

end Knx.Spec
