import Verif.Spec.Layouts

/-!
# Packets that are cut short, or followed by something
-/

namespace Knx.Spec
open Knx

/-- The number of octets of all entries. -/
def extent : List Entry → Nat
  | [] => 0
  | e :: es => e.width + extent es

/-- The first entry that `n` octets do not contain completely. -/
def severed : List Entry → Nat → Option Entry
  | [], _ => none
  | e :: es, n => if n < e.width then some e else severed es (n - e.width)

end Knx.Spec
