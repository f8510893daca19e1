import Verif.Spec.Monitor

/-!
# Specification vocabulary: what a subscriber is owed
-/

namespace Knx.Spec

/-- The notifications owed to subscriber `id`: one for every connection established after a registration of it (`n` registrations
before the trace). -/
def owed (id : Nat) (n : Nat) : List Obs → Nat
  | [] => 0
  | .subscribed j :: tr => owed id (if j = id then n + 1 else n) tr
  | .up _ :: tr => n + owed id n tr
  | _ :: tr => owed id n tr

/-- How often subscriber `id` was told of a connection. -/
def told (id : Nat) (tr : List Obs) : Nat := (notifiedIds tr).count id

/-- How often subscriber `id` was registered. -/
def signedUp (id : Nat) (tr : List Obs) : Nat := (subscribedIds tr).count id

end Knx.Spec
