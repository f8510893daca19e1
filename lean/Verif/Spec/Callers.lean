import Verif.Model.Callers
import Verif.Spec.Trace

/-!
# Specification vocabulary: several callers of one object
-/

namespace Knx.Spec

variable {V : Server}

/-- What the object itself was observed to do, whoever caused it. -/
def inner (tr : List (PObs V)) : List Obs := tr.filterMap fun
  | .own _ o => some o
  | .other o => some o
  | _ => none

/-- What the calls of `i` did while they held the lock. -/
def mine (i : Nat) (tr : List (PObs V)) : List Obs := tr.filterMap fun
  | .own j o => if j = i then some o else none
  | _ => none

/-- The calls that were asked for, and those that got the lock, in order. -/
def asked (tr : List (PObs V)) : List (Nat × V.Req) := tr.filterMap fun
  | .asked i r => some (i, r)
  | _ => none

def began (tr : List (PObs V)) : List (Nat × V.Req) := tr.filterMap fun
  | .began i r => some (i, r)
  | _ => none

/-- Nobody gave up waiting, or panicked before waiting. -/
def patient (tr : List (PObs V)) : Prop := ∀ i, PObs.left i ∉ tr ∧ PObs.early i ∉ tr

/-- The line of those waiting: newcomers at the end, anybody may leave, nobody but the first gets the lock. -/
inductive Line : List (PObs V) → List (Nat × V.Req) → Prop
  | nil : Line [] []
  | asked {tr l} (i r) : Line tr l → Line (tr ++ [.asked i r]) (l ++ [(i, r)])
  | early {tr l} (i r) : Line tr l → Line (tr ++ [.asked i r, .early i]) l
  | left {tr l} (i) : Line tr l → Line (tr ++ [.left i]) (l.filter (·.1 ≠ i))
  | began {tr l} (i r) : Line tr ((i, r) :: l) → Line (tr ++ [.began i r]) l
  | own {tr l} (i o) : Line tr l → Line (tr ++ [.own i o]) l
  | other {tr l} (o) : Line tr l → Line (tr ++ [.other o]) l

/-- The call lets go of the lock: it returns, is dropped, or is a `next_msg` that has got its reference to the channel. -/
def lets : Obs → Bool
  | .ret _ => true
  | .cancelled => true
  | .ncall _ => true
  | _ => false

/-- Whose turn it is: one caller after the other, nobody does anything out of turn. -/
inductive Turn : List (PObs V) → Option Nat → Prop
  | nil : Turn [] none
  | asked {tr t} (i r) : Turn tr t → Turn (tr ++ [.asked i r]) t
  | early {tr t} (i) : Turn tr t → Turn (tr ++ [.early i]) t
  | left {tr t} (i) : Turn tr t → Turn (tr ++ [.left i]) t
  | other {tr t} (o) : Turn tr t → Turn (tr ++ [.other o]) t
  | began {tr} (i r) : Turn tr none → Turn (tr ++ [.began i r]) (some i)
  | own {tr} (i o) : Turn tr (some i) → Turn (tr ++ [.own i o]) (if lets o then none else some i)

/-- The call a request for the client stands for. -/
def clientCall : ClientReq → Call
  | .read a => .read a
  | .write a v s => .write a v s
  | .status => .status
  | .disconnect => .disconnect

/-- The call a request for the monitor stands for (`next_msg` is none). -/
def monitorCall : MonitorReq → Option Call
  | .solicit a => some (.solicit a)
  | .write a v s => some (.write a v s)
  | .disconnect => some .disconnect
  | .isConnected => some .isConnected
  | .subscribe id => some (.subscribe id)
  | .next => none

/-- The observation is made by a call that holds the lock. -/
def byCall : Obs → Bool
  | .call _ => true
  | .ret _ => true
  | .cancelled => true
  | .drew _ => true
  | .tx .api _ => true
  | .txFail .api _ => true
  | .rxApi _ => true
  | _ => false

end Knx.Spec
