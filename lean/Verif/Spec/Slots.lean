import Verif.Spec.Trace

/-!
# Specification vocabulary: the connections a server keeps

A server keeps a connection it has granted until it gets a disconnect request for its channel or sends one itself (or has not
heard a heart beat on it for two minutes, 03.08.02 section 5.4). It has a limited number of them.
-/

namespace Knx.Spec

/-- The channel of the connection that a server has opened when it sends datagram `d`: a connect response with status 0. -/
def opens (d : Bytes) : Option U8 :=
  if (seen d).take 4 = [6, 0x10, 2, 6] ∧ (seen d).getD 7 1 = 0 then some ((seen d).getD 6 0) else none

/-- The channel of the connection that datagram `p`, a disconnect request, ends. -/
def ends (p : Bytes) : Option U8 := if p.take 4 = [6, 0x10, 2, 9] then some (p.getD 6 0) else none

/-- The datagrams that arrive, whoever receives them, in order. -/
def arrived (tr : List Obs) : List Bytes := tr.filterMap fun
  | .rxConn d => some d
  | .rx d => some d
  | .rxApi d => some d
  | _ => none

/-- The list without that channel. -/
def without (l : List U8) : Option U8 → List U8
  | some ch => l.erase ch
  | none => l

/-- The channels open at the server, one observation on. -/
def slotStep (l : List U8) : Obs → List U8
  | .rxConn d => without l (ends d) ++ (opens d).toList
  | .rx d => without l (ends d) ++ (opens d).toList
  | .rxApi d => without l (ends d) ++ (opens d).toList
  | .tx _ p => without l (ends p)
  | _ => l

/-- The channels open at the server according to what it sent to the client and got from it. -/
def slots (tr : List Obs) : List U8 := tr.foldl slotStep []

/-- Number of times a connection was given up. -/
def downs (tr : List Obs) : Nat := tr.countP isDown

/-- Number of calls of `disconnect`. -/
def goodbyes (tr : List Obs) : Nat := (calls tr).countP (· == .disconnect)

/-- Number of disconnect requests the server sent. -/
def hangups (tr : List Obs) : Nat := (arrived tr).countP fun d => (ends d).isSome

end Knx.Spec
