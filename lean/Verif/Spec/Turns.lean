import Verif.Spec.Slots

/-!
# Specification vocabulary: connect requests and their answers

A connect response does not say which request it answers. A server that answers every connect request once, and whose datagrams keep their
order, answers the first request with its first connect response, the second request with the second one, and so on.
-/

namespace Knx.Spec

/-- Number of connect requests sent. -/
def requests (tr : List Obs) : Nat := ((taskSent tr).filter (serviceIs CONNECT_REQUEST)).length

/-- The datagram is a connect response, whatever it says. -/
def isConnResp (d : Bytes) : Bool := (seen d).take 4 == [6, 0x10, 2, 6]

/-- The connect responses that arrive, whoever reads them, in order. -/
def answers (tr : List Obs) : List Bytes := (arrived tr).filter isConnResp

/-- No connect response arrives that does not answer a request. -/
def InTurn (tr : List Obs) : Prop := ∀ t, t <+: tr → (answers t).length ≤ requests t

/-- No connect request is sent while an earlier one is unanswered. -/
def Awaited (tr : List Obs) : Prop :=
  ∀ t p, t ++ [.tx .task p] <+: tr → serviceIs CONNECT_REQUEST p = true → (answers t).length = requests t

end Knx.Spec
