import Verif.Model.Sample
import Verif.Spec.Telegrams

/-!
# Specification vocabulary: programs that use a client
-/

namespace Knx.Spec

/-- The calls with what the calling code sent during each of them, one observation on. -/
def sentStep (xs : List (Call × List Bytes)) : Obs → List (Call × List Bytes)
  | .call c => xs ++ [(c, [])]
  | .tx .api p =>
    match xs.getLast? with
    | some y => xs.dropLast ++ [(y.1, y.2 ++ [p])]
    | none => xs
  | _ => xs

/-- The calls, in order, with what the calling code sent during each of them. -/
def sentBy (tr : List Obs) : List (Call × List Bytes) := tr.foldl sentStep []

/-- `p` is the datagram that call `c` of a client or of a monitor is about. -/
def OwnRequest (c : Call) (p : Bytes) : Prop :=
  match c with
  | .read addr => ∃ ch n, RequestPacket ch n (lDataReqFrame 3 addr.toU16.toNat apduRead) p
  | .solicit addr => ∃ ch n, RequestPacket ch n (lDataReqFrame 3 addr.toU16.toNat apduRead) p
  | .write addr v true => v ≠ [] ∧ ∃ ch n, RequestPacket ch n (lDataReqFrame 3 addr.toU16.toNat (apduWriteSmall (v.headD 0))) p
  | .write addr v false => ∃ ch n, RequestPacket ch n (lDataReqFrame 3 addr.toU16.toNat (apduWriteBig v)) p
  | .status => ∃ ch ep, p = frame CONNECTIONSTATE_REQUEST ([ch, 0] ++ hpai ep)
  | .disconnect => ∃ ch ep, p = frame DISCONNECT_REQUEST ([ch, 0] ++ hpai ep)
  | _ => False

/-- The calls a program makes, each with whether it passes on errors. -/
def stmtCalls (ss : List Stmt) : List (Call × Bool) := ss.filterMap fun
  | .call c q => some (c, q)
  | .sleep _ => none

/-- The time a program sleeps, in milliseconds. -/
def slept (ss : List Stmt) : Nat := (ss.map fun s => match s with | .sleep ms => ms | .call .. => 0).sum

/-- The result `r` of a call lets the program go on. -/
def GoesOn (x : Call × Bool) (r : Ret) : Prop := r ≠ .panic ∧ (x.2 = true → r ≠ .err)

end Knx.Spec
