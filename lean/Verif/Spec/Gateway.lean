import Verif.Spec.Telegrams
import Mathlib.Data.List.Forall2

/-!
# Specification vocabulary: how a KNXnet/IP server treats the requests of a tunnel

03.08.04 Tunnelling, section 2.6: a server forwards a request whose sequence counter is the expected one and acknowledges it; a
request whose counter is one less is the repetition of the last one, it is acknowledged and not forwarded; any other request
is discarded without an acknowledgement.
-/

namespace Knx.Spec

/-- Channel, sequence counter and telegram of a tunneling request. -/
def requestOf (p : Bytes) : Option (U8 × U8 × Bytes) :=
  if p.take 4 = [0x06, 0x10, 0x04, 0x20] ∧ p[6]? = some 4 ∧ 10 ≤ p.length then some (p.getD 7 0, p.getD 8 0, p.drop 10) else none

/-- What the server does with a datagram. -/
inductive Verdict where
  /-- Acknowledged, and the telegram put on the bus. -/
  | forwarded (cemi : Bytes)
  /-- Acknowledged only. -/
  | repeated
  /-- Neither. -/
  | discarded
  deriving DecidableEq, Repr

/-- The server of channel `ch`, expecting the sequence counter `e`, receives `p`: what it does, and what it expects next. -/
def gateStep (ch e : U8) (p : Bytes) : Verdict × U8 :=
  match requestOf p with
  | none => (.discarded, e)
  | some (c, n, cemi) =>
    if c ≠ ch then (.discarded, e)
    else if n = e then (.forwarded cemi, e + 1)
    else if n = e - 1 then (.repeated, e)
    else (.discarded, e)

/-- What it does with one datagram after the other. -/
def gate (ch e : U8) : List Bytes → List Verdict
  | [] => []
  | p :: ps => (gateStep ch e p).1 :: gate ch (gateStep ch e p).2 ps

/-- The verdict a request is meant to get. -/
def passed (p : Bytes) : Verdict := .forwarded (p.drop 10)

/-- `n` numbers from `a` on, modulo 256. -/
def count (a : U8) : Nat → List U8
  | 0 => []
  | n + 1 => a :: count (a + 1) n

/-- The datagrams `ps` are requests on channel `ch` with the sequence counters `ns`. -/
def Numbers (ch : U8) (ps : List Bytes) (ns : List U8) : Prop :=
  List.Forall₂ (fun p n => ∃ cemi, RequestPacket ch n cemi p) ps ns

/-- No call failed to send, panicked or was dropped. -/
def Undisturbed (tr : List Obs) : Prop :=
  (∀ p, Obs.txFail .api p ∉ tr) ∧ Obs.ret .panic ∉ tr ∧ Obs.cancelled ∉ tr

end Knx.Spec
