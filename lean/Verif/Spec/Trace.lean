import Verif.Model.Transport
import Verif.Spec.Frames

/-!
# Specification vocabulary: what can be seen in a trace of observations
-/

namespace Knx.Spec

/-- The service type of a frame. -/
def serviceIs (service : Nat) (p : Bytes) : Bool := (p.drop 2).take 2 == word service

/-- The datagrams received by the background task within a connection, in order. -/
def received (tr : List Obs) : List Bytes := tr.filterMap fun
  | .rx d => some d
  | _ => none

/-- The datagrams sent, by whomever, in order. -/
def sent (tr : List Obs) : List Bytes := tr.filterMap fun
  | .tx _ p => some p
  | _ => none

/-- The tunneling acks sent, by whomever, in order. -/
def acksSent (tr : List Obs) : List Bytes := (sent tr).filter (serviceIs TUNNELING_ACK)

/-- The telegrams put into the message channel, in order. -/
def queued (tr : List Obs) : List Cemi := tr.filterMap fun
  | .queued c => some c
  | _ => none

/-- The telegrams taken out by the application, in order. -/
def taken (tr : List Obs) : List Cemi := tr.filterMap fun
  | .taken _ c => some c
  | _ => none

/-- The connections established, in order. -/
def ups (tr : List Obs) : List ConnectionResponse := tr.filterMap fun
  | .up r => some r
  | _ => none

/-- The sequence numbers drawn, in order. -/
def drawn (tr : List Obs) : List U8 := tr.filterMap fun
  | .drew n => some n
  | _ => none

/-- What was observed after the last observation satisfying `p` (everything, if there is none). -/
def since (p : Obs → Bool) (tr : List Obs) : List Obs := (tr.reverse.takeWhile fun o => !p o).reverse

/-- A connection was established. -/
def isUp : Obs → Bool
  | .up _ => true
  | _ => false

/-- A connection was given up. -/
def isDown : Obs → Bool
  | .down => true
  | _ => false

/-- A call started. -/
def isCall : Obs → Bool
  | .call _ => true
  | _ => false

/-- The last connection established. -/
def lastUp (tr : List Obs) : Option ConnectionResponse := (ups tr).getLast?

/-- The calls started, in order. -/
def calls (tr : List Obs) : List Call := tr.filterMap fun
  | .call c => some c
  | _ => none

/-- The last call started. -/
def lastCall (tr : List Obs) : Option Call := (calls tr).getLast?

/-- What the receiver sees of a datagram: its first 100 bytes, continued with zeros. -/
def seen (d : Bytes) : Bytes := padded 100 d

/-- Datagram `d` asks for the acknowledgement `p`: it is a tunneling request or a feature response and
`p` is the ack with its channel, its sequence number and status 0. -/
def AckFor (p d : Bytes) : Prop :=
  ∃ channel seq, p = frame TUNNELING_ACK [4, channel, seq, 0] ∧
    ((∃ cemi, Decodes (seen d) (.tunnelingRequest ⟨channel, seq, cemi⟩)) ∨
      ∃ f v st, Decodes (seen d) (.featureResponse ⟨f, v, st, channel, seq⟩))

/-- Datagram `d` is a tunneling request carrying the cEMI telegram `c`. -/
def Carries (m : Mode) (d : Bytes) (c : Cemi) : Prop :=
  ∃ t, Decodes (seen d) (.tunnelingRequest t) ∧ runRd (Cemi.fromPacket m) id t.cemi = .ok c

/-- Datagram `d` is a CONNECT_RESPONSE with status 0 granting the connection `r`. -/
def Grants (d : Bytes) (r : ConnectionResponse) : Prop :=
  r.status = 0 ∧ ∃ len rest, 8 ≤ len ∧ len < 65536 ∧ IndInRange r.crd.address ∧ seen d = connectResponse len r ++ rest

end Knx.Spec

namespace Knx.Spec

/-- The datagrams received while waiting for a connect response, in order. -/
def connAnswers (tr : List Obs) : List Bytes := tr.filterMap fun
  | .rxConn d => some d
  | _ => none

/-- The datagrams sent by the background task, in order. -/
def taskSent (tr : List Obs) : List Bytes := tr.filterMap fun
  | .tx .task p => some p
  | _ => none

/-- Number of times the heart beat interrupted the handler. -/
def interrupts (tr : List Obs) : Nat := tr.countP fun
  | .interrupt => true
  | _ => false

/-- Number of failed sends of the background task. -/
def taskSendFailures (tr : List Obs) : Nat := tr.countP fun
  | .txFail .task _ => true
  | _ => false

/-- Number of tunneling acks that could not be sent. -/
def ackFailures (tr : List Obs) : Nat := tr.countP fun
  | .txFail .task p => serviceIs TUNNELING_ACK p
  | _ => false

/-- Number of times the message channel was found closed. -/
def closings (tr : List Obs) : Nat := tr.countP fun
  | .closed => true
  | _ => false

/-- The datagrams that have been acknowledged: for every ack sent the last datagram received before. -/
def ackedStep (st : Option Bytes × List Bytes) : Obs → Option Bytes × List Bytes
  | .rx d => (some d, st.2)
  | .tx _ p => if serviceIs TUNNELING_ACK p then (none, st.2 ++ st.1.toList) else st
  | _ => st

/-- The datagrams that have been acknowledged, in order. -/
def acked (tr : List Obs) : List Bytes := (tr.foldl ackedStep (none, [])).2

/-- The subscribers notified, in order. -/
def notifiedIds (tr : List Obs) : List Nat := tr.filterMap fun
  | .notified i => some i
  | _ => none

/-- Everything up to and including the last observation satisfying `p` (nothing, if there is none). -/
def upto (p : Obs → Bool) (tr : List Obs) : List Obs := tr.take (tr.length - (since p tr).length)

/-- A sequence number was drawn. -/
def isDrew : Obs → Bool
  | .drew _ => true
  | _ => false

/-- The datagrams sent by API calls, in order. -/
def apiSent (tr : List Obs) : List Bytes := tr.filterMap fun
  | .tx .api p => some p
  | _ => none

/-- The datagrams received by API calls, in order. -/
def apiReceived (tr : List Obs) : List Bytes := tr.filterMap fun
  | .rxApi d => some d
  | _ => none

/-- The results returned by API calls, in order. -/
def returned (tr : List Obs) : List Ret := tr.filterMap fun
  | .ret r => some r
  | _ => none

/-- Connected after an observation, given whether connected before. -/
def upStep (b : Bool) : Obs → Bool
  | .up _ => true
  | .down => false
  | _ => b

/-- Connected according to the observations: the last of `up` and `down` is `up`. -/
def upNow (tr : List Obs) : Bool := tr.foldl upStep false

/-- Number of heart beats sent by the task: its connection state requests. -/
def beatsSent (tr : List Obs) : Nat := ((taskSent tr).filter (serviceIs CONNECTIONSTATE_REQUEST)).length

/-- The task asked for a connection, or tried to. -/
def isAttempt : Obs → Bool
  | .tx .task p => serviceIs CONNECT_REQUEST p
  | .txFail .task p => serviceIs CONNECT_REQUEST p
  | _ => false

/-- Number of attempts to connect. -/
def attempts (tr : List Obs) : Nat := tr.countP isAttempt

/-- Calls and their ends alternate: `some b` says so, with `b` telling whether the last call is still open. -/
def bracketStep (x : Option Bool) (o : Obs) : Option Bool :=
  match o, x with
  | .call _, some false => some true
  | .call _, _ => none
  | .ret _, some true => some false
  | .ret _, _ => none
  | .cancelled, some true => some false
  | .cancelled, _ => none
  | _, x => x

def bracket (tr : List Obs) : Option Bool := tr.foldl bracketStep (some false)

/-- The same for the calls of `next_msg` by caller `i`. -/
def nbracketStep (i : Nat) (x : Option Bool) (o : Obs) : Option Bool :=
  match o, x with
  | .ncall j, x => if j ≠ i then x else if x = some false then some true else none
  | .nret j _, x => if j ≠ i then x else if x = some true then some false else none
  | .ncancelled j, x => if j ≠ i then x else if x = some true then some false else none
  | _, x => x

def nbracket (i : Nat) (tr : List Obs) : Option Bool := tr.foldl (nbracketStep i) (some false)

end Knx.Spec
