import Verif.Model.Transport

/-!
# Model of the client API (`UdpClient`, `UdpTransport` in `src/transport/udp.rs`)

All methods lock the transport for their whole duration (udp.rs:500, 512, 546, 565), so at most
one call is past that point. A call in the model starts when it has got this lock; the callers
waiting for it are added in `Model/Callers.lean`. `flush` (udp.rs:535-537) does nothing and returns `Ok`.
`UdpTransport::set_feature` (udp.rs:250-260) is not reachable from the public API; it is modelled in `Model/Feature.lean`.
-/

namespace Knx

/-- Where an API call waits. -/
inductive Api where
  | idle
  /-- `tunnel_req`: about to draw a sequence number (udp.rs:237). -/
  | seqNr (c : Call) (cemi : Bytes)
  /-- `tunnel_req`: about to look up the channel (udp.rs:238). -/
  | chanId (c : Call) (seq : U8) (cemi : Bytes)
  /-- `tunnel_req`: sending (udp.rs:244). -/
  | sendReq (c : Call) (packet : Bytes)
  /-- `read_group_address_value`: waiting for a message until the deadline (udp.rs:516). -/
  | reading (addr : U16) (deadline : Nat)
  /-- `write_group_address_value`: waiting for a message until the deadline (udp.rs:551). -/
  | writing (deadline : Nat)
  /-- `get_connectionstate` (udp.rs:222-228). -/
  | stChan
  | stEp (channel : U8)
  | stSend (packet : Bytes)
  | stRecv
  /-- `disconnect` (udp.rs:263-268). -/
  | dcChan
  | dcEp (channel : U8)
  | dcLog (packet : Bytes)
  | dcSend (packet : Bytes)
  | dcRecv
  deriving DecidableEq, Repr

/-- The client: background task and at most one API call. -/
structure Sys where
  bg : Bg
  api : Api

/-- The state after `UdpClient::connect` (udp.rs:476-483) returned. -/
def Sys.init : Sys := ⟨Bg.init, .idle⟩

/-- What happens to an API call. -/
inductive ApiEv where
  | call (c : Call)
  /-- A step that waits for a lock or a message of the channel. -/
  | run
  /-- udp.rs:264: debug logging is off, its argument is not evaluated. -/
  | skipLog
  | sendOk
  | sendFail
  | dgram (d : Bytes)
  | recvErr
  | timer
  /-- The caller drops the future of the call. -/
  | cancel
  /-- The client object is dropped. -/
  | drop
  deriving DecidableEq, Repr

/-- udp.rs:490-496: ten seconds. -/
def apiTimeout : Nat := 10000

/-- udp.rs:507-509 and 513: the L_Data.req of a read. -/
def readCemi (m : Mode) (addr : KnxAddress) : Res Bytes :=
  (LDataReq.new addr (Tpdu.dataGroup Apdu.groupValueRead)).packet m

/-- udp.rs:541-543 and 547: the L_Data.req of a write. -/
def writeCemi (m : Mode) (addr : KnxAddress) (v : Bytes) (small : Bool) : Res Bytes :=
  match Apdu.groupValueWrite v small with
  | .ok a => (LDataReq.new addr (Tpdu.dataGroup a)).packet m
  | .err => .err
  | .panic => .panic

/-- `tunnel_req` with the message given (udp.rs:236): an argument that panics panics the call. -/
def startTunnel (s : Sys) (c : Call) : Res Bytes → Option (Sys × List Obs)
  | .ok cemi => some ({ s with api := .seqNr c cemi }, [.call c])
  | .err => some (s, [.call c, .ret .err])
  | .panic => some (s, [.call c, .ret .panic])

/-- Start of a call. -/
def apiCall (m : Mode) (s : Sys) (c : Call) : Option (Sys × List Obs) :=
  match c with
  | .read addr => startTunnel s c (readCemi m addr)
  | .write addr v small => startTunnel s c (writeCemi m addr v small)
  | .status => some ({ s with api := .stChan }, [.call c])
  | .disconnect => some ({ s with api := .dcChan }, [.call c])
  | _ => none

/-- The call returns. -/
def finish (s : Sys) (o : List Obs) (r : Ret) : Option (Sys × List Obs) := some ({ s with api := .idle }, o ++ [.ret r])

/-- udp.rs:516-530: what a read makes of a message. -/
def readMsg (s : Sys) (addr : U16) (c : Cemi) : Option (Sys × List Obs) :=
  let again : Option (Sys × List Obs) := some ({ s with api := .reading addr (s.bg.now + apiTimeout) }, [.taken 0 c])
  if c.msgCode = codeLDataCon then
    match LDataCon.fromCemi c with
    | .panic => finish s [.taken 0 c] .panic
    | _ => again
  else if c.msgCode = codeLDataInd then
    match LDataInd.fromCemi c with
    | .ok i => if i.lData.dest = addr then finish s [.taken 0 c] (.value i.value) else again
    | .err => finish s [.taken 0 c] .err
    | .panic => finish s [.taken 0 c] .panic
  else again

/-- udp.rs:551-559: what a write makes of a message. -/
def writeMsg (s : Sys) (c : Cemi) : Option (Sys × List Obs) :=
  if c.msgCode = codeLDataCon then
    match LDataCon.fromCemi c with
    | .panic => finish s [.taken 0 c] .panic
    | _ => finish s [.taken 0 c] .unit
  else finish s [.taken 0 c] .err

/-- `rx.recv()` on the message channel: a message, the end of the channel, or waiting. -/
def chanRecv (s : Sys) (f : Sys → Cemi → Option (Sys × List Obs)) : Option (Sys × List Obs) :=
  match s.bg.queue with
  | c :: rest => f { s with bg := { s.bg with queue := rest } } c
  | [] => if sendersGone s.bg then finish s [] .err else none

/-- Use of the connection data under its lock: waits while the task holds the lock, returns an error
when there is no connection (udp.rs:196-219). -/
def withConn (s : Sys) (f : Conn → Option (Sys × List Obs)) : Option (Sys × List Obs) :=
  if connLocked .client s.bg then none
  else match s.bg.conn with
    | none => finish s [] .err
    | some d => f d

/-- One step of the API call in progress. -/
def apiStep (m : Mode) (s : Sys) (e : ApiEv) : Option (Sys × List Obs) :=
  if e = .cancel then
    if s.api = .idle then none else some ({ s with api := .idle }, [.cancelled])
  else match s.api with
  | .idle =>
    match e with
    | .call c => if s.bg.rxOpen then apiCall m s c else none
    | .drop =>
      if s.bg.rxOpen then some ({ s with bg := { s.bg with rxOpen := false, queue := [] } }, [.dropped]) else none
    | _ => none
  -- udp.rs:196-205
  | .seqNr c cemi =>
    match e with
    | .run => withConn s fun d =>
      some ({ bg := { s.bg with conn := some { d with seq := d.seq + 1 } }, api := .chanId c d.seq cemi }, [.drew d.seq])
    | _ => none
  -- udp.rs:207-212, 238-240
  | .chanId c n cemi =>
    match e with
    | .run => withConn s fun d =>
      match (TunnelingRequest.mk d.channel n cemi).packet m with
      | .ok p => some ({ s with api := .sendReq c p }, [])
      | .err => finish s [] .err
      | .panic => finish s [] .panic
    | _ => none
  -- udp.rs:244-247, then 514-516 or 549-551
  | .sendReq c p =>
    match e with
    | .sendOk =>
      match c with
      | .read addr => some ({ s with api := .reading addr.toU16 (s.bg.now + apiTimeout) }, [.tx .api p])
      | _ => some ({ s with api := .writing (s.bg.now + apiTimeout) }, [.tx .api p])
    | .sendFail => finish s [.txFail .api p] .err
    | _ => none
  -- udp.rs:515-532
  | .reading addr deadline =>
    match e with
    | .run => chanRecv s fun s c => readMsg s addr c
    | .timer => if deadline ≤ s.bg.now then finish s [] .err else none
    | _ => none
  -- udp.rs:550-561
  | .writing deadline =>
    match e with
    | .run => chanRecv s writeMsg
    | .timer => if deadline ≤ s.bg.now then finish s [] .err else none
    | _ => none
  -- udp.rs:221-234
  | .stChan =>
    match e with
    | .run => withConn s fun d => some ({ s with api := .stEp d.channel }, [])
    | _ => none
  | .stEp ch =>
    match e with
    | .run => withConn s fun d => some ({ s with api := .stSend (ConnectionstateRequest.mk ch d.endpoint).packet }, [])
    | _ => none
  | .stSend p =>
    match e with
    | .sendOk => some ({ s with api := .stRecv }, [.tx .api p])
    | .sendFail => finish s [.txFail .api p] .err
    | _ => none
  | .stRecv =>
    match e with
    | .dgram d =>
      match runRd ConnectionstateResponse.fromPacket id (buffer d) with
      | .ok r => finish s [.rxApi d] (.state r)
      | .err => finish s [.rxApi d] .err
      | .panic => finish s [.rxApi d] .panic
    | .recvErr => finish s [] .err
    | _ => none
  -- udp.rs:262-272
  | .dcChan =>
    match e with
    | .run => withConn s fun d => some ({ s with api := .dcEp d.channel }, [])
    | _ => none
  | .dcEp ch =>
    match e with
    | .run => withConn s fun d => some ({ s with api := .dcLog (DisconnectRequest.mk ch d.endpoint).packet }, [])
    | _ => none
  | .dcLog p =>
    match e with
    | .run => withConn s fun _ => some ({ s with api := .dcSend p }, [])
    | .skipLog => some ({ s with api := .dcSend p }, [])
    | _ => none
  | .dcSend p =>
    match e with
    | .sendOk => some ({ s with api := .dcRecv }, [.tx .api p])
    | .sendFail => finish s [.txFail .api p] .panic
    | _ => none
  | .dcRecv =>
    match e with
    | .run => chanRecv s fun s c => finish s [.taken 0 c] .unit
    | _ => none

/-- An event of the client: a step of the task, a step of the API call, or time passing. -/
inductive Ev where
  | bg (e : BgEv)
  | api (e : ApiEv)
  | delay (d : Nat)
  deriving DecidableEq, Repr

/-- One step of the client. -/
def step (m : Mode) (s : Sys) : Ev → Option (Sys × List Obs)
  | .bg e => (bgStep .client m s.bg e).map fun (b, o) => ({ s with bg := b }, o)
  | .api e => apiStep m s e
  | .delay d => some ({ s with bg := { s.bg with now := s.bg.now + d } }, [])

/-- The deadline an API call waits for. -/
def apiDeadline : Api → Option Nat
  | .reading _ d => some d
  | .writing d => some d
  | _ => none

/-- The event does not let time pass beyond a deadline somebody is waiting for: timers fire on time. -/
def prompt (s : Sys) : Ev → Prop
  | .delay d => (∀ t ∈ bgDeadline s.bg, s.bg.now + d ≤ t) ∧ (∀ t ∈ apiDeadline s.api, s.bg.now + d ≤ t)
  | _ => True

/-- `Exec m s tr`: the client, built in mode `m`, can reach state `s` having made the observations `tr`. -/
inductive Exec (m : Mode) : Sys → List Obs → Prop
  | init : Exec m Sys.init []
  | step {s s' : Sys} {tr o : List Obs} (e : Ev) : Exec m s tr → step m s e = some (s', o) → Exec m s' (tr ++ o)

/-- A run from one state to another. -/
inductive Run (m : Mode) : Sys → List Obs → Sys → Prop
  | nil (s : Sys) : Run m s [] s
  | step {s s' s'' : Sys} {o tr : List Obs} (e : Ev) : Knx.step m s e = some (s', o) → Run m s' tr s'' → Run m s (o ++ tr) s''

/-- A run in which timers fire on time. -/
inductive PromptRun (m : Mode) : Sys → List Obs → Sys → Prop
  | nil (s : Sys) : PromptRun m s [] s
  | step {s s' s'' : Sys} {o tr : List Obs} (e : Ev) : prompt s e → Knx.step m s e = some (s', o) →
      PromptRun m s' tr s'' → PromptRun m s (o ++ tr) s''

end Knx
