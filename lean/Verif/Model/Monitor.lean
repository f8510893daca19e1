import Verif.Model.Client

/-!
# Model of the monitor API (`UdpMonitor`, `UdpMonitorTransport` in `src/transport/udp_monitor.rs`)

All methods but `next_msg` lock the transport for their whole duration (udp_monitor.rs:271, 275, 279, 331,
345), so at most one of these calls is past that point. `next_msg` locks it only to copy the reference to
the message channel (line 289) and then runs concurrently with everything else; any number of callers may
wait in it (they share the receiver through a lock taken anew for every message, line 291; the order in
which waiting callers get that lock is left open).
`UdpMonitorTransport::set_feature` (202-212) is not reachable from the public API; it is modelled in
`Model/Feature.lean`.
-/

namespace Knx

/-- Where a call holding the transport waits. -/
inductive MApi where
  | idle
  /-- `tunnel_req`: about to draw a sequence number (udp_monitor.rs:215). -/
  | seqNr (cemi : Bytes)
  /-- `tunnel_req`: about to look up the channel (udp_monitor.rs:216). -/
  | chanId (seq : U8) (cemi : Bytes)
  /-- `tunnel_req`: sending (udp_monitor.rs:222). -/
  | sendReq (packet : Bytes)
  /-- `disconnect` (udp_monitor.rs:229-235). -/
  | dcChan
  | dcEp (channel : U8)
  | dcSend (packet : Bytes)
  | dcRecv
  /-- `is_connected` (udp_monitor.rs:199). -/
  | isConn
  /-- `add_on_connect` (udp_monitor.rs:170). -/
  | subscribe (id : Nat)
  deriving DecidableEq, Repr

/-- The monitor: background task, at most one call holding the transport, and the callers waiting in
`next_msg`. -/
structure MSys where
  bg : Bg
  api : MApi
  waiting : List Nat

/-- The state after `UdpMonitor::connect` (udp_monitor.rs:262-268) returned. -/
def MSys.init : MSys := ⟨Bg.init, .idle, []⟩

/-- What happens to the API calls and to the subscribers' channels. -/
inductive MApiEv where
  | call (c : Call)
  | run
  | sendOk
  | sendFail
  | dgram (d : Bytes)
  | recvErr
  | cancel
  /-- Caller `i` of `next_msg`: starts, takes a message or finds the channel ended, is dropped. -/
  | ncall (i : Nat)
  | nrun (i : Nat)
  | ncancel (i : Nat)
  /-- The monitor object is dropped. -/
  | drop
  /-- Subscriber channel `id`: created, a message taken out, a message put in by someone else,
  receiver dropped. -/
  | mkChan (id cap : Nat)
  | drain (id : Nat)
  | fill (id : Nat)
  | closeChan (id : Nat)
  deriving DecidableEq, Repr

/-- The call returns. -/
def mfinish (s : MSys) (o : List Obs) (r : Ret) : Option (MSys × List Obs) := some ({ s with api := .idle }, o ++ [.ret r])

/-- `tunnel_req` with the message given (udp_monitor.rs:214): an argument that panics panics the call. -/
def mstartTunnel (s : MSys) (c : Call) : Res Bytes → Option (MSys × List Obs)
  | .ok cemi => some ({ s with api := .seqNr cemi }, [.call c])
  | .err => some (s, [.call c, .ret .err])
  | .panic => some (s, [.call c, .ret .panic])

/-- Start of a call (udp_monitor.rs:326-332 and 340-346 build the same telegrams as the client). -/
def mapiCall (m : Mode) (s : MSys) (c : Call) : Option (MSys × List Obs) :=
  match c with
  | .solicit addr => mstartTunnel s c (readCemi m addr)
  | .write addr v small => mstartTunnel s c (writeCemi m addr v small)
  | .disconnect => some ({ s with api := .dcChan }, [.call c])
  | .isConnected => some ({ s with api := .isConn }, [.call c])
  | .subscribe id => some ({ s with api := .subscribe id }, [.call c])
  | _ => none

/-- Caller `i` of `next_msg` returns. -/
def nfinish (s : MSys) (i : Nat) (o : List Obs) (r : Ret) : Option (MSys × List Obs) :=
  some ({ s with waiting := s.waiting.filter (· ≠ i) }, o ++ [.nret i r])

/-- udp_monitor.rs:292-314: what `next_msg` makes of a message. -/
def nextMsg (s : MSys) (i : Nat) (c : Cemi) : Option (MSys × List Obs) :=
  if c.msgCode = codeLDataCon then
    match LDataCon.fromCemi c with
    | .panic => nfinish s i [.taken i c] .panic
    | _ => some (s, [.taken i c])
  else if c.msgCode = codeLDataInd then
    match LDataInd.fromCemi c with
    | .ok d => nfinish s i [.taken i c] (.ind d)
    | .err => nfinish s i [.taken i c] .err
    | .panic => nfinish s i [.taken i c] .panic
  else if c.msgCode = codeLBusmonInd then
    match LDataInd.fromCemi c with
    | .ok d => nfinish s i [.taken i c] (.ind d)
    | .err => nfinish s i [.taken i c] .err
    | .panic => nfinish s i [.taken i c] .panic
  else some (s, [.taken i c])

/-- Change of one subscriber channel. -/
def setChan (s : MSys) (id : Nat) (c : Sub) : MSys :=
  { s with bg := { s.bg with chans := fun i => if i = id then c else s.bg.chans i } }

/-- Use of the connection data under its lock (udp_monitor.rs:173-196). -/
def mwithConn (s : MSys) (f : Conn → Option (MSys × List Obs)) : Option (MSys × List Obs) :=
  if connLocked .monitor s.bg then none
  else match s.bg.conn with
    | none => mfinish s [] .err
    | some d => f d

/-- One step of the call that holds the transport, or of the drop of the monitor. -/
def mcallStep (m : Mode) (s : MSys) (e : MApiEv) : Option (MSys × List Obs) :=
  match s.api with
  | .idle =>
    match e with
    | .call c => if s.bg.rxOpen then mapiCall m s c else none
    -- udp_monitor.rs:289: needs the transport lock for a moment
    | .ncall i =>
      if s.bg.rxOpen ∧ i ∉ s.waiting then some ({ s with waiting := i :: s.waiting }, [.ncall i]) else none
    | .drop =>
      if s.bg.rxOpen ∧ s.waiting = [] then
        some ({ s with bg := { s.bg with rxOpen := false, queue := [] } }, [.dropped])
      else none
    | _ => none
  -- udp_monitor.rs:187-196
  | .seqNr cemi =>
    match e with
    | .run => mwithConn s fun d =>
      some ({ s with bg := { s.bg with conn := some { d with seq := d.seq + 1 } }, api := .chanId d.seq cemi }, [.drew d.seq])
    | _ => none
  -- udp_monitor.rs:173-178, 216-218
  | .chanId n cemi =>
    match e with
    | .run => mwithConn s fun d =>
      match (TunnelingRequest.mk d.channel n cemi).packet m with
      | .ok p => some ({ s with api := .sendReq p }, [])
      | .err => mfinish s [] .err
      | .panic => mfinish s [] .panic
    | _ => none
  -- udp_monitor.rs:222-225, 332-335, 346-348
  | .sendReq p =>
    match e with
    | .sendOk => mfinish s [.tx .api p] .unit
    | .sendFail => mfinish s [.txFail .api p] .err
    | _ => none
  -- udp_monitor.rs:228-245
  | .dcChan =>
    match e with
    | .run => mwithConn s fun d => some ({ s with api := .dcEp d.channel }, [])
    | _ => none
  | .dcEp ch =>
    match e with
    | .run => mwithConn s fun d => some ({ s with api := .dcSend (DisconnectRequest.mk ch d.endpoint).packet }, [])
    | _ => none
  | .dcSend p =>
    match e with
    | .sendOk => some ({ s with api := .dcRecv }, [.tx .api p])
    | .sendFail => mfinish s [.txFail .api p] .panic
    | _ => none
  | .dcRecv =>
    match e with
    | .dgram d =>
      match runRd DisconnectResponse.fromPacket id (buffer d) with
      | .ok r => mfinish s [.rxApi d] (.code r.status)
      | .err => mfinish s [.rxApi d] .err
      | .panic => mfinish s [.rxApi d] .panic
    | .recvErr => mfinish s [] .panic
    | _ => none
  -- udp_monitor.rs:198-200
  | .isConn =>
    match e with
    | .run => if connLocked .monitor s.bg then none else mfinish s [] (.bool s.bg.conn.isSome)
    | _ => none
  -- udp_monitor.rs:169-171; the list is locked while the task notifies (113-119); a sender always belongs
  -- to an existing channel, and every channel has a positive capacity
  | .subscribe id =>
    match e with
    | .run =>
      if connLocked .monitor s.bg ∨ (s.bg.chans id).cap = 0 then none
      else mfinish { s with bg := { s.bg with subs := s.bg.subs ++ [id] } } [.subscribed id] .unit
    | _ => none

/-- One step of the API or of a subscriber. -/
def mapiStep (m : Mode) (s : MSys) (e : MApiEv) : Option (MSys × List Obs) :=
  match e with
  | .cancel => if s.api = .idle then none else some ({ s with api := .idle }, [.cancelled])
  -- udp_monitor.rs:291-318
  | .nrun i =>
    if i ∈ s.waiting then
      match s.bg.queue with
      | c :: rest => nextMsg { s with bg := { s.bg with queue := rest } } i c
      | [] => if sendersGone s.bg then nfinish s i [] .err else none
    else none
  | .ncancel i =>
    if i ∈ s.waiting then some ({ s with waiting := s.waiting.filter (· ≠ i) }, [.ncancelled i]) else none
  | .mkChan id cap =>
    if (s.bg.chans id).cap = 0 ∧ 0 < cap then some (setChan s id ⟨cap, 0, true⟩, []) else none
  | .drain id =>
    if (s.bg.chans id).isOpen ∧ 0 < (s.bg.chans id).len then
      some (setChan s id { s.bg.chans id with len := (s.bg.chans id).len - 1 }, [])
    else none
  | .fill id =>
    if (s.bg.chans id).isOpen ∧ (s.bg.chans id).len < (s.bg.chans id).cap then
      some (setChan s id { s.bg.chans id with len := (s.bg.chans id).len + 1 }, [])
    else none
  | .closeChan id => some (setChan s id { s.bg.chans id with isOpen := false }, [])
  | e => mcallStep m s e

/-- An event of the monitor. -/
inductive MEv where
  | bg (e : BgEv)
  | api (e : MApiEv)
  | delay (d : Nat)
  deriving DecidableEq, Repr

/-- One step of the monitor. -/
def mstep (m : Mode) (s : MSys) : MEv → Option (MSys × List Obs)
  | .bg e => (bgStep .monitor m s.bg e).map fun (b, o) => ({ s with bg := b }, o)
  | .api e => mapiStep m s e
  | .delay d => some ({ s with bg := { s.bg with now := s.bg.now + d } }, [])

/-- `MExec m s tr`: the monitor, built in mode `m`, can reach state `s` having made the observations `tr`. -/
inductive MExec (m : Mode) : MSys → List Obs → Prop
  | init : MExec m MSys.init []
  | step {s s' : MSys} {tr o : List Obs} (e : MEv) : MExec m s tr → mstep m s e = some (s', o) → MExec m s' (tr ++ o)

/-- A run of the monitor from one state to another. -/
inductive MRun (m : Mode) : MSys → List Obs → MSys → Prop
  | nil (s : MSys) : MRun m s [] s
  | step {s s' s'' : MSys} {o tr : List Obs} (e : MEv) : mstep m s e = some (s', o) → MRun m s' tr s'' → MRun m s (o ++ tr) s''

/-- The event does not let time pass beyond a deadline the task is waiting for (the calls of the monitor have none). -/
def mprompt (s : MSys) : MEv → Prop
  | .delay d => ∀ t ∈ bgDeadline s.bg, s.bg.now + d ≤ t
  | _ => True

/-- A run of the monitor in which timers fire on time. -/
inductive MPromptRun (m : Mode) : MSys → List Obs → MSys → Prop
  | nil (s : MSys) : MPromptRun m s [] s
  | step {s s' s'' : MSys} {o tr : List Obs} (e : MEv) : mprompt s e → mstep m s e = some (s', o) →
      MPromptRun m s' tr s'' → MPromptRun m s (o ++ tr) s''

end Knx
