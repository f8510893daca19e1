import Verif.Model.Parse
import Verif.Model.Emi

/-!
# Model of the background task (`src/transport/udp.rs`, `src/transport/udp_monitor.rs`)

The task spawned by `UdpTransport::connect` (udp.rs:125-187) and the one spawned by
`UdpMonitorTransport::connect` (udp_monitor.rs:81-159) are modelled by one transition function
`bgStep`, with a parameter saying which of the two it is. A state records where the task waits
(`Pc`), the shared connection data, the message channel and the clock. An event says how the
wait ends: a datagram arrives, a send succeeds or fails, a timer fires. Everything between two
`await`s is one step. Every step yields the list of observations (`Obs`) made in it.

Time is counted in milliseconds. Timers never fire early; they may fire late. A timer may win against
a message that is ready at the same time (tokio polls the message first, but may be told to yield by
its cooperative scheduling budget).

Simplifications, common to both: logging is left out; the kernel's socket buffer is not modelled
(a datagram is received when the process reads it, so loss, duplication, reordering and forging are
all covered by the free choice of the received datagrams); binding and connecting the socket
(udp.rs:108-119) is assumed to have succeeded; the tokio runtime is assumed to stay alive. `MyUdpSocket` (udp.rs:70-87) adds
logging to the socket and nothing else; errors carry no contents here (udp.rs:42-69). The wrappers `UdpClient::connect` (udp.rs:476-483)
and `UdpMonitor::create_transport` (udp_monitor.rs:282-286) only pass on results. `UdpMonitorTransport::set_feature`
(udp_monitor.rs:202-212) is called by nobody; it is modelled in `Model/Feature.lean`.
-/

namespace Knx

/-- Which of the two tasks. -/
inductive Kind where
  | client
  | monitor
  deriving DecidableEq, Repr

/-- udp.rs:26-30, udp_monitor.rs:38-42 `struct ConnectionData`. -/
structure Conn where
  channel : U8
  endpoint : Hpai
  seq : U8
  deriving DecidableEq, Repr

/-- udp.rs:33-39 and udp_monitor.rs:45-51 `from_connection_response`: the first sequence number is 0
for the client and 1 for the monitor; the control endpoint is the response's data endpoint. -/
def Conn.ofResponse (k : Kind) (r : ConnectionResponse) : Conn where
  channel := r.channel
  endpoint := r.dataEndpoint
  seq := match k with
    | .client => 0
    | .monitor => 1

/-- The 100-byte zeroed receive buffer after `recv` of datagram `d` (udp.rs:227, 391, 409,
udp_monitor.rs:234): excess bytes are cut off. -/
def buffer (d : Bytes) : Bytes := d.take 100 ++ List.replicate (100 - d.length) 0

/-- Where the background task waits. -/
inductive Pc where
  /-- At the head of `'main` (udp.rs:138-142, udp_monitor.rs:95-99). -/
  | top
  /-- `try_connection`: sending the connect request (udp.rs:387). -/
  | connSend
  /-- `try_connection`: waiting for the response until the deadline (udp.rs:392). -/
  | connWait (deadline : Nat)
  /-- `connect`: sleeping until the deadline before the next attempt (udp.rs:380). -/
  | connSleep (deadline : Nat)
  /-- Monitor only: `enable_busmonitor` sends the feature request (udp_monitor.rs:104, 248-255). -/
  | enable (r : ConnectionResponse)
  /-- Waiting for the lock to store the connection data (udp.rs:148, udp_monitor.rs:109). -/
  | store (r : ConnectionResponse)
  /-- Monitor only: notifying the subscribers, holding the locks (udp_monitor.rs:112-119). -/
  | notify (todo active : List Nat)
  /-- In the select, handler waiting for a datagram (udp.rs:410). -/
  | recv
  /-- Handler sending the ack of a tunneling request carrying `cemi` (udp.rs:417-420). -/
  | ackReq (channel seq : U8) (cemi : Bytes)
  /-- Handler sending the ack of a feature response (udp.rs:438-442). -/
  | ackFeat (channel seq : U8)
  /-- Handler passing a cEMI to the channel (udp.rs:431). -/
  | push (c : Cemi)
  /-- Handler answering a disconnect request (udp.rs:459-463). -/
  | discResp (packet : Bytes)
  /-- Sending a heart beat (udp.rs:164-175, udp_monitor.rs:133-149). -/
  | hb (channel : U8) (endpoint : Hpai)
  /-- Waiting for the lock to clear the connection data (udp.rs:182-183, udp_monitor.rs:154-155). -/
  | teardown
  /-- The task has ended (udp.rs:158, udp_monitor.rs:127). -/
  | done
  /-- The task has panicked. -/
  | crashed
  deriving DecidableEq, Repr

/-- A subscriber's channel (`mpsc::Sender<()>` given to `add_on_connect`): capacity, messages in it,
whether its receiver still exists. -/
structure Sub where
  cap : Nat
  len : Nat
  isOpen : Bool
  deriving DecidableEq, Repr

/-- An API call. The client has `read`, `write`, `status` and `disconnect`, the monitor `write`,
`disconnect`, `solicit`, `isConnected` and `subscribe` (and `next_msg`, treated separately). -/
inductive Call where
  | read (addr : KnxAddress)
  | write (addr : KnxAddress) (value : Bytes) (small : Bool)
  | status
  | disconnect
  | solicit (addr : KnxAddress)
  | isConnected
  | subscribe (id : Nat)
  deriving DecidableEq, Repr

/-- How an API call returns. -/
inductive Ret where
  | unit
  | value (v : Bytes)
  | state (r : ConnectionstateResponse)
  | code (status : U8)
  | bool (b : Bool)
  | ind (i : LDataInd)
  | err
  | panic
  deriving DecidableEq, Repr

/-- Who uses the socket. -/
inductive Who where
  | task
  | api
  deriving DecidableEq, Repr

/-- Observations. -/
inductive Obs where
  /-- The handler received a datagram. -/
  | rx (d : Bytes)
  /-- A datagram was received while waiting for a connect response. -/
  | rxConn (d : Bytes)
  /-- The task's `recv` failed. -/
  | rxErr
  /-- An API call received a datagram. -/
  | rxApi (d : Bytes)
  /-- A datagram was sent. -/
  | tx (w : Who) (p : Bytes)
  /-- Sending failed. -/
  | txFail (w : Who) (p : Bytes)
  /-- Connection data stored. -/
  | up (r : ConnectionResponse)
  /-- Connection data cleared. -/
  | down
  /-- A cEMI was put into the message channel. -/
  | queued (c : Cemi)
  /-- A cEMI was taken from the message channel by the application (on the monitor: by caller `i`). -/
  | taken (i : Nat) (c : Cemi)
  /-- A heart beat is due. -/
  | tick
  /-- The heart beat interrupted the handler before it had finished with a datagram. -/
  | interrupt
  /-- The message channel was found closed. -/
  | closed
  /-- A sequence number was drawn. -/
  | drew (n : U8)
  /-- An API call starts, returns, is cancelled (its future dropped). -/
  | call (c : Call)
  | ret (r : Ret)
  | cancelled
  /-- `next_msg` of caller `i` starts, returns, is cancelled. -/
  | ncall (i : Nat)
  | nret (i : Nat) (r : Ret)
  | ncancelled (i : Nat)
  /-- The task ended or panicked. -/
  | exit
  | crash
  /-- The client object was dropped. -/
  | dropped
  /-- A subscriber was notified. -/
  | notified (id : Nat)
  /-- A subscriber was registered. -/
  | subscribed (id : Nat)
  deriving DecidableEq, Repr

/-- State of the background task and of what it shares with the API. -/
structure Bg where
  conn : Option Conn
  pc : Pc
  /-- Content of the message channel (capacity 100, udp.rs:123, udp_monitor.rs:78). -/
  queue : List Cemi
  /-- The receiving half of the message channel exists. -/
  rxOpen : Bool
  now : Nat
  /-- When the heart-beat interval fires next. -/
  hbDue : Nat
  /-- Monitor only: the registered subscribers (`on_connection`). -/
  subs : List Nat
  /-- The channels of the subscribers. -/
  chans : Nat → Sub

/-- udp.rs:121-136, udp_monitor.rs:76-93: the state when the task is spawned. The first tick of an
interval is due at once. -/
def Bg.init : Bg where
  conn := none
  pc := .top
  queue := []
  rxOpen := true
  now := 0
  hbDue := 0
  subs := []
  chans := fun _ => ⟨0, 0, false⟩

/-- What ends a wait of the background task. -/
inductive BgEv where
  /-- A step that waits for nothing, a lock, or room in a channel. -/
  | run
  /-- `recv` returned a datagram. -/
  | dgram (d : Bytes)
  /-- `recv` failed. -/
  | recvErr
  /-- `send` succeeded. -/
  | sendOk
  /-- `send` failed. -/
  | sendFail
  /-- The heart-beat interval fired in the select. -/
  | tick
  /-- A timeout or sleep ended. -/
  | timer
  deriving DecidableEq, Repr

/-- The connect request (udp.rs:385). -/
def connReqPacket : Bytes := ConnectionRequest.tunnel.packet

/-- udp.rs:397-404: what `try_connection` makes of the receive buffer. -/
def tryConnect (buf : Bytes) : Res ConnectionResponse :=
  match runRd ConnectionResponse.fromPacket id buf with
  | .ok r => if r.status = 0 then .ok r else .err
  | .err => .err
  | .panic => .panic

/-- udp.rs:407-468: what the handler does first with a received datagram. An empty datagram is
ignored (line 412). The two `whatever!`s and the `?` end the handler with an error. -/
def onDatagram (d : Bytes) : Pc :=
  if d.length = 0 then .recv
  else match parseResponse (buffer d) with
    | .err => .teardown
    | .panic => .crashed
    | .ok (.tunnelingRequest r) => .ackReq r.channel r.seq r.cemi
    | .ok (.tunnelingAck _) => .recv
    | .ok (.featureResponse r) => .ackFeat r.channel r.seq
    | .ok (.connectionstateResponse r) => if r.status ≠ 0 then .teardown else .recv
    | .ok (.disconnectResponse _) => .done
    | .ok (.disconnectRequest r) => .discResp (DisconnectResponse.ofRequest r).packet

/-- Observation made when the task ends. -/
def endObs : Pc → List Obs
  | .done => [.exit]
  | .crashed => [.crash]
  | _ => []

/-- The feature request of `enable_busmonitor` (udp_monitor.rs:249-252). -/
def enablePacket (channel : U8) : Bytes := (FeatureSet.mk .infoServiceEnable 1 channel 0).packet

/-- The interval's next due time (tokio `Interval` with `MissedTickBehavior::Delay`, period 60 s;
a tick more than 5 ms late counts as missed). -/
def nextTick (now due : Nat) : Nat := if due + 5 < now then now + 60000 else due + 60000

/-- The select's heart-beat branch is being waited for. -/
def inSelect : Pc → Bool
  | .recv => true
  | .ackReq _ _ _ => true
  | .ackFeat _ _ => true
  | .push _ => true
  | .discResp _ => true
  | _ => false

/-- The handler is in the middle of processing a datagram. -/
def busy : Pc → Bool
  | .ackReq _ _ _ => true
  | .ackFeat _ _ => true
  | .push _ => true
  | .discResp _ => true
  | _ => false

/-- The heart beat fires (udp.rs:163-177, udp_monitor.rs:132-145): the handler's future is dropped. -/
def tickStep (s : Bg) : Option (Bg × List Obs) :=
  if inSelect s.pc = true ∧ s.hbDue ≤ s.now then
    let o := if busy s.pc then [Obs.tick, .interrupt] else [Obs.tick]
    match s.conn with
    | some c => some ({ s with hbDue := nextTick s.now s.hbDue, pc := .hb c.channel c.endpoint }, o)
    | none => some ({ s with hbDue := nextTick s.now s.hbDue, pc := .teardown }, o)
  else none

/-- The task after an accepted connect response (udp.rs:144-148, udp_monitor.rs:101-104). -/
def connected (k : Kind) (s : Bg) (r : ConnectionResponse) : Bg :=
  match k with
  | .client => { s with pc := .store r }
  | .monitor => { s with pc := .enable r }

/-- One step of the background task: udp.rs:138-186 (client), udp_monitor.rs:95-158 (monitor), with
`connect`/`try_connection` (udp.rs:372-405) and `handle_recv_from_knx_device` (udp.rs:407-468). -/
def bgStep (k : Kind) (m : Mode) (s : Bg) (e : BgEv) : Option (Bg × List Obs) :=
  if e = .tick then tickStep s
  else match s.pc with
  -- udp.rs:142
  | .top =>
    match e with
    | .run =>
      match s.conn with
      | none => some ({ s with pc := .connSend }, [])
      | some _ => some ({ s with pc := .recv }, [])
    | _ => none
  -- udp.rs:385-389
  | .connSend =>
    match e with
    | .sendOk => some ({ s with pc := .connWait (s.now + 30000) }, [.tx .task connReqPacket])
    | .sendFail => some ({ s with pc := .connSleep (s.now + 10000) }, [.txFail .task connReqPacket])
    | _ => none
  -- udp.rs:391-404
  | .connWait deadline =>
    match e with
    | .dgram d =>
      match tryConnect (buffer d) with
      | .ok r => some (connected k s r, [.rxConn d])
      | .err => some ({ s with pc := .connSleep (s.now + 10000) }, [.rxConn d])
      | .panic => some ({ s with pc := .crashed }, [.rxConn d, .crash])
    -- udp.rs:392: an error of `recv` is not looked at; the buffer is still zero
    | .recvErr =>
      match tryConnect (buffer []) with
      | .ok r => some (connected k s r, [.rxErr])
      | .err => some ({ s with pc := .connSleep (s.now + 10000) }, [.rxErr])
      | .panic => some ({ s with pc := .crashed }, [.rxErr, .crash])
    | .timer => if deadline ≤ s.now then some ({ s with pc := .connSleep (s.now + 10000) }, []) else none
    | _ => none
  -- udp.rs:380
  | .connSleep deadline =>
    match e with
    | .timer => if deadline ≤ s.now then some ({ s with pc := .connSend }, []) else none
    | _ => none
  -- udp_monitor.rs:104-106
  | .enable r =>
    match e with
    | .sendOk => some ({ s with pc := .store r }, [.tx .task (enablePacket r.channel)])
    | .sendFail => some ({ s with pc := .top }, [.txFail .task (enablePacket r.channel)])
    | _ => none
  -- udp.rs:148-149, udp_monitor.rs:109-113
  | .store r =>
    match e with
    | .run =>
      match k with
      | .client => some ({ s with conn := some (Conn.ofResponse .client r), pc := .recv }, [.up r])
      | .monitor => some ({ s with conn := some (Conn.ofResponse .monitor r), pc := .notify s.subs [] }, [.up r])
    | _ => none
  -- udp_monitor.rs:114-119
  | .notify todo active =>
    match e with
    | .run =>
      match todo with
      | [] => some ({ s with subs := active, pc := .recv }, [])
      | id :: todo =>
        let c := s.chans id
        if c.isOpen = false then some ({ s with pc := .notify todo active }, [])
        else if c.len < c.cap then
          some ({ s with
            chans := fun i => if i = id then { c with len := c.len + 1 } else s.chans i
            pc := .notify todo (active ++ [id]) }, [.notified id])
        else none
    | _ => none
  -- udp.rs:410-466
  | .recv =>
    match e with
    | .dgram d => some ({ s with pc := onDatagram d }, .rx d :: endObs (onDatagram d))
    | .recvErr => some ({ s with pc := .teardown }, [.rxErr])
    | _ => none
  -- udp.rs:417-430
  | .ackReq ch sq raw =>
    match e with
    | .sendOk =>
      match runRd (Cemi.fromPacket m) id raw with
      | .ok c => some ({ s with pc := .push c }, [.tx .task (TunnelingAck.mk ch sq 0).packet])
      | .err => some ({ s with pc := .recv }, [.tx .task (TunnelingAck.mk ch sq 0).packet])
      | .panic => some ({ s with pc := .crashed }, [.tx .task (TunnelingAck.mk ch sq 0).packet, .crash])
    | .sendFail => some ({ s with pc := .teardown }, [.txFail .task (TunnelingAck.mk ch sq 0).packet])
    | _ => none
  -- udp.rs:438-442
  | .ackFeat ch sq =>
    match e with
    | .sendOk => some ({ s with pc := .recv }, [.tx .task (TunnelingAck.mk ch sq 0).packet])
    | .sendFail => some ({ s with pc := .teardown }, [.txFail .task (TunnelingAck.mk ch sq 0).packet])
    | _ => none
  -- udp.rs:431-434
  | .push c =>
    match e with
    | .run =>
      if s.rxOpen = false then some ({ s with pc := .teardown }, [.closed])
      else if s.queue.length < 100 then some ({ s with queue := s.queue ++ [c], pc := .recv }, [.queued c])
      else none
    | _ => none
  -- udp.rs:459-463
  | .discResp p =>
    match e with
    | .sendOk => some ({ s with pc := .done }, [.tx .task p, .exit])
    | .sendFail => some ({ s with pc := .done }, [.txFail .task p, .exit])
    | _ => none
  -- udp.rs:167-174, udp_monitor.rs:138-149
  | .hb ch ep =>
    match e with
    | .sendOk => some ({ s with pc := .recv }, [.tx .task (ConnectionstateRequest.mk ch ep).packet])
    | .sendFail => some ({ s with pc := .teardown }, [.txFail .task (ConnectionstateRequest.mk ch ep).packet])
    | _ => none
  -- udp.rs:182-183
  | .teardown =>
    match e with
    | .run => some ({ s with conn := none, pc := .top }, [.down])
    | _ => none
  | .done => none
  | .crashed => none

/-- The connection-data lock is held by the task across an `await`: by the client while sending a
heart beat (udp.rs:165-171: the guard lives as long as the `match`), by the monitor while
notifying (udp_monitor.rs:109-119). -/
def connLocked (k : Kind) (s : Bg) : Bool :=
  match k, s.pc with
  | .client, .hb _ _ => true
  | .monitor, .notify _ _ => true
  | _, _ => false

/-- All senders of the message channel are gone: the task has ended. -/
def sendersGone (s : Bg) : Bool :=
  match s.pc with
  | .done => true
  | .crashed => true
  | _ => false

/-- The deadline the task waits for in the current state, if any: the earlier of the heart beat
and a pending timeout. -/
def bgDeadline (s : Bg) : Option Nat :=
  match s.pc with
  | .connWait d => some d
  | .connSleep d => some d
  | pc => if inSelect pc then some s.hbDue else none

end Knx
