import Verif.Model.Monitor

/-!
# Model of concurrent callers (the transport lock of `UdpClient` and `UdpMonitor`)

Both objects can be shared by any number of tasks (`Arc<UdpClient>`, main.rs:13). Every method locks the
transport (`Arc<Mutex<UdpTransport>>`, udp.rs:472, 500, 512, 546, 565; udp_monitor.rs:258, 271, 275, 279, 289, 331,
345), for its whole duration except for `next_msg`, which needs it only for a moment. `Model/Client.lean` and
`Model/Monitor.lean` describe a call from the moment it has got the lock; here the callers waiting for it are added.

tokio's mutex is fair: whoever asks first gets it first. A caller may drop its future while waiting.
The value to write is turned into an APDU before the lock is asked for (udp.rs:541, udp_monitor.rs:340): where that
panics, the call panics without having waited.

The construction is the same for client and monitor and is given once, for a `Server`.
-/

namespace Knx

/-- An object behind a lock. -/
structure Server where
  /-- States and events of the object. -/
  S : Type
  E : Type
  /-- The calls that can be asked for. -/
  Req : Type
  init : S
  step : S → E → Option (S × List Obs)
  /-- No call holds the lock. -/
  free : S → Bool
  /-- The object has not been dropped. -/
  alive : S → Bool
  /-- The object is dropped. -/
  drops : E → Bool
  /-- A call starts, having got the lock. -/
  begins : E → Bool
  /-- The start of a call for caller `i`. -/
  start : Nat → Req → E
  /-- A step of the call that holds the lock. -/
  own : E → Bool
  /-- Caller `i` is in a call that does not hold the lock. -/
  away : S → Nat → Bool
  /-- The call panics before it asks for the lock. -/
  early : Req → Bool
  /-- The event lets time pass. -/
  waits : E → Bool
  /-- The event does not let time pass beyond a deadline somebody is waiting for. -/
  prompt : S → E → Prop

/-- The object with its callers: the one whose call holds the lock, and those waiting, first come first. -/
structure Pool (V : Server) where
  sys : V.S
  owner : Option Nat
  line : List (Nat × V.Req)

def Pool.init (V : Server) : Pool V := ⟨V.init, none, []⟩

/-- What happens. -/
inductive PEv (V : Server) where
  /-- Caller `i` calls. -/
  | ask (i : Nat) (r : V.Req)
  /-- The first in the line gets the lock. -/
  | grant
  /-- Caller `i` drops its future while waiting. -/
  | leave (i : Nat)
  /-- Any other step of the object. -/
  | sys (e : V.E)

/-- What is observed. -/
inductive PObs (V : Server) where
  | asked (i : Nat) (r : V.Req)
  /-- The call of `i` panicked before it asked for the lock. -/
  | early (i : Nat)
  /-- `i` gave up waiting. -/
  | left (i : Nat)
  /-- The call of `i` got the lock. -/
  | began (i : Nat) (r : V.Req)
  /-- An observation made by the call of `i` that holds the lock. -/
  | own (i : Nat) (o : Obs)
  /-- Any other observation. -/
  | other (o : Obs)

/-- Tag the observations of a step with the caller on whose behalf it was made. -/
def tag {V : Server} (own : Bool) (i : Option Nat) (o : Obs) : PObs V :=
  match own, i with
  | true, some i => .own i o
  | _, _ => .other o

/-- The lock after a step: whoever held it holds it until the call is over. -/
def holder (V : Server) (s : V.S) (i : Option Nat) : Option Nat := if V.free s then none else i

/-- One step. -/
def Pool.step {V : Server} (p : Pool V) : PEv V → Option (Pool V × List (PObs V))
  | .ask i r =>
    if V.alive p.sys = true ∧ p.owner ≠ some i ∧ (∀ x ∈ p.line, x.1 ≠ i) ∧ V.away p.sys i = false then
      if V.early r then some (p, [.asked i r, .early i])
      else some ({ p with line := p.line ++ [(i, r)] }, [.asked i r])
    else none
  | .grant =>
    match p.line with
    | [] => none
    | (i, r) :: rest =>
      if V.free p.sys then
        match V.step p.sys (V.start i r) with
        | none => none
        | some (s, o) => some (⟨s, holder V s (some i), rest⟩, .began i r :: o.map (tag true (some i)))
      else none
  | .leave i =>
    if ∃ x ∈ p.line, x.1 = i then some ({ p with line := p.line.filter (·.1 ≠ i) }, [.left i]) else none
  | .sys e =>
    if V.begins e ∨ (V.drops e ∧ p.line ≠ []) then none
    else match V.step p.sys e with
      | none => none
      | some (s, o) => some (⟨s, holder V s p.owner, p.line⟩, o.map (tag (V.own e) p.owner))

/-- `PExec V p tr`: the object with its callers can reach `p` having made the observations `tr`. -/
inductive PExec (V : Server) : Pool V → List (PObs V) → Prop
  | init : PExec V (Pool.init V) []
  | step {p p' : Pool V} {tr o : List (PObs V)} (e : PEv V) : PExec V p tr → p.step e = some (p', o) → PExec V p' (tr ++ o)

/-- A run from one state to another. -/
inductive PRun (V : Server) : Pool V → List (PObs V) → Pool V → Prop
  | nil (p : Pool V) : PRun V p [] p
  | step {p p' p'' : Pool V} {o tr : List (PObs V)} (e : PEv V) : p.step e = some (p', o) → PRun V p' tr p'' → PRun V p (o ++ tr) p''

/-- A run without needless delay: timers fire on time, and time does not pass while somebody could get the lock. -/
inductive PPromptRun (V : Server) : Pool V → List (PObs V) → Pool V → Prop
  | nil (p : Pool V) : PPromptRun V p [] p
  | step {p p' p'' : Pool V} {o tr : List (PObs V)} (e : PEv V)
      (hp : ∀ x, e = .sys x → V.prompt p.sys x ∧ (V.waits x = true → p.line = [] ∨ V.free p.sys = false)) :
      p.step e = some (p', o) → PPromptRun V p' tr p'' → PPromptRun V p (o ++ tr) p''

/-- The calls of the client. -/
inductive ClientReq where
  | read (addr : KnxAddress)
  | write (addr : KnxAddress) (value : Bytes) (small : Bool)
  | status
  | disconnect
  deriving DecidableEq, Repr

/-- udp.rs:504, 539, 498, 564. -/
def ClientReq.call : ClientReq → Call
  | .read a => .read a
  | .write a v s => .write a v s
  | .status => .status
  | .disconnect => .disconnect

/-- The client shared by several callers. -/
def clientServer (m : Mode) : Server where
  S := Sys
  E := Ev
  Req := ClientReq
  init := Sys.init
  step := step m
  free s := decide (s.api = .idle)
  alive s := s.bg.rxOpen
  drops e := decide (e = .api .drop)
  begins
    | .api (.call _) => true
    | _ => false
  start _ r := .api (.call r.call)
  own
    | .api _ => true
    | _ => false
  away _ _ := false
  -- udp.rs:541
  early
    | .write _ v small => decide (Apdu.groupValueWrite v small = .panic)
    | _ => false
  waits
    | .delay _ => true
    | _ => false
  prompt := prompt

/-- The calls of the monitor. -/
inductive MonitorReq where
  | solicit (addr : KnxAddress)
  | write (addr : KnxAddress) (value : Bytes) (small : Bool)
  | disconnect
  | isConnected
  | subscribe (id : Nat)
  | next
  deriving DecidableEq, Repr

/-- udp_monitor.rs:323, 338, 270, 274, 278, 288. -/
def MonitorReq.event (i : Nat) : MonitorReq → MApiEv
  | .solicit a => .call (.solicit a)
  | .write a v s => .call (.write a v s)
  | .disconnect => .call .disconnect
  | .isConnected => .call .isConnected
  | .subscribe id => .call (.subscribe id)
  | .next => .ncall i

/-- The monitor shared by several callers. -/
def monitorServer (m : Mode) : Server where
  S := MSys
  E := MEv
  Req := MonitorReq
  init := MSys.init
  step := mstep m
  free s := decide (s.api = .idle)
  alive s := s.bg.rxOpen
  drops e := decide (e = .api .drop)
  begins
    | .api (.call _) => true
    | .api (.ncall _) => true
    | _ => false
  start i r := .api (r.event i)
  own
    | .api .run => true
    | .api .sendOk => true
    | .api .sendFail => true
    | .api (.dgram _) => true
    | .api .recvErr => true
    | .api .cancel => true
    | _ => false
  away s i := decide (i ∈ s.waiting)
  -- udp_monitor.rs:340
  early
    | .write _ v small => decide (Apdu.groupValueWrite v small = .panic)
    | _ => false
  waits
    | .delay _ => true
    | _ => false
  prompt := mprompt

end Knx
