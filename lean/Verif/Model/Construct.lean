import Verif.Model.Client
import Verif.Model.Monitor

/-!
# Model of the constructors (`UdpTransport::connect`, `src/transport/udp.rs` 107-194, and `UdpMonitorTransport::connect`,
`src/transport/udp_monitor.rs` 62-167; `UdpClient::connect`, udp.rs:476-483, and `UdpMonitor::connect`, udp_monitor.rs:262-268 and 282-286, only
wrap the result)

Both do the same: bind a socket, connect it to the target, start the task. `α` is the type of the addresses to which the target
resolves. `tokio::net::UdpSocket::connect` tries the addresses in order until the operating system accepts one; it sends nothing.
Its choices and those of the operating system are events.
-/

namespace Knx

/-- Where a constructor is, or the object made, of state `σ`, with the address its socket is connected to. -/
inductive Made (α σ : Type) where
  -- udp.rs:109-111, udp_monitor.rs:64-66
  | binding
  -- udp.rs:115, udp_monitor.rs:70: the name is looked up
  | resolving
  -- udp.rs:115, udp_monitor.rs:70: these addresses are still to be tried
  | trying (addrs : List α)
  | failed
  | running (peer : α) (s : σ)

/-- What happens to a constructor, or to the object made. -/
inductive MadeEv (α ε : Type) where
  | bindOk
  | bindFail
  | resolved (addrs : List α)
  | unresolved
  | accept
  | reject
  | ev (e : ε)

/-- What can be observed: the socket is bound, the addresses of the target are known, the operating system rejects or accepts an address, the
constructor returns an object or an error, and what the object does. -/
inductive MadeObs (α : Type) where
  | bound
  | target (addrs : List α)
  | rejected (a : α)
  | accepted (a : α)
  | built
  | error
  | run (o : Obs)

/-- One step of a constructor, or of the object made, which starts in `init` and runs by `stp`. -/
def madeStep {α σ ε : Type} (init : σ) (stp : σ → ε → Option (σ × List Obs)) :
    Made α σ → MadeEv α ε → Option (Made α σ × List (MadeObs α))
  -- udp.rs:109-111, udp_monitor.rs:64-66
  | .binding, .bindOk => some (.resolving, [.bound])
  | .binding, .bindFail => some (.failed, [.error])
  -- udp.rs:115-117, udp_monitor.rs:70-72: a name without addresses is an error too
  | .resolving, .resolved [] => some (.failed, [.target [], .error])
  | .resolving, .resolved (a :: as) => some (.trying (a :: as), [.target (a :: as)])
  | .resolving, .unresolved => some (.failed, [.error])
  | .trying (a :: b :: as), .reject => some (.trying (b :: as), [.rejected a])
  | .trying [a], .reject => some (.failed, [.rejected a, .error])
  -- udp.rs:119-193, udp_monitor.rs:74-166: the task is spawned, it has not run yet
  | .trying (a :: _), .accept => some (.running a init, [.accepted a, .built])
  | .running a s, .ev e => (stp s e).map fun x => (.running a x.1, x.2.map .run)
  | _, _ => none

/-- A client, from its constructor on. -/
def clientStep {α : Type} (m : Mode) : Made α Sys → MadeEv α Ev → Option (Made α Sys × List (MadeObs α)) := madeStep Sys.init (step m)

/-- A monitor, from its constructor on. -/
def monitorStep {α : Type} (m : Mode) : Made α MSys → MadeEv α MEv → Option (Made α MSys × List (MadeObs α)) :=
  madeStep MSys.init (mstep m)

/-- Executions from the call of a constructor on. -/
inductive MadeExec {α σ ε : Type} (stp : Made α σ → MadeEv α ε → Option (Made α σ × List (MadeObs α))) :
    Made α σ → List (MadeObs α) → Prop
  | init : MadeExec stp .binding []
  | step {w w' : Made α σ} {tr o : List (MadeObs α)} (e : MadeEv α ε) : MadeExec stp w tr → stp w e = some (w', o) →
      MadeExec stp w' (tr ++ o)

end Knx
