import Verif.Spec.Exec

/-!
# Specification vocabulary: a server that answers, and a task that is not kept from working

`Served` and `MServed` are the runs of a client and of a monitor in which every connect request that is sent in the run is answered
within `R` milliseconds, in which sending and receiving do not fail, and in which the task is given the processor when it has something
to do. Nothing is assumed about the application.
-/

namespace Knx
open Spec

/-- The task has something to do for which it waits for nobody: it can go on, or hand a datagram to the operating system. -/
def acting (k : Kind) (m : Mode) (s : Bg) : Bool := (bgStep k m s .run).isSome || (bgStep k m s .sendOk).isSome

/-- The socket of the task works, and what arrives while the task waits for the answer to a connect request grants a connection. -/
def Answering (o : List Obs) : Prop :=
  Obs.rxErr ∉ o ∧ (∀ p, Obs.txFail .task p ∉ o) ∧ ∀ d, Obs.rxConn d ∈ o → ∃ r, Grants d r

/-- When the connect request was sent that has not been answered yet, if there is one. -/
def asked (now : Nat) (w : Option Nat) (o : List Obs) : Option Nat :=
  if (taskSent o).any (serviceIs CONNECT_REQUEST) then some now
  else if connAnswers o = [] then w else none

/-- Time may pass: the task has nothing to do, its timers fire on time, and the answer to its connect request comes in time. -/
def MayWait (k : Kind) (m : Mode) (R : Nat) (s : Bg) (w : Option Nat) (d : Nat) : Prop :=
  acting k m s = false ∧ (∀ t ∈ bgDeadline s, s.now + d ≤ t) ∧ ∀ t ∈ w, s.now + d ≤ t + R

/-- Such a run of a client; besides the states, the connect requests unanswered before and after it. -/
inductive Served (m : Mode) (R : Nat) : Sys → Option Nat → List Obs → Sys → Option Nat → Prop
  | nil (s : Sys) (w : Option Nat) : Served m R s w [] s w
  | step {s s' s'' : Sys} {w w' : Option Nat} {o tr : List Obs} (e : Ev) : (∀ d, e = .delay d → MayWait .client m R s.bg w d) →
      step m s e = some (s', o) → Answering o → Served m R s' (asked s.bg.now w o) tr s'' w' → Served m R s w (o ++ tr) s'' w'

/-- Such a run of a monitor. -/
inductive MServed (m : Mode) (R : Nat) : MSys → Option Nat → List Obs → MSys → Option Nat → Prop
  | nil (s : MSys) (w : Option Nat) : MServed m R s w [] s w
  | step {s s' s'' : MSys} {w w' : Option Nat} {o tr : List Obs} (e : MEv) : (∀ d, e = .delay d → MayWait .monitor m R s.bg w d) →
      mstep m s e = some (s', o) → Answering o → MServed m R s' (asked s.bg.now w o) tr s'' w' → MServed m R s w (o ++ tr) s'' w'

/-- The task of a client or monitor reaches `s` with observations `tr`, and from then on is served like this. Connect requests sent
before `s` need not be answered. -/
inductive GoesServed (m : Mode) (R : Nat) : Kind → Bg → List Obs → List Obs → Bg → Prop
  | client {s s' : Sys} {tr tr' : List Obs} {w : Option Nat} : Exec m s tr → Served m R s none tr' s' w →
      GoesServed m R .client s.bg tr tr' s'.bg
  | monitor {s s' : MSys} {tr tr' : List Obs} {w : Option Nat} : MExec m s tr → MServed m R s none tr' s' w →
      GoesServed m R .monitor s.bg tr tr' s'.bg

end Knx
