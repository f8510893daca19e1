import Verif.Model.Monitor
import Verif.Spec.Trace

/-!
# Executions, as the properties speak about them
-/

namespace Knx

/-- The background task of a client or monitor built in mode `m` can reach state `s` with observations `tr`. -/
inductive Reaches (m : Mode) : Kind → Bg → List Obs → Prop
  | client {s : Sys} {tr : List Obs} : Exec m s tr → Reaches m .client s.bg tr
  | monitor {s : MSys} {tr : List Obs} : MExec m s tr → Reaches m .monitor s.bg tr

/-- A sequence of events of the background task alone. -/
def bgRun (k : Kind) (m : Mode) : Bg → List BgEv → Option (Bg × List Obs)
  | s, [] => some (s, [])
  | s, e :: es =>
    match bgStep k m s e with
    | none => none
    | some (s', o) => (bgRun k m s' es).map fun x => (x.1, o ++ x.2)

/-- A sequence of events of the client. -/
def runEvs (m : Mode) : Sys → List Ev → Option (Sys × List Obs)
  | s, [] => some (s, [])
  | s, e :: es =>
    match step m s e with
    | none => none
    | some (s', o) => (runEvs m s' es).map fun x => (x.1, o ++ x.2)

/-- A sequence of events of the monitor. -/
def mrunEvs (m : Mode) : MSys → List MEv → Option (MSys × List Obs)
  | s, [] => some (s, [])
  | s, e :: es =>
    match mstep m s e with
    | none => none
    | some (s', o) => (mrunEvs m s' es).map fun x => (x.1, o ++ x.2)

/-- The task of a client or monitor reaches `s` with observations `tr` and goes on from there to `s'` with observations `tr'`. -/
inductive Goes (m : Mode) : Kind → Bg → List Obs → List Obs → Bg → Prop
  | client {s s' : Sys} {tr tr' : List Obs} : Exec m s tr → Run m s tr' s' → Goes m .client s.bg tr tr' s'.bg
  | monitor {s s' : MSys} {tr tr' : List Obs} : MExec m s tr → MRun m s tr' s' → Goes m .monitor s.bg tr tr' s'.bg

/-- The same with timers firing on time from `s` on. -/
inductive GoesPromptly (m : Mode) : Kind → Bg → List Obs → List Obs → Bg → Prop
  | client {s s' : Sys} {tr tr' : List Obs} : Exec m s tr → PromptRun m s tr' s' → GoesPromptly m .client s.bg tr tr' s'.bg
  | monitor {s s' : MSys} {tr tr' : List Obs} : MExec m s tr → MPromptRun m s tr' s' → GoesPromptly m .monitor s.bg tr tr' s'.bg

/-- Steps of the task alone, with time passing. -/
inductive Alone (k : Kind) (m : Mode) : Bg → List Obs → Bg → Prop
  | nil (s : Bg) : Alone k m s [] s
  | step {s s' s'' : Bg} {o tr : List Obs} (e : BgEv) : bgStep k m s e = some (s', o) → Alone k m s' tr s'' → Alone k m s (o ++ tr) s''
  | delay {s s'' : Bg} {tr : List Obs} (d : Nat) : Alone k m { s with now := s.now + d } tr s'' → Alone k m s tr s''

end Knx
