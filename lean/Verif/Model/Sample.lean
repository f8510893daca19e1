import Verif.Model.Client
import Verif.Model.DpTypes

/-!
# Model of the sample program `src/main.rs`

A program that uses one client from one thread: sleeps and calls one after the other. The background task goes on meanwhile, for
`#[tokio::main]` (main.rs:10) makes a runtime with worker threads, and `std::thread::sleep` (main.rs:15, 61) blocks the main thread
only. When `main` ends, the runtime is shut down and nothing of the client is left. Logging is left out.
-/

namespace Knx

/-- A statement of the program. -/
inductive Stmt where
  /-- `sleep(Duration)`, in milliseconds. -/
  | sleep (ms : Nat)
  /-- A call that is awaited; the flag says whether its result is passed on with `?` (otherwise it is only logged). -/
  | call (c : Call) (question : Bool)
  deriving DecidableEq, Repr

/-- Where the program is. -/
inductive Phase where
  /-- About to execute the next statement. -/
  | ready
  | asleep (till : Nat)
  | calling (question : Bool)
  | over (r : Res Unit)
  deriving DecidableEq, Repr

/-- A program in execution: its client, where it is, and the statements still to come. -/
structure Prog where
  sys : Sys
  phase : Phase
  rest : List Stmt

/-- After `UdpClient::connect` has returned (main.rs:13). -/
def Prog.init (ss : List Stmt) : Prog := ⟨Sys.init, .ready, ss⟩

/-- What happens to a program: it goes on with its next statement, or something happens to its client. -/
inductive ProgEv where
  | go
  | sys (e : Ev)
  deriving DecidableEq, Repr

/-- The result of a call among the observations of a step. -/
def resultOf : List Obs → Option Ret
  | [] => none
  | .ret r :: _ => some r
  | _ :: os => resultOf os

/-- How the program goes on after a step of a call. -/
def afterStep (question : Bool) (o : List Obs) : Phase :=
  match resultOf o with
  | none => .calling question
  | some .panic => .over .panic
  | some .err => if question then .over .err else .ready
  | some _ => .ready

/-- One step of a program. A call runs to its end: the program neither drops the future of a call nor the client. -/
def Prog.step (m : Mode) (p : Prog) (e : ProgEv) : Option (Prog × List Obs) :=
  match p.phase, e with
  | .over _, _ => none
  | .ready, .go =>
    match p.rest with
    | [] => some ({ p with phase := .over (.ok ()) }, [])
    | .sleep ms :: rest => some ({ p with phase := .asleep (p.sys.bg.now + ms), rest }, [])
    | .call c q :: rest => (apiStep m p.sys (.call c)).map fun x => (⟨x.1, afterStep q x.2, rest⟩, x.2)
  | .asleep till, .go => if till ≤ p.sys.bg.now then some ({ p with phase := .ready }, []) else none
  | .calling _, .go => none
  | .calling q, .sys (.api e) =>
    if e = .cancel then none else (apiStep m p.sys e).map fun x => (⟨x.1, afterStep q x.2, p.rest⟩, x.2)
  | _, .sys (.api _) => none
  | _, .sys e => (Knx.step m p.sys e).map fun x => ({ p with sys := x.1 }, x.2)

/-- The event lets no deadline pass by: timers fire on time, the program wakes up on time, and it is not held up between its
statements. -/
def Prog.prompt (p : Prog) : ProgEv → Prop
  | .sys (.delay d) => Knx.prompt p.sys (.delay d) ∧
    (match p.phase with | .ready => d = 0 | .asleep till => p.sys.bg.now + d ≤ till | _ => True)
  | _ => True

/-- `ProgExec m ss p tr`: the program `ss` can reach state `p` having made the observations `tr`. -/
inductive ProgExec (m : Mode) (ss : List Stmt) : Prog → List Obs → Prop
  | init : ProgExec m ss (Prog.init ss) []
  | step {p p' : Prog} {tr o : List Obs} (e : ProgEv) : ProgExec m ss p tr → p.step m e = some (p', o) → ProgExec m ss p' (tr ++ o)

/-- The same with timers firing on time. -/
inductive ProgPrompt (m : Mode) (ss : List Stmt) : Prog → List Obs → Prop
  | init : ProgPrompt m ss (Prog.init ss) []
  | step {p p' : Prog} {tr o : List Obs} (e : ProgEv) : ProgPrompt m ss p tr → p.prompt e → p.step m e = some (p', o) →
      ProgPrompt m ss p' (tr ++ o)

/-- main.rs:15-100: the statements of the sample program that are not commented out. The address of line 64 is parsed and unwrapped
there; were it no address, the program would panic, which is written here as an empty program. -/
def sampleMain : List Stmt :=
  match KnxAddress.parse "1/1/2".toList with
  | .ok a => [.sleep 2000, .sleep 2000, .call (.write a (PdtB1U3.dimming false 3).getBytes true) false, .call .disconnect true]
  | _ => []

end Knx
