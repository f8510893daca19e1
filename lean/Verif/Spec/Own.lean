import Verif.Spec.Exec

/-!
# Specification vocabulary: what the library does of its own accord

The part of a schedule and of an execution that is not the application's.
-/

namespace Knx.Spec

/-- The observation is one of the background task, not of a call: what arrives for it, what it sends, connections coming and going,
telegrams put into the queue, heart beats, its end. -/
def own : Obs → Bool
  | .rx _ => true
  | .rxConn _ => true
  | .rxErr => true
  | .tx .task _ => true
  | .txFail .task _ => true
  | .up _ => true
  | .down => true
  | .queued _ => true
  | .tick => true
  | .interrupt => true
  | .closed => true
  | .exit => true
  | .crash => true
  | .notified _ => true
  | _ => false

def ownPart (tr : List Obs) : List Obs := tr.filter own

/-- What happens to the background task of a client in a schedule, time included: all of it except the events of the application. -/
def outside (evs : List Ev) : List Ev := evs.filter fun
  | .api _ => false
  | _ => true

/-- The same for a monitor. -/
def moutside (evs : List MEv) : List MEv := evs.filter fun
  | .api _ => false
  | _ => true

end Knx.Spec
