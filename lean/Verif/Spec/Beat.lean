import Verif.Spec.Trace

/-!
# Specification vocabulary: heart beats on their way
-/

namespace Knx.Spec

/-- Whether a heart beat is on its way after an observation, given whether one was before. -/
def beatStep (b : Bool) : Obs → Bool
  | .tick => true
  | .tx .task _ => false
  | .txFail .task _ => false
  | _ => b

/-- A heart beat is due and has been neither sent nor given up: the task waits for the socket to take it. -/
def beating (tr : List Obs) : Bool := tr.foldl beatStep false

end Knx.Spec
