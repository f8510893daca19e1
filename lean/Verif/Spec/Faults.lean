import Verif.Spec.Trace
import Verif.Spec.Frames

/-!
# Specification vocabulary: what makes a connection useless to the task
-/

namespace Knx.Spec

/-- Made by the background task, not by a call, a subscriber or the owner of the object. -/
def ofTask : Obs → Bool
  | .rxApi _ => false
  | .tx .api _ => false
  | .txFail .api _ => false
  | .taken _ _ => false
  | .drew _ => false
  | .call _ => false
  | .ret _ => false
  | .cancelled => false
  | .ncall _ => false
  | .nret _ _ => false
  | .ncancelled _ => false
  | .dropped => false
  | .subscribed _ => false
  | _ => true

/-- What the background task does, in order. -/
def taskObs (tr : List Obs) : List Obs := tr.filter ofTask

/-- A receive or a send of the task fails, the message channel is closed, a datagram that is not empty does not decode, or the
server reports a connection state other than "no error". -/
def Fault (x : Obs) : Prop :=
  x = .rxErr ∨ (∃ p, x = .txFail .task p) ∨ x = .closed ∨
  ∃ d, x = .rx d ∧ d ≠ [] ∧ ((∀ y, ¬ Decodes (seen d) y) ∨ ∃ r, Decodes (seen d) (.connectionstateResponse r) ∧ r.status ≠ 0)

end Knx.Spec
