import Verif.Model.Construct
import Verif.Spec.Trace

/-!
# Specification vocabulary: from the constructor on
-/

namespace Knx.Spec

/-- What the object made has done. -/
def ran {α : Type} (T : List (MadeObs α)) : List Obs := T.filterMap fun
  | .run o => some o
  | _ => none

/-- The constructor has returned an object. -/
def Built {α : Type} (T : List (MadeObs α)) : Prop := MadeObs.built ∈ T

/-- The constructor has returned an error. -/
def Failed {α : Type} (T : List (MadeObs α)) : Prop := MadeObs.error ∈ T

/-- What a constructor does up to its return with an object connected to `p`: it binds a socket and looks up the target; the operating system
rejects the addresses `rej` and accepts the next one, `p`; `rest` is not looked at. -/
def opening {α : Type} (rej : List α) (p : α) (rest : List α) : List (MadeObs α) :=
  [.bound, .target (rej ++ p :: rest)] ++ rej.map .rejected ++ [.accepted p, .built]

/-- The ways in which a constructor fails: no socket, no such target, or all addresses of the target rejected (there may be none). -/
def Refusal {α : Type} (T : List (MadeObs α)) : Prop :=
  T = [.error] ∨ T = [.bound, .error] ∨ ∃ rej : List α, T = [.bound, .target rej] ++ rej.map .rejected ++ [.error]

end Knx.Spec
