import Verif.Spec.Trace

/-!
# Specification vocabulary: which connection is current during a call
-/

namespace Knx.Spec

/-- After `tr` a call is in progress and `r` is the connection that is up. -/
def CurrentAt (tr : List Obs) (r : ConnectionResponse) : Prop :=
  bracket tr = some true ∧ upNow tr = true ∧ lastUp tr = some r

/-- At some time during the call in progress `r` was the connection that was up. -/
def DuringCall (tr : List Obs) (r : ConnectionResponse) : Prop :=
  ∃ a b, tr = a ++ b ∧ calls b = [] ∧ CurrentAt a r

/-- At some time during the call in progress `r` was the connection that was up, and `r'` was so at the same or a later time. -/
def DuringCall2 (tr : List Obs) (r r' : ConnectionResponse) : Prop :=
  ∃ a b, tr = a ++ b ∧ calls b = [] ∧ CurrentAt a r' ∧ DuringCall a r

end Knx.Spec
