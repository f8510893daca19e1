import Verif.Spec.Trace
import Verif.Model.Monitor

/-!
# Specification vocabulary: subscribers that do not read
-/

namespace Knx.Spec

/-- In the course of these events subscriber `id` neither reads from its channel nor drops it. -/
def NotReading (id : Nat) (evs : List MEv) : Prop := ∀ e ∈ evs, e ≠ .api (.drain id) ∧ e ≠ .api (.closeChan id)

end Knx.Spec
