import Verif.Spec.Served

/-!
# Specification vocabulary: time passes only while there is nothing to do

`Lively` and `MLively` are the runs in which time passes only while neither the task nor a call could go on.
-/

namespace Knx
open Spec

/-- The call of the client in progress can go on, or hand a datagram to the operating system. -/
def callActing (m : Mode) (s : Sys) : Bool := (apiStep m s .run).isSome || (apiStep m s .sendOk).isSome

/-- The same for the monitor, with the calls of `next_msg`. -/
def MCallActing (m : Mode) (s : MSys) : Prop :=
  (mapiStep m s .run).isSome ∨ (mapiStep m s .sendOk).isSome ∨ ∃ i, (mapiStep m s (.nrun i)).isSome

/-- A run of the client in which time passes only while there is nothing to do. -/
inductive Lively (m : Mode) : Sys → List Obs → Sys → Prop
  | nil (s : Sys) : Lively m s [] s
  | step {s s' s'' : Sys} {o tr : List Obs} (e : Ev) : (∀ d, e = .delay d → acting .client m s.bg = false ∧ callActing m s = false) →
      step m s e = some (s', o) → Lively m s' tr s'' → Lively m s (o ++ tr) s''

/-- Such a run of the monitor. -/
inductive MLively (m : Mode) : MSys → List Obs → MSys → Prop
  | nil (s : MSys) : MLively m s [] s
  | step {s s' s'' : MSys} {o tr : List Obs} (e : MEv) : (∀ d, e = .delay d → acting .monitor m s.bg = false ∧ ¬ MCallActing m s) →
      mstep m s e = some (s', o) → MLively m s' tr s'' → MLively m s (o ++ tr) s''

/-- What call `a` of the client waiting for a telegram makes of telegram `c`: a read for group `addr` returns the value of an
indication for this group, a write returns `Ok(())` on a confirmation. -/
def Ends (a : Api) (c : Cemi) (v : Ret) : Prop :=
  (∃ addr dl i, a = .reading addr dl ∧ c.msgCode = 0x29 ∧ LDataInd.fromCemi c = .ok i ∧ i.lData.dest = addr ∧ v = .value i.value) ∨
    (∃ dl, a = .writing dl ∧ c.msgCode = 0x2e ∧ v = .unit)

end Knx
