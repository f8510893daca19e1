import Verif.Spec.Trace

/-!
# Specification vocabulary: a run in which nothing goes wrong
-/

namespace Knx.Spec

/-- Every send succeeds, every receive succeeds, the object is not dropped, and the task neither ends nor panics. -/
def Smooth (tr : List Obs) : Prop :=
  (∀ w p, Obs.txFail w p ∉ tr) ∧ Obs.rxErr ∉ tr ∧ Obs.dropped ∉ tr ∧ Obs.exit ∉ tr ∧ Obs.crash ∉ tr

/-- The last thing that happens is that call `c` is made and returns `v`. -/
def EndsWith (tr : List Obs) (c : Call) (v : Ret) : Prop :=
  ∃ a b, tr = a ++ .call c :: b ++ [.ret v] ∧ calls b = [] ∧ returned b = [] ∧ Obs.cancelled ∉ b

/-- How many calls return a value or `Ok(())`: reads, writes and disconnects that succeed. -/
def successes (tr : List Obs) : Nat :=
  (returned tr).countP fun
    | .unit => true
    | .value _ => true
    | _ => false

/-- How many calls of `next_msg` return a telegram. -/
def nsuccesses (tr : List Obs) : Nat :=
  tr.countP fun
    | .nret _ (.ind _) => true
    | _ => false

end Knx.Spec
