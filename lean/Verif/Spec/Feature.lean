import Verif.Spec.Exec
import Verif.Spec.Frames

/-!
# Specification vocabulary: what a feature request does (C121)
-/

namespace Knx.Spec

/-- An observation of a call, not of the task. -/
def ofCall : Obs → Bool
  | .tx .api _ => true
  | .txFail .api _ => true
  | .drew _ => true
  | .ret _ => true
  | .cancelled => true
  | _ => false

/-- The number the next request has after `tr`: 0 or 1 for the first one of a connection, then one more each time. -/
def nextNumber (k : Kind) (tr : List Obs) : U8 :=
  byte ((match k with | .client => 0 | .monitor => 1) + (drawn (since isUp tr)).length)

/-- The feature request. -/
def featureFrame (ch n : U8) (f : KnxIpFeature) (v : U8) : Bytes :=
  frame TUNNELING_FEATURE_SET [4, ch, n, 0, byte (featureCode f), 0, v]

/-- Nothing of a call is among the observations. -/
def TaskOnly (tr : List Obs) : Prop := ∀ x ∈ tr, ofCall x = false

/-- What a call of `set_feature` does after it has drawn the number `n`, the observations before being `tr`. -/
def SetsOn (f : KnxIpFeature) (v n : U8) (tr : List Obs) (tr' : List Obs) : Prop :=
    ∃ b d, TaskOnly b ∧ TaskOnly d ∧ (
      -- the connection was lost in the meantime: the number is lost, nothing is sent
      (upNow (tr ++ b) = false ∧ tr' = b ++ .ret .err :: d) ∨
      -- the caller gives up
      tr' = b ++ .cancelled :: d ∨
      -- one request, on the channel of the connection that there is now; it is sent or fails
      ∃ c r, TaskOnly c ∧ upNow (tr ++ b) = true ∧ lastUp (tr ++ b) = some r ∧
        (tr' = b ++ c ++ .tx .api (featureFrame r.channel n f v) :: .ret .unit :: d ∨
         tr' = b ++ c ++ .txFail .api (featureFrame r.channel n f v) :: .ret .err :: d))

/-- What a call of `set_feature` for `f` and `v` can do after `tr`, and the task while it runs and afterwards (`a` to `d`). -/
inductive Sets (k : Kind) (f : KnxIpFeature) (v : U8) (tr : List Obs) : List Obs → Prop
  /-- No connection: nothing is drawn or sent. -/
  | noConn (a d : List Obs) : TaskOnly a → TaskOnly d → upNow (tr ++ a) = false → Sets k f v tr (a ++ .ret .err :: d)
  /-- The caller gives up before a number has been drawn. -/
  | given (a d : List Obs) : TaskOnly a → TaskOnly d → Sets k f v tr (a ++ .cancelled :: d)
  /-- A number is drawn, the next one of the connection. -/
  | drawn (a rest : List Obs) : TaskOnly a → upNow (tr ++ a) = true →
      SetsOn f v (nextNumber k (tr ++ a)) (tr ++ a ++ [.drew (nextNumber k (tr ++ a))]) rest →
      Sets k f v tr (a ++ .drew (nextNumber k (tr ++ a)) :: rest)

end Knx.Spec
