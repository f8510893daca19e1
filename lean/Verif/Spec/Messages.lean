import Verif.Spec.Bytes
import Verif.Spec.Telegrams

/-!
# What messages say

The first field of a short response (header, channel, status) that is not as KNXnet/IP demands, and numbers as texts.
-/

namespace Knx.Spec

/-- A number in decimal. -/
def decimal (n : Nat) : List Char := n.repr.toList

/-- A number in hexadecimal, at least two characters wide. -/
def hexadecimal (n : Nat) : List Char :=
  (if n < 16 then [' '] else []) ++ (Nat.toDigits 16 n).map Char.toUpper

/-- A field of the header, with a value it should not have. -/
inductive Misfit where
  | size (n : Nat)
  | version (n : Nat)
  | service (n : Nat)
  | length (n : Nat)
  deriving DecidableEq, Repr

/-- `n` octets of a datagram from the `i`-th on, as a number. -/
def field (d : Bytes) (i n : Nat) : Nat := value (((seen d).drop i).take n)

/-- The first field of a datagram that does not fit the short response of a service. -/
def misfit (service : Nat) (d : Bytes) : Option Misfit :=
  if field d 0 1 ≠ 6 then some (.size (field d 0 1))
  else if field d 1 1 ≠ 16 then some (.version (field d 1 1))
  else if field d 2 2 ≠ service then some (.service (field d 2 2))
  else if field d 4 2 ≠ 8 then some (.length (field d 4 2))
  else none

/-- Both fields are wrong versions. -/
def Misfit.versions : Misfit → Misfit → Prop
  | .version _, .version _ => True
  | _, _ => False

/-- A part of an L_Data telegram that is missing from a short one. -/
inductive Part where
  | control1
  | control2
  | source
  | destination
  | length
  | octets
  deriving DecidableEq, Repr

/-- The first part of an L_Data telegram that `n` octets do not reach. -/
def missing : Nat → Part
  | 0 => .control1
  | 1 => .control2
  | 2 => .source
  | 3 => .source
  | 4 => .destination
  | 5 => .destination
  | 6 => .length
  | _ => .octets

/-- Why a call can fail. -/
inductive Cause where
  /-- There is no connection. -/
  | unconnected
  /-- The request could not be sent. -/
  | unsent
  /-- Nothing arrived in time. -/
  | late
  /-- Nothing can arrive any more. -/
  | ended
  /-- The answer is too short. -/
  | short (p : Part)
  /-- Something else than a confirmation arrived. -/
  | unexpected (code : U8)
  /-- The socket failed. -/
  | unanswered
  /-- The response does not fit. -/
  | rejected (f : Misfit)
  deriving DecidableEq, Repr

/-- The causes differ only in which wrong version a response has. -/
def Cause.versions : Cause → Cause → Prop
  | .rejected f, .rejected f' => f.versions f'
  | _, _ => False

/-- `Because tr o k`: of a call that, after `tr`, returns an error in a step with the observations `o`, it can be observed that it
fails because of `k`. -/
inductive Because (tr : List Obs) : List Obs → Cause → Prop
  | unconnected : upNow tr = false → apiSent (since isCall tr) = [] → Because tr [.ret .err] .unconnected
  | unsent (p : Bytes) : apiSent (since isCall tr) = [] → Because tr [.txFail .api p, .ret .err] .unsent
  | late (p : Bytes) : apiSent (since isCall tr) = [p] → Because tr [.ret .err] .late
  | ended (p : Bytes) : apiSent (since isCall tr) = [p] → Obs.exit ∈ tr ∨ Obs.crash ∈ tr → Because tr [.ret .err] .ended
  | short (c : Cemi) : (∃ addr, lastCall tr = some (.read addr)) → c.msgCode = L_DATA_IND → c.serviceInfo.length < 9 →
      Because tr [.taken 0 c, .ret .err] (.short (missing c.serviceInfo.length))
  | unexpected (c : Cemi) : (∃ addr v small, lastCall tr = some (.write addr v small)) → c.msgCode ≠ L_DATA_CON →
      Because tr [.taken 0 c, .ret .err] (.unexpected c.msgCode)
  | unanswered (p : Bytes) : lastCall tr = some .status → apiSent (since isCall tr) = [p] → Because tr [.ret .err] .unanswered
  | rejected (d : Bytes) (f : Misfit) : lastCall tr = some .status → misfit CONNECTIONSTATE_RESPONSE d = some f →
      Because tr [.rxApi d, .ret .err] (.rejected f)

/-- The same for a call of a monitor. -/
inductive MBecause (tr : List Obs) : List Obs → Cause → Prop
  | unconnected : upNow tr = false → apiSent (since isCall tr) = [] → MBecause tr [.ret .err] .unconnected
  | unsent (p : Bytes) : apiSent (since isCall tr) = [] → MBecause tr [.txFail .api p, .ret .err] .unsent
  | rejected (d : Bytes) (f : Misfit) : lastCall tr = some .disconnect → misfit DISCONNECT_RESPONSE d = some f →
      MBecause tr [.rxApi d, .ret .err] (.rejected f)

/-- The same for `next_msg` of a monitor. -/
inductive NBecause (tr : List Obs) (i : Nat) : List Obs → Cause → Prop
  | ended : Obs.exit ∈ tr ∨ Obs.crash ∈ tr → NBecause tr i [.nret i .err] .ended
  | short (c : Cemi) : c.msgCode = L_DATA_IND ∨ c.msgCode = L_BUSMON_IND → c.serviceInfo.length < 9 →
      NBecause tr i [.taken i c, .nret i .err] (.short (missing c.serviceInfo.length))

/-- Both are rejected responses. -/
def Cause.rejections : Cause → Cause → Prop
  | .rejected _, .rejected _ => True
  | _, _ => False

end Knx.Spec
