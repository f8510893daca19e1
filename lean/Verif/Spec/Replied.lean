import Verif.Spec.Lively

/-!
# Specification vocabulary: a server that replies to a request (C115)

`Replied` are the runs of a client in which the server replies to the request of the call in progress within `R` milliseconds, in which sending and
receiving do not fail, and in which time passes only while there is nothing to do. Nothing is assumed about the order of the steps.
-/

namespace Knx
open Spec

/-- Telegram `c` is what call `cl` waits for, and `v` is what it should return. -/
def IsAnswer (cl : Call) (c : Cemi) (v : Ret) : Prop :=
  match cl with
  | .read addr => c.msgCode = 0x29 ∧ ∃ i, LDataInd.fromCemi c = .ok i ∧ i.lData.dest = addr.toU16 ∧ v = .value i.value
  | .write _ _ _ => c.msgCode = 0x2e ∧ v = .unit
  | _ => False

/-- Telegram `c` is of no interest to call `cl`: for a read, anything but an indication for its group. -/
def Passes (cl : Call) (c : Cemi) : Prop :=
  match cl with
  | .read addr => c.msgCode ≠ 0x29 ∨ ∃ i, LDataInd.fromCemi c = .ok i ∧ i.lData.dest ≠ addr.toU16
  | _ => False

/-- A datagram without consequences: an empty one, an acknowledgement, or the answer to a heart beat that the connection is all right. -/
def NoMatter (d : Bytes) : Prop :=
  d = [] ∨ (∃ a, Decodes (seen d) (.tunnelingAck a)) ∨ ∃ r, Decodes (seen d) (.connectionstateResponse r) ∧ r.status = 0

/-- Nothing goes wrong: sending and receiving work, the call is not dropped, no other call is made, no heart beat falls due while a telegram is being passed on, and what is
received does not matter or is a telegram with `Pa`. -/
structure Fine (m : Mode) (Pa : Cemi → Prop) (o : List Obs) : Prop where
  receives : Obs.rxErr ∉ o
  sends : ∀ w p, Obs.txFail w p ∉ o
  kept : Obs.cancelled ∉ o
  passed : Obs.interrupt ∉ o
  one : ∀ c, Obs.call c ∉ o
  used : Obs.dropped ∉ o
  other : ∀ d, Obs.rx d ∈ o → NoMatter d ∨ ∃ c, Carries m d c ∧ Pa c

/-- The runs; besides the states, the times, before and after the run, when the request of the call was sent, if it has been sent and not replied to. -/
inductive Replied (m : Mode) (R : Nat) (Pa : Cemi → Prop) (reply : Cemi) : Sys → Option Nat → List Obs → Sys → Option Nat → Prop
  | nil (s : Sys) (w : Option Nat) : Replied m R Pa reply s w [] s w
  | wait {s s' : Sys} {w w' : Option Nat} {tr : List Obs} (d : Nat) : acting .client m s.bg = false → callActing m s = false →
      (∀ t ∈ w, s.bg.now + d ≤ t + R) → Replied m R Pa reply { s with bg := { s.bg with now := s.bg.now + d } } w tr s' w' →
      Replied m R Pa reply s w tr s' w'
  | reply {s s' s'' : Sys} {t : Nat} {w' : Option Nat} {o tr : List Obs} (d : Bytes) : Carries m d reply →
      step m s (.bg (.dgram d)) = some (s', o) → Replied m R Pa reply s' none tr s'' w' → Replied m R Pa reply s (some t) (o ++ tr) s'' w'
  | step {s s' s'' : Sys} {w w' : Option Nat} {o tr : List Obs} (e : Ev) : (∀ d, e ≠ .delay d) → step m s e = some (s', o) → Fine m Pa o →
      Replied m R Pa reply s' (if apiSent o = [] then w else some s.bg.now) tr s'' w' → Replied m R Pa reply s w (o ++ tr) s'' w'

end Knx
