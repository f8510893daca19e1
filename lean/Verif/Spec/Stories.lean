import Verif.Spec.Trace
import Verif.Spec.Telegrams
import Verif.Spec.Programs

/-!
# The life of a call

What the application is seen to do, call by call: an automaton that knows nothing about the background task.
-/

namespace Knx.Spec
open Knx

/-- The steps of the application: its calls, what they send, draw, take and receive, and the drop of the client. -/
def isLife : Obs → Bool
  | .call _ | .ret _ | .cancelled | .drew _ | .tx .api _ | .txFail .api _ | .taken _ _ | .rxApi _ | .dropped => true
  | _ => false

/-- What is seen of the application. -/
def lifeOf (tr : List Obs) : List Obs := tr.filter isLife

/-- The write of `v` panics as soon as it is called: of an empty small value, and in a debug build of a value whose length is 254 modulo 256. -/
def PanicsAtOnce (m : Mode) (v : Bytes) (small : Bool) : Prop :=
  (small = true ∧ v = []) ∨ (m = .debug ∧ small = false ∧ (v.length + 2) % 256 = 0)

/-- The calls of a client that do not panic at once. -/
def Starts (m : Mode) : Call → Prop
  | .read _ | .status | .disconnect => True
  | .write _ v small => ¬ PanicsAtOnce m v small
  | _ => False

/-- The telegram of a read or of a write. -/
def telegramOf? : Call → Option Bytes
  | .read addr => some (lDataReqFrame 3 addr.toU16.toNat apduRead)
  | .write addr v true => some (lDataReqFrame 3 addr.toU16.toNat (apduWriteSmall (v.headD 0)))
  | .write addr v false => some (lDataReqFrame 3 addr.toU16.toNat (apduWriteBig v))
  | _ => none

/-- In a debug build a telegram of this length cannot be put into a frame. -/
def Unframeable (m : Mode) (cemi : Bytes) : Prop := m = .debug ∧ 65526 ≤ cemi.length % 65536

/-- The request with channel `ch` and number `n` that carries `cemi`. The length field has 16 bits. -/
def requestFor (ch n : U8) (cemi : Bytes) : Bytes :=
  header TUNNELING_REQUEST ((10 + cemi.length) % 65536) ++ [4, ch, n, 0] ++ cemi

/-- The request of a status query or of a disconnect. -/
def plainRequest : Call → U8 → Hpai → Option Bytes
  | .status, ch, ep => some (frame CONNECTIONSTATE_REQUEST ([ch, 0] ++ hpai ep))
  | .disconnect, ch, ep => some (frame DISCONNECT_REQUEST ([ch, 0] ++ hpai ep))
  | _, _, _ => none

/-- A telegram that a read of `dest` passes over: not an indication, or one for another destination. -/
def PassedOver (dest : U16) (c : Cemi) : Prop :=
  c.msgCode ≠ L_DATA_IND ∨ ∃ other v, IndicationFor other c v ∧ other ≠ dest

/-- What a call that has not yet returned may have done since it was called. -/
inductive Begun (m : Mode) : Call → List Obs → Prop
  /-- Nothing. -/
  | start (c) : Starts m c → Begun m c []
  /-- A read or a write has drawn a number, -/
  | drew (c n cemi) : Starts m c → telegramOf? c = some cemi → Begun m c [.drew n]
  /-- and sent its request under this number. -/
  | asked (c n cemi ch) : Starts m c → telegramOf? c = some cemi → ¬ Unframeable m cemi →
      Begun m c [.drew n, .tx .api (requestFor ch n cemi)]
  /-- A read that has asked has passed over telegrams. -/
  | passed (addr n p o w) : Begun m (.read addr) (.drew n :: .tx .api p :: o) → PassedOver addr.toU16 w →
      Begun m (.read addr) (.drew n :: .tx .api p :: o ++ [.taken 0 w])
  /-- A status query or a disconnect has sent its request. -/
  | plain (c ch ep p) : plainRequest c ch ep = some p → Begun m c [.tx .api p]

/-- Call `c`, having done `o`, does `f` at last and returns `r`. -/
inductive Closes (m : Mode) : Call → List Obs → List Obs → Ret → Prop
  /-- There is no connection: before the number is drawn, or before the channel of the request is known. -/
  | unconnected (c o) : Begun m c o → (∀ p, Obs.tx .api p ∉ o) → Closes m c o [] .err
  /-- The telegram is too long for a frame. -/
  | tooLong (c n cemi) : Begun m c [.drew n] → telegramOf? c = some cemi → Unframeable m cemi → Closes m c [.drew n] [] .panic
  /-- The request cannot be sent: an error, -/
  | unsent (c n cemi ch) : Begun m c [.drew n] → telegramOf? c = some cemi → ¬ Unframeable m cemi →
      Closes m c [.drew n] [.txFail .api (requestFor ch n cemi)] .err
  | unsentStatus (ch ep p) : plainRequest .status ch ep = some p → Closes m .status [] [.txFail .api p] .err
  /-- but a panic of a disconnect. -/
  | unsentDisconnect (ch ep p) : plainRequest .disconnect ch ep = some p → Closes m .disconnect [] [.txFail .api p] .panic
  /-- A call that has sent its request gives up: the time is over, the task has ended, or `recv` failed. -/
  | gaveUp (c o p) : Begun m c o → Obs.tx .api p ∈ o → Closes m c o [] .err
  /-- A read takes a telegram for its address and returns the value, -/
  | value (addr n p o w v) : Begun m (.read addr) (.drew n :: .tx .api p :: o) → IndicationFor addr.toU16 w v →
      Closes m (.read addr) (.drew n :: .tx .api p :: o) [.taken 0 w] (.value v)
  /-- or one that is too short. -/
  | short (addr n p o w) : Begun m (.read addr) (.drew n :: .tx .api p :: o) → w.msgCode = L_DATA_IND → w.serviceInfo.length < 9 →
      Closes m (.read addr) (.drew n :: .tx .api p :: o) [.taken 0 w] .err
  /-- A write takes one telegram, and returns `()` exactly if it is a confirmation. -/
  | written (addr v small n p w) : Begun m (.write addr v small) [.drew n, .tx .api p] →
      Closes m (.write addr v small) [.drew n, .tx .api p] [.taken 0 w] (if w.msgCode = L_DATA_CON then .unit else .err)
  /-- A status query receives a datagram: a well-formed answer, or another one. -/
  | state (p d r rest) : Begun m .status [.tx .api p] → seen d = frame CONNECTIONSTATE_RESPONSE [r.channel, r.status] ++ rest →
      Closes m .status [.tx .api p] [.rxApi d] (.state r)
  | noState (p d) : Begun m .status [.tx .api p] →
      (∀ (r : ConnectionstateResponse) rest, seen d ≠ frame CONNECTIONSTATE_RESPONSE [r.channel, r.status] ++ rest) →
      Closes m .status [.tx .api p] [.rxApi d] .err
  /-- A disconnect takes any telegram. -/
  | disconnected (p w) : Begun m .disconnect [.tx .api p] → Closes m .disconnect [.tx .api p] [.taken 0 w] .unit

/-- A complete call: from `call` to `ret`, or to the point where its future was dropped. -/
inductive Story (m : Mode) : List Obs → Prop
  | atOnce (addr v small) : PanicsAtOnce m v small → Story m [.call (.write addr v small), .ret .panic]
  | finished (c o f r) : Closes m c o f r → Story m (.call c :: o ++ f ++ [.ret r])
  | cancelled (c o) : Begun m c o → Story m (.call c :: o ++ [.cancelled])

/-- Calls one after the other. -/
inductive Stories (m : Mode) : List Obs → Prop
  | none : Stories m []
  | more (l x) : Stories m l → Story m x → Stories m (l ++ x)

/-- What may be seen of the application: calls one after the other, the last one perhaps not finished; or, after them, the drop of the client,
and nothing any more. -/
inductive Diary (m : Mode) : List Obs → Prop
  | resting (l) : Stories m l → Diary m l
  | calling (l c o) : Stories m l → Begun m c o → Diary m (l ++ .call c :: o)
  | over (l) : Stories m l → Diary m (l ++ [.dropped])

end Knx.Spec
