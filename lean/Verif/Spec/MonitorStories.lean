import Verif.Spec.Stories
import Verif.Spec.Monitor

/-!
# The life of a call of a monitor, and of a caller of `next_msg`

What is seen of the calls that use the transport of a monitor, one after the other, and of one caller of `next_msg`, which runs concurrently:
two automata that know nothing about the background task.
-/

namespace Knx.Spec
open Knx

/-- The steps of the calls that use the transport of a monitor, and the drop of the monitor. -/
def isMLife : Obs → Bool
  | .call _ | .ret _ | .cancelled | .drew _ | .tx .api _ | .txFail .api _ | .rxApi _ | .subscribed _ | .dropped => true
  | _ => false

/-- What is seen of these calls. -/
def mlifeOf (tr : List Obs) : List Obs := tr.filter isMLife

/-- The steps of caller `i` of `next_msg`, and the drop of the monitor. -/
def isNLife (i : Nat) : Obs → Bool
  | .ncall j | .nret j _ | .ncancelled j | .taken j _ => j = i
  | .dropped => true
  | _ => false

/-- What is seen of caller `i`. -/
def nlifeOf (i : Nat) (tr : List Obs) : List Obs := tr.filter (isNLife i)

/-- The calls of a monitor that do not panic at once. -/
def MStarts (m : Mode) : Call → Prop
  | .solicit _ | .disconnect | .isConnected | .subscribe _ => True
  | .write _ v small => ¬ PanicsAtOnce m v small
  | _ => False

/-- The telegram of a solicited read or of a write. -/
def mtelegramOf? : Call → Option Bytes
  | .solicit addr => some (lDataReqFrame 3 addr.toU16.toNat apduRead)
  | .write addr v true => some (lDataReqFrame 3 addr.toU16.toNat (apduWriteSmall (v.headD 0)))
  | .write addr v false => some (lDataReqFrame 3 addr.toU16.toNat (apduWriteBig v))
  | _ => none

/-- The disconnect request. -/
def disconnectRequest (ch : U8) (ep : Hpai) : Bytes := frame DISCONNECT_REQUEST ([ch, 0] ++ hpai ep)

/-- What a call that has not yet returned may have done since it was called. -/
inductive MBegun (m : Mode) : Call → List Obs → Prop
  /-- Nothing. -/
  | start (c) : MStarts m c → MBegun m c []
  /-- A solicited read or a write has drawn a number. -/
  | drew (c n cemi) : MStarts m c → mtelegramOf? c = some cemi → MBegun m c [.drew n]
  /-- A disconnect has sent its request. -/
  | asked (ch ep) : MBegun m .disconnect [.tx .api (disconnectRequest ch ep)]

/-- Call `c`, having done `o`, does `f` at last and returns `r`. -/
inductive MCloses (m : Mode) : Call → List Obs → List Obs → Ret → Prop
  /-- There is no connection, before the request is sent; a solicited read or a write says so, -/
  | unconnected (c o cemi) : MBegun m c o → mtelegramOf? c = some cemi → MCloses m c o [] .err
  /-- and a disconnect. -/
  | unconnectedDisconnect : MCloses m .disconnect [] [] .err
  /-- The telegram is too long for a frame. -/
  | tooLong (c n cemi) : MBegun m c [.drew n] → mtelegramOf? c = some cemi → Unframeable m cemi → MCloses m c [.drew n] [] .panic
  /-- The request is sent, and that is all, -/
  | sent (c n cemi ch) : MBegun m c [.drew n] → mtelegramOf? c = some cemi → ¬ Unframeable m cemi →
      MCloses m c [.drew n] [.tx .api (requestFor ch n cemi)] .unit
  /-- or it cannot be sent: an error, -/
  | unsent (c n cemi ch) : MBegun m c [.drew n] → mtelegramOf? c = some cemi → ¬ Unframeable m cemi →
      MCloses m c [.drew n] [.txFail .api (requestFor ch n cemi)] .err
  /-- but a panic of a disconnect. -/
  | unsentDisconnect (ch ep) : MCloses m .disconnect [] [.txFail .api (disconnectRequest ch ep)] .panic
  /-- A disconnect receives a datagram: a well-formed answer, or another one. -/
  | code (p d channel status rest) : MBegun m .disconnect [.tx .api p] →
      seen d = frame DISCONNECT_RESPONSE [channel, status] ++ rest → MCloses m .disconnect [.tx .api p] [.rxApi d] (.code status)
  | noCode (p d) : MBegun m .disconnect [.tx .api p] → (∀ channel status rest, seen d ≠ frame DISCONNECT_RESPONSE [channel, status] ++ rest) →
      MCloses m .disconnect [.tx .api p] [.rxApi d] .err
  /-- Its socket fails. -/
  | deaf (p) : MBegun m .disconnect [.tx .api p] → MCloses m .disconnect [.tx .api p] [] .panic
  /-- `is_connected` says something. -/
  | connected (b) : MCloses m .isConnected [] [] (.bool b)
  /-- A subscriber is registered. -/
  | subscribed (id) : MCloses m (.subscribe id) [] [.subscribed id] .unit

/-- A complete call: from `call` to `ret`, or to the point where its future was dropped. -/
inductive MStory (m : Mode) : List Obs → Prop
  | atOnce (addr v small) : PanicsAtOnce m v small → MStory m [.call (.write addr v small), .ret .panic]
  | finished (c o f r) : MCloses m c o f r → MStory m (.call c :: o ++ f ++ [.ret r])
  | cancelled (c o) : MBegun m c o → MStory m (.call c :: o ++ [.cancelled])

/-- Calls one after the other. -/
inductive MStories (m : Mode) : List Obs → Prop
  | none : MStories m []
  | more (l x) : MStories m l → MStory m x → MStories m (l ++ x)

/-- What may be seen of the calls of a monitor. -/
inductive MDiary (m : Mode) : List Obs → Prop
  | resting (l) : MStories m l → MDiary m l
  | calling (l c o) : MStories m l → MBegun m c o → MDiary m (l ++ .call c :: o)
  | over (l) : MStories m l → MDiary m (l ++ [.dropped])

/-- What an indication tells: the telegram itself, its addresses, the flags of its first control octet, and its value (a length
of 0 or 1 means that it is in the low six bits of the APCI). -/
def Reported (c : Cemi) (i : LDataInd) : Prop :=
  ∃ c1 c2 s1 s2 d1 d2 l a b rest, c.serviceInfo = [c1, c2, s1, s2, d1, d2, l, a, b] ++ rest ∧ i.cemi = c ∧
    i.lData.src.toNat = value [s1, s2] ∧ i.lData.dest.toNat = value [d1, d2] ∧ i.lData.frameType = bit c1 7 ∧
    i.lData.repetition = bit c1 5 ∧ i.lData.systemBroadcast = bit c1 4 ∧ i.lData.ackRequest = bit c1 1 ∧
    i.value = if 2 ≤ l.toNat then padded (l.toNat - 1) rest else [byte (b.toNat % 64)]

/-- What a call of `next_msg` that has not yet returned may have done: taken telegrams that are not indications. -/
inductive NBegun (i : Nat) : List Obs → Prop
  | start : NBegun i []
  | passed (o w) : NBegun i o → isIndication w = false → NBegun i (o ++ [.taken i w])

/-- A complete call of `next_msg` by caller `i`. -/
inductive NStory (i : Nat) : List Obs → Prop
  /-- It takes an indication and returns what it tells, -/
  | shown (o w d) : NBegun i o → isIndication w = true → Reported w d → NStory i (.ncall i :: o ++ [.taken i w, .nret i (.ind d)])
  /-- or one that is too short. -/
  | short (o w) : NBegun i o → isIndication w = true → w.serviceInfo.length < 9 → NStory i (.ncall i :: o ++ [.taken i w, .nret i .err])
  /-- The task has ended. -/
  | ended (o) : NBegun i o → NStory i (.ncall i :: o ++ [.nret i .err])
  /-- The future of the call was dropped. -/
  | cancelled (o) : NBegun i o → NStory i (.ncall i :: o ++ [.ncancelled i])

/-- Calls one after the other. -/
inductive NStories (i : Nat) : List Obs → Prop
  | none : NStories i []
  | more (l x) : NStories i l → NStory i x → NStories i (l ++ x)

/-- What may be seen of one caller of `next_msg`. -/
inductive NDiary (i : Nat) : List Obs → Prop
  | resting (l) : NStories i l → NDiary i l
  | calling (l o) : NStories i l → NBegun i o → NDiary i (l ++ .ncall i :: o)
  | over (l) : NStories i l → NDiary i (l ++ [.dropped])

end Knx.Spec
