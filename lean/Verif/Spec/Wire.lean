import Verif.Spec.Exec
import Verif.Spec.Frames
import Verif.Spec.Emi

/-!
# Specification vocabulary: what somebody on the network sees of the library
-/

namespace Knx.Spec

/-- A datagram given to the background task, or sent by it. -/
inductive Wire where
  | got (d : Bytes)
  | put (p : Bytes)
  deriving DecidableEq

/-- What can be seen on the network of what the background task does. -/
def wire (tr : List Obs) : List Wire := tr.filterMap fun
  | .rx d => some (.got d)
  | .rxConn d => some (.got d)
  | .tx .task p => some (.put p)
  | _ => none

/-- The stages of a session. -/
inductive Session where
  /-- There is no connection and none has been asked for. -/
  | idle
  /-- A connection has been asked for. -/
  | asked
  /-- The monitor has got a connection and is going to ask for the bus telegrams. -/
  | granted (r : ConnectionResponse)
  /-- There is a connection. -/
  | up (r : ConnectionResponse)
  /-- There is a connection, and a request or feature response is to be acknowledged; the telegram, if it is a request. -/
  | owes (r : ConnectionResponse) (channel seq : U8) (cemi : Option Bytes)
  /-- The end. -/
  | over

/-- A tunneling request that declares a length below ten. -/
def TooShort (d : Bytes) : Prop := ∃ (len : Nat) (channel seq pad : U8) (rest : Bytes),
  len < 10 ∧ seen d = header TUNNELING_REQUEST len ++ [4, channel, seq, pad] ++ rest

/-- A telegram that makes a debug build panic: the additional information is longer than 255 bytes. -/
def Explosive (m : Mode) (cemi : Bytes) : Prop := m = .debug ∧ ∃ code total is ty s rest,
  cemi = [code, total] ++ infosBytes is ++ [byte (infoCode ty), s] ++ rest ∧ infosSize is < total.toNat ∧ 255 < infosSize is + 2 + s.toNat

/-- `Moves k m p w p'`: from stage `p` to stage `p'` with the datagrams `w`, none or one. -/
inductive Moves (k : Kind) (m : Mode) : Session → List Wire → Session → Prop
  | ask : Moves k m .idle [.put (frame CONNECT_REQUEST (hpai ⟨1, ⟨⟨0, 0, 0, 0⟩, 0⟩⟩ ++ hpai ⟨1, ⟨⟨0, 0, 0, 0⟩, 0⟩⟩ ++ [4, 4, 2, 0]))] .asked
  | granted (d r) : Grants d r → Moves k m .asked [.got d] (match k with | .client => .up r | .monitor => .granted r)
  | refused (d) : (∀ r, ¬ Grants d r) → Moves k m .asked [.got d] .idle
  | noAnswer : Moves k m .asked [] .idle
  | enabled (r) : Moves k m (.granted r) [.put (frame TUNNELING_FEATURE_SET [4, r.channel, 0, 0, 8, 0, 1])] (.up r)
  | notEnabled (r) : Moves k m (.granted r) [] .idle
  | request (r d ch sq cemi) : Decodes (seen d) (.tunnelingRequest ⟨ch, sq, cemi⟩) → Moves k m (.up r) [.got d] (.owes r ch sq (some cemi))
  | feature (r d f v st ch sq) : Decodes (seen d) (.featureResponse ⟨f, v, st, ch, sq⟩) → Moves k m (.up r) [.got d] (.owes r ch sq none)
  | empty (r) : Moves k m (.up r) [.got []] (.up r)
  | ack (r d a) : Decodes (seen d) (.tunnelingAck a) → Moves k m (.up r) [.got d] (.up r)
  | fine (r d ch) : Decodes (seen d) (.connectionstateResponse ⟨ch, 0⟩) → Moves k m (.up r) [.got d] (.up r)
  | broken (r d ch st) : Decodes (seen d) (.connectionstateResponse ⟨ch, st⟩) → st ≠ 0 → Moves k m (.up r) [.got d] .idle
  | garbage (r d) : d ≠ [] → (∀ y, ¬ Decodes (seen d) y) → ¬ TooShort d → Moves k m (.up r) [.got d] .idle
  | short (r d) : TooShort d → Moves k m (.up r) [.got d] .over
  | bye (r d y) : Decodes (seen d) (.disconnectResponse y) → Moves k m (.up r) [.got d] .over
  | beat (r) : Moves k m (.up r) [.put (frame CONNECTIONSTATE_REQUEST ([r.channel, 0] ++ hpai r.dataEndpoint))] (.up r)
  | lost (r) : Moves k m (.up r) [] .idle
  | acked (r ch sq cemi) : (∀ c, cemi = some c → ¬ Explosive m c) → Moves k m (.owes r ch sq cemi) [.put (frame TUNNELING_ACK [4, ch, sq, 0])] (.up r)
  | exploded (r ch sq c) : Explosive m c → Moves k m (.owes r ch sq (some c)) [.put (frame TUNNELING_ACK [4, ch, sq, 0])] .over
  | forgotten (r ch sq cemi) : Moves k m (.owes r ch sq cemi) [.put (frame CONNECTIONSTATE_REQUEST ([r.channel, 0] ++ hpai r.dataEndpoint))] (.up r)
  | lostOwing (r ch sq cemi) : Moves k m (.owes r ch sq cemi) [] .idle

/-- `Walk k m w p`: the session can be in stage `p` after the datagrams `w`. -/
inductive Walk (k : Kind) (m : Mode) : List Wire → Session → Prop
  | start : Walk k m [] .idle
  | move {w w' p p'} : Walk k m w p → Moves k m p w' p' → Walk k m (w ++ w') p'

end Knx.Spec

namespace Knx

/-- The library, built in mode `m`, can make the observations `tr` with its timers firing on time. -/
inductive Timely (m : Mode) : Kind → List Obs → Prop
  | client {s : Sys} {tr : List Obs} : PromptRun m Sys.init tr s → Timely m .client tr
  | monitor {s : MSys} {tr : List Obs} : MPromptRun m MSys.init tr s → Timely m .monitor tr

end Knx
