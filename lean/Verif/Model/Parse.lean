import Verif.Model.Tunneling
import Verif.Model.Core

/-!
# Model of `parse_response` (`src/transport/udp.rs:323-368`)
-/

namespace Knx

/-- udp.rs:91-98 `enum TunnelingResponse`. -/
inductive Response where
  | tunnelingRequest (t : TunnelingRequest)
  | tunnelingAck (t : TunnelingAck)
  | featureResponse (f : FeatureResp)
  | connectionstateResponse (c : ConnectionstateResponse)
  | disconnectResponse (d : DisconnectResponse)
  | disconnectRequest (d : DisconnectRequest)
  deriving DecidableEq, Repr

/-- Run a reader on a whole byte string; what it leaves unread is dropped with the cursor. -/
def runRd {α β : Type} (p : Rd α) (f : α → β) (r : Bytes) : Res β :=
  match p r with
  | .ok (a, _) => .ok (f a)
  | .err => .err
  | .panic => .panic

/-- udp.rs:323-368 `parse_response`; `resp.get(2..4)` is `None` for fewer than four bytes. -/
def parseResponse (resp : Bytes) : Res Response :=
  match resp with
  | _ :: _ :: c1 :: c2 :: _ =>
    if [c1, c2] = ([0x04, 0x20] : Bytes) then runRd TunnelingRequest.fromPacket .tunnelingRequest resp
    else if [c1, c2] = ([0x04, 0x21] : Bytes) then runRd TunnelingAck.fromPacket .tunnelingAck resp
    else if [c1, c2] = ([0x04, 0x23] : Bytes) then runRd FeatureResp.fromPacket .featureResponse resp
    else if [c1, c2] = ([0x02, 0x0a] : Bytes) then runRd DisconnectResponse.fromPacket .disconnectResponse resp
    else if [c1, c2] = ([0x02, 0x08] : Bytes) then
      runRd ConnectionstateResponse.fromPacket .connectionstateResponse resp
    else if [c1, c2] = ([0x02, 0x09] : Bytes) then runRd DisconnectRequest.fromPacket .disconnectRequest resp
    else .err
  | _ => .err

end Knx
