import Verif.Props.Frames

/-!
# Requests built from a received connection response, and the remaining endpoint and layer codes

Part of C19: `from_connection_response` of the state and disconnect requests (core.rs:320-325,
471-476), `HPAI::tcp` (core.rs:719-724), `HPAI::set_addr` (core.rs:726-728) and the three
`CRI::tunnel_*` (core.rs:94-107).
-/

namespace Knx
open Spec

/-- C19: the state request and the disconnect request built from a received connection response
copy the bytes of that response: the channel is byte 6 and the endpoint bytes 8 to 15 of what was
received. -/
theorem C19_from_response (r rest : Bytes) (c : ConnectionResponse)
    (h : ConnectionResponse.fromPacket r = .ok (c, rest)) :
    (ConnectionstateRequest.ofResponse c).packet
      = frame CONNECTIONSTATE_REQUEST ((r.drop 6).take 1 ++ [0] ++ (r.drop 8).take 8) ∧
    (DisconnectRequest.ofResponse c).packet
      = frame DISCONNECT_REQUEST ((r.drop 6).take 1 ++ [0] ++ (r.drop 8).take 8) := by
  obtain ⟨len, _, _, _, _, rfl⟩ := (C23_connect_response r rest c).1.1 h
  rw [C19_bodies.1, C19_bodies.2.1]
  constructor <;>
    simp [ConnectionstateRequest.ofResponse, DisconnectRequest.ofResponse, connectResponse, header, word, hpai]

/-- C19: endpoints name UDP as 1 and TCP as 2 and carry the address they were given; the three
tunnelling layers are 2 (link layer), 4 (raw) and 80 hex (busmonitor). -/
theorem C19_codes (a : SockAddr) :
    (Hpai.udp.setAddr a).packet = hpai ⟨1, a⟩ ∧ (Hpai.tcp.setAddr a).packet = hpai ⟨2, a⟩ ∧
    Hpai.udp.packet = [8, 1, 0, 0, 0, 0, 0, 0] ∧ Hpai.tcp.packet = [8, 2, 0, 0, 0, 0, 0, 0] ∧
    Cri.tunnelLinklayer.packet = [4, 4, 2, 0] ∧ Cri.tunnelRaw.packet = [4, 4, 4, 0] ∧
    Cri.tunnelBusmonitor.packet = [4, 4, 0x80, 0] := by
  refine ⟨?_, ?_, by decide, by decide, by decide, by decide, by decide⟩ <;> rw [hpai_packet] <;> rfl

/-- A received response with channel 7 of a gateway at 192.168.1.10:3671, and the requests built
from it. -/
example :
    let r : Bytes := [6, 16, 2, 6, 0, 20, 7, 0, 8, 1, 192, 168, 1, 10, 14, 87, 4, 4, 17, 5]
    ∃ c, ConnectionResponse.fromPacket r = .ok (c, []) ∧
      (ConnectionstateRequest.ofResponse c).packet = [6, 16, 2, 7, 0, 16, 7, 0, 8, 1, 192, 168, 1, 10, 14, 87] ∧
      (DisconnectRequest.ofResponse c).packet = [6, 16, 2, 9, 0, 16, 7, 0, 8, 1, 192, 168, 1, 10, 14, 87] :=
  ⟨⟨7, 0, ⟨1, ⟨⟨192, 168, 1, 10⟩, 3671⟩⟩, ⟨⟨1, 1, 5⟩⟩⟩, by decide +kernel, by decide, by decide⟩

end Knx
