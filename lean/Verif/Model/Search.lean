import Verif.Model.Parse

/-!
# Model of the gateway search (`UdpTransport::search`, `src/transport/udp.rs` 274-320)

`searchRun` models the search from line 289 on, `searchAll` the whole of it, with the socket and what is sent. `UdpClient::search`
(485-488) only passes on the result.
-/

namespace Knx

/-- Where the search is: about to send, waiting in the select until the deadline with the receive buffer
and the responses so far, or finished. -/
inductive SearchSt where
  | start
  | waiting (buf : Bytes) (found : List SearchResponse) (deadline : Nat)
  | finished (r : Res (List SearchResponse))
  deriving DecidableEq

/-- What happens to the search. -/
inductive SearchEv where
  | sendOk
  | sendFail
  | dgram (d : Bytes)
  | recvErr
  | timer
  deriving DecidableEq

/-- `recv` into a buffer that still holds earlier contents: the datagram (cut to the buffer) overwrites
the front, the rest stays (udp.rs:294, 299). -/
def overwrite (buf d : Bytes) : Bytes := d.take buf.length ++ buf.drop d.length

/-- One step of the search at time `now` (udp.rs:289-319). The sleep is started anew for every turn
of the loop. -/
def searchStep (m : Mode) (timeout now : Nat) : SearchSt → SearchEv → Option SearchSt
  -- udp.rs:289-295
  | .start, .sendOk => some (.waiting (List.replicate 100 0) [] (now + timeout))
  | .start, .sendFail => some (.finished .panic)
  -- udp.rs:299-307
  | .waiting buf found _, .dgram d =>
    match runRd (SearchResponse.fromPacket m) id (overwrite buf d) with
    | .ok r => some (.waiting (overwrite buf d) (found ++ [r]) (now + timeout))
    | .err => some (.finished .err)
    | .panic => some (.finished .panic)
  -- udp.rs:308-310
  | .waiting _ _ _, .recvErr => some (.finished .err)
  -- udp.rs:313-316
  | .waiting _ found deadline, .timer => if deadline ≤ now then some (.finished (.ok found)) else none
  | _, _ => none

/-- A run of the search: events with the times at which they happen (never going back). -/
def searchRun (m : Mode) (timeout : Nat) : Nat → SearchSt → List (Nat × SearchEv) → Option SearchSt
  | _, s, [] => some s
  | now, s, (t, e) :: es =>
    if now ≤ t then
      match searchStep m timeout t s e with
      | some s' => searchRun m timeout t s' es
      | none => none
    else none

/-- What the operating system reports as the address of the socket (udp.rs:281-285). -/
inductive LocalAddr where
  | v4 (a : SockAddr)
  | v6
  | fails
  deriving DecidableEq

/-- udp.rs:274-320, the whole search at time `now`: `bound` tells whether the socket could be bound (275-279), `addr` its address as
reported (281-285). The datagrams sent, each with the address it is sent to (287-292), and the state reached. -/
def searchAll (m : Mode) (timeout now : Nat) (bound : Bool) (addr : LocalAddr) (evs : List (Nat × SearchEv)) :
    Option (List (SockAddr × Bytes) × SearchSt) :=
  match bound, addr with
  -- udp.rs:278
  | false, _ => if evs = [] then some ([], .finished .err) else none
  -- udp.rs:283
  | true, .v6 => if evs = [] then some ([], .finished .err) else none
  -- udp.rs:284
  | true, .fails => if evs = [] then some ([], .finished .err) else none
  -- udp.rs:287-319
  | true, .v4 a =>
    (searchRun m timeout now .start evs).map fun st =>
      (if evs.any (fun e => e.2 = .sendOk)
        then [(⟨systemMulticastAddress, discoveryEndpointPort⟩, (SearchRequest.udpUnicast a).packet)] else [], st)

end Knx
