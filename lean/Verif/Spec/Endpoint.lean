import Verif.Spec.Trace

/-!
# Specification vocabulary: where a server sends its answers

A connect, connection state or disconnect request names an endpoint of the client; the server sends its answer there. The
address 0.0.0.0:0 means: to where the request came from (KNX standard 03/08/02).
-/

namespace Knx.Spec

/-- "Answer to where this came from." -/
def routeBack : SockAddr := ⟨⟨0, 0, 0, 0⟩, 0⟩

/-- Where a server sends its answer to a request that came from `own` and names `named`. -/
def answerTo (own named : SockAddr) : SockAddr := if named = routeBack then own else named

/-- Datagram `p` is a connect request naming `h` for the answer. -/
def ConnectNaming (p : Bytes) (h : Hpai) : Prop := ∃ h' cri, p = frame CONNECT_REQUEST (hpai h ++ hpai h' ++ cri)

/-- Datagram `p` is a connection state request naming `h` for the answer. -/
def StateNaming (p : Bytes) (h : Hpai) : Prop := ∃ channel, p = frame CONNECTIONSTATE_REQUEST ([channel, 0] ++ hpai h)

/-- Datagram `p` is a disconnect request naming `h` for the answer. -/
def DisconnectNaming (p : Bytes) (h : Hpai) : Prop := ∃ channel, p = frame DISCONNECT_REQUEST ([channel, 0] ++ hpai h)

/-- Nobody sends a connection state response or a disconnect response to the client at `own`, except in answer to such a request
sent before that asks for the answer to be sent there. -/
def AnswersWhereAsked (own : SockAddr) (tr : List Obs) : Prop :=
  ∀ a x b d, tr = a ++ x :: b → x = .rx d ∨ x = .rxApi d →
    (∀ r, Decodes (seen d) (.connectionstateResponse r) → ∃ p ∈ sent a, ∃ h, StateNaming p h ∧ answerTo own h.address = own) ∧
    (∀ r, Decodes (seen d) (.disconnectResponse r) → ∃ p ∈ sent a, ∃ h, DisconnectNaming p h ∧ answerTo own h.address = own)

/-- No connection established so far came with a data endpoint that is the client's own address or 0.0.0.0:0. -/
def Foreign (own : SockAddr) (tr : List Obs) : Prop := ∀ r ∈ ups tr, answerTo own r.dataEndpoint.address ≠ own

/-- Datagram `p` is a search request naming `h` for the answers. -/
def SearchNaming (p : Bytes) (h : Hpai) : Prop := p = frame SEARCH_REQUEST (hpai h)

/-- A datagram sent to `t` gets to a socket with port `port` on a host with the addresses `ips`, not all of which need be usable for
every peer. -/
def Gets (ips : List Ipv4) (port : U16) (t : SockAddr) : Prop := t.ip ∈ ips ∧ t.port = port

/-- Datagram `p`, sent from that socket, is a search request whose answers get back to it. -/
def Answerable (ips : List Ipv4) (port : U16) (p : Bytes) : Prop :=
  ∃ h src, SearchNaming p h ∧ Gets ips port src ∧ Gets ips port (answerTo src h.address)

end Knx.Spec
