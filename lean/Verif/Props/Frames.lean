import Verif.Lemmas.Frames

/-!
# Properties C16-C26: KNXnet/IP frames
-/

namespace Knx

open Spec

/-! ## C16 -/

theorem hpai_packet (h : Hpai) : h.packet = hpai h := by
  simp [Hpai.packet, hpai, be16_eq_word, Ipv4.octets]

theorem header_packet (h : Header) : h.packet = header h.serviceType.toNat h.totalLength.toNat := by
  simp [Header.packet, header, be16_eq_word]

/-- C16: header and HPAI decode from their encoding followed by anything, leaving exactly what
follows; and they accept nothing but such an encoding; they never panic. -/
theorem C16_header_hpai :
    (∀ (h : Header) rest, Header.fromPacket (h.packet ++ rest) = .ok (h, rest)) ∧
    (∀ (h : Hpai) rest, Hpai.fromPacket (h.packet ++ rest) = .ok (h, rest)) ∧
    (∀ r h rest, Header.fromPacket r = .ok (h, rest) → r = h.packet ++ rest) ∧
    (∀ r h rest, Hpai.fromPacket r = .ok (h, rest) → r = h.packet ++ rest) ∧
    (∀ r, Header.fromPacket r ≠ .panic ∧ Hpai.fromPacket r ≠ .panic) := by
  refine ⟨?_, ?_, ?_, ?_, ?_⟩
  · intro h rest; rw [Header.fromPacket_iff, header_packet]
  · intro h rest; rw [Hpai.fromPacket_iff, hpai_packet]
  · intro r h rest hh; rw [Header.fromPacket_iff] at hh; rw [hh, header_packet]
  · intro r h rest hh; rw [Hpai.fromPacket_iff] at hh; rw [hh, hpai_packet]
  · intro r; exact ⟨Header.fromPacket_no_panic, Hpai.fromPacket_no_panic⟩

example : Hpai.fromPacket ([8, 1, 192, 168, 1, 2, 0x0e, 0x57] ++ [0xaa])
    = .ok (⟨1, ⟨⟨192, 168, 1, 2⟩, 3671⟩⟩, [0xaa]) := by decide

/-! ## C17 -/

/-- C17: connection-state request/response and disconnect response decode from their encoding
followed by anything. -/
theorem C17_state_messages_roundtrip :
    (∀ (c : ConnectionstateRequest) rest, ConnectionstateRequest.fromPacket (c.packet ++ rest) = .ok (c, rest)) ∧
    (∀ (c : ConnectionstateResponse) rest, ConnectionstateResponse.fromPacket (c.packet ++ rest) = .ok (c, rest)) ∧
    (∀ (c : DisconnectResponse) rest, DisconnectResponse.fromPacket (c.packet ++ rest) = .ok (c, rest)) := by
  refine ⟨?_, ?_, ?_⟩
  · intro c rest
    rw [ConnectionstateRequest.fromPacket_iff]
    refine ⟨16, 0, by omega, ?_⟩
    simp only [ConnectionstateRequest.packet, hpai_packet, be16_eq_word]
    simp [header, CONNECTIONSTATE_REQUEST, hpai, word, byte]
  · intro c rest
    rw [ConnectionstateResponse.fromPacket_iff]
    simp [ConnectionstateResponse.packet, frame, CONNECTIONSTATE_RESPONSE, word, byte]
  · intro c rest
    rw [DisconnectResponse.fromPacket_iff]
    simp [DisconnectResponse.packet, frame, DISCONNECT_RESPONSE, word, byte, be16_eq_word]

example : ConnectionstateResponse.fromPacket ([6, 0x10, 2, 8, 0, 8, 7, 0x21] ++ [0, 0])
    = .ok (⟨7, 0x21⟩, [0, 0]) := by decide

/-! ## C18 -/

/-- The encoding of a tunneling request with at most 65525 bytes of cEMI. -/
theorem tunnelingRequest_packet (m : Mode) (t : TunnelingRequest) (h : t.cemi.length ≤ 65525) :
    t.packet m = .ok (frame TUNNELING_REQUEST ([4, t.channel, t.seq, 0] ++ t.cemi)) := by
  unfold TunnelingRequest.packet
  have e : addU m (10 : U16) (BitVec.ofNat 16 t.cemi.length) = .ok (BitVec.ofNat 16 (10 + t.cemi.length)) := by
    rw [addU_of_lt]
    · congr 1; apply BitVec.eq_of_toNat_eq; simp
    · simp; omega
  rw [e]
  have : (BitVec.ofNat 16 (10 + t.cemi.length)).toNat = 6 + ([4, t.channel, t.seq, 0] ++ t.cemi).length := by
    simp; omega
  simp only [be16_eq_word, this, frame, TUNNELING_REQUEST]
  simp [word, byte]

/-- C18: acks and tunneling requests (cEMI up to 65525 bytes) decode from their encoding, in both
overflow modes, leaving exactly what follows. -/
theorem C18_tunneling_roundtrip :
    (∀ (t : TunnelingAck) rest, TunnelingAck.fromPacket (t.packet ++ rest) = .ok (t, rest)) ∧
    (∀ (m : Mode) (t : TunnelingRequest) rest, t.cemi.length ≤ 65525 →
      ∃ p, t.packet m = .ok p ∧ TunnelingRequest.fromPacket (p ++ rest) = .ok (t, rest)) := by
  constructor
  · intro t rest
    rw [TunnelingAck.fromPacket_iff]
    simp [TunnelingAck.packet, frame, TUNNELING_ACK, word, byte]
  · intro m t rest h
    refine ⟨_, tunnelingRequest_packet m t h, ?_⟩
    rw [TunnelingRequest.fromPacket_iff]
    refine ⟨10 + t.cemi.length, 0, t.cemi ++ rest, by omega, by omega, ?_, ?_, ?_⟩
    · have : 6 + ([4, t.channel, t.seq, 0] ++ t.cemi).length = 10 + t.cemi.length := by simp; omega
      simp only [frame, header, this]
      simp
    · rw [Nat.add_sub_cancel_left, padded_append_self]
    · simp

/-- Beyond 65525 bytes of cEMI the length field overflows: a debug build panics for lengths up
to 65535, and a release build writes a length field that is too small by 65536. -/
theorem C18_bound_is_exact (t : TunnelingRequest) (h : 65526 ≤ t.cemi.length) (h' : t.cemi.length ≤ 65535) :
    t.packet .debug = .panic ∧
    t.packet .release = .ok (header TUNNELING_REQUEST (10 + t.cemi.length - 65536) ++ [4, t.channel, t.seq, 0] ++ t.cemi) := by
  constructor
  · unfold TunnelingRequest.packet
    have : addU .debug (10 : U16) (BitVec.ofNat 16 t.cemi.length) = .panic := by
      rw [addU_panic_iff]; simp; omega
    rw [this]
  · unfold TunnelingRequest.packet
    rw [addU_release]
    have : (10 + BitVec.ofNat 16 t.cemi.length : U16).toNat = 10 + t.cemi.length - 65536 := by
      rw [BitVec.toNat_add]; simp; omega
    simp only [be16_eq_word, this, header, TUNNELING_REQUEST]
    simp [word, byte]

example : ∃ p, (TunnelingRequest.mk 1 2 [0x29, 0]).packet .debug = .ok p ∧
    p = [6, 0x10, 4, 0x20, 0, 12, 4, 1, 2, 0, 0x29, 0] := ⟨_, rfl, by decide⟩

/-! ## C19 -/

/-- `p` is a frame of the service with a correct length field. -/
def IsFrame (service : Nat) (p : Bytes) : Prop := p.length < 65536 ∧ ∃ body, p = frame service body

theorem hpai_length (h : Hpai) : (hpai h).length = 8 := rfl

/-- C19: every frame the library sends is well formed: 06 10, its service code, and a length
field equal to the number of bytes. -/
theorem C19_sent_frames_wellformed :
    (IsFrame SEARCH_REQUEST SearchRequest.udp.packet) ∧
    (∀ a, IsFrame SEARCH_REQUEST (SearchRequest.udpUnicast a).packet) ∧
    (∀ c : ConnectionRequest, IsFrame CONNECT_REQUEST c.packet) ∧
    (∀ c : ConnectionstateRequest, IsFrame CONNECTIONSTATE_REQUEST c.packet) ∧
    (∀ c : DisconnectRequest, IsFrame DISCONNECT_REQUEST c.packet) ∧
    (∀ c : DisconnectResponse, IsFrame DISCONNECT_RESPONSE c.packet) ∧
    (∀ c : TunnelingAck, IsFrame TUNNELING_ACK c.packet) ∧
    (∀ c : FeatureSet, IsFrame TUNNELING_FEATURE_SET c.packet) ∧
    (∀ (m : Mode) (t : TunnelingRequest), t.cemi.length ≤ 65525 →
      ∃ p, t.packet m = .ok p ∧ IsFrame TUNNELING_REQUEST p) := by
  have hs : ∀ s : SearchRequest, IsFrame SEARCH_REQUEST s.packet := by
    intro s
    simp only [SearchRequest.packet, hpai_packet, be16_eq_word]
    exact ⟨by simp [hpai], hpai s.discoveryEndpoint, by simp [frame, SEARCH_REQUEST, word, byte, hpai]⟩
  refine ⟨hs _, fun a => hs _, ?_, ?_, ?_, ?_, ?_, ?_, ?_⟩
  · intro c
    simp only [ConnectionRequest.packet, hpai_packet, be16_eq_word]
    exact ⟨by simp [hpai, Cri.packet], hpai c.controlEndpoint ++ hpai c.dataEndpoint ++ c.cri.packet,
      by simp [frame, CONNECT_REQUEST, word, byte, hpai, Cri.packet]⟩
  · intro c
    simp only [ConnectionstateRequest.packet, hpai_packet, be16_eq_word]
    exact ⟨by simp [hpai], [c.channel, 0] ++ hpai c.controlEndpoint,
      by simp [frame, CONNECTIONSTATE_REQUEST, word, byte, hpai]⟩
  · intro c
    simp only [DisconnectRequest.packet, hpai_packet, be16_eq_word]
    exact ⟨by simp [hpai], [c.channel, 0] ++ hpai c.controlEndpoint,
      by simp [frame, DISCONNECT_REQUEST, word, byte, hpai]⟩
  · intro c
    exact ⟨by simp [DisconnectResponse.packet], [c.channel, c.status],
      by simp [DisconnectResponse.packet, be16_eq_word, frame, DISCONNECT_RESPONSE, word, byte]⟩
  · intro c
    exact ⟨by simp [TunnelingAck.packet], [4, c.channel, c.seq, c.status],
      by simp [TunnelingAck.packet, frame, TUNNELING_ACK, word, byte]⟩
  · intro c
    exact ⟨by simp [FeatureSet.packet], [4, c.channel, c.seq, 0, c.feature.code, 0, c.value],
      by simp [FeatureSet.packet, frame, TUNNELING_FEATURE_SET, word, byte]⟩
  · intro m t h
    refine ⟨_, tunnelingRequest_packet m t h, ?_, _, rfl⟩
    simp [frame]; omega

/-- The bodies of the requests the client sends (channel, endpoint, sequence number, feature at
their offsets). -/
theorem C19_bodies :
    (∀ c : ConnectionstateRequest,
      c.packet = frame CONNECTIONSTATE_REQUEST ([c.channel, 0] ++ hpai c.controlEndpoint)) ∧
    (∀ c : DisconnectRequest, c.packet = frame DISCONNECT_REQUEST ([c.channel, 0] ++ hpai c.controlEndpoint)) ∧
    (∀ c : DisconnectResponse, c.packet = frame DISCONNECT_RESPONSE [c.channel, c.status]) ∧
    (∀ c : TunnelingAck, c.packet = frame TUNNELING_ACK [4, c.channel, c.seq, c.status]) ∧
    (∀ c : FeatureSet, c.packet
      = frame TUNNELING_FEATURE_SET [4, c.channel, c.seq, 0, byte (featureCode c.feature), 0, c.value]) ∧
    (∀ a, (SearchRequest.udpUnicast a).packet = frame SEARCH_REQUEST (hpai ⟨1, a⟩)) ∧
    ConnectionRequest.tunnel.packet
      = frame CONNECT_REQUEST (hpai ⟨1, ⟨⟨0, 0, 0, 0⟩, 0⟩⟩ ++ hpai ⟨1, ⟨⟨0, 0, 0, 0⟩, 0⟩⟩ ++ [4, 4, 2, 0]) ∧
    ConnectionRequest.busmonitor.packet
      = frame CONNECT_REQUEST (hpai ⟨1, ⟨⟨0, 0, 0, 0⟩, 0⟩⟩ ++ hpai ⟨1, ⟨⟨0, 0, 0, 0⟩, 0⟩⟩ ++ [4, 4, 0x80, 0]) := by
  refine ⟨?_, ?_, ?_, ?_, ?_, ?_, by decide, by decide⟩
  · intro c
    simp only [ConnectionstateRequest.packet, hpai_packet, be16_eq_word]
    simp [frame, CONNECTIONSTATE_REQUEST, word, byte, hpai]
  · intro c
    simp only [DisconnectRequest.packet, hpai_packet, be16_eq_word]
    simp [frame, DISCONNECT_REQUEST, word, byte, hpai]
  · intro c
    simp [DisconnectResponse.packet, be16_eq_word, frame, DISCONNECT_RESPONSE, word, byte]
  · intro c
    simp [TunnelingAck.packet, frame, TUNNELING_ACK, word, byte]
  · intro c
    have : c.feature.code = byte (featureCode c.feature) := by cases c.feature <;> rfl
    simp [FeatureSet.packet, frame, TUNNELING_FEATURE_SET, word, byte, this]
  · intro a
    simp only [SearchRequest.packet, hpai_packet, be16_eq_word]
    simp [frame, SEARCH_REQUEST, word, byte, hpai, SearchRequest.udpUnicast, Hpai.udp, Hpai.setAddr]

/-! ## C20, C21, C22: `parse_response` -/

theorem runRd_ok_iff {α β : Type} {p : Rd α} {f : α → β} {r : Bytes} {b : β} :
    runRd p f r = .ok b ↔ ∃ a r', p r = .ok (a, r') ∧ b = f a := by
  unfold runRd
  cases h : p r with
  | ok x =>
    obtain ⟨a, r'⟩ := x
    simp only [Res.ok.injEq, Prod.mk.injEq]
    constructor
    · rintro rfl; exact ⟨a, r', ⟨rfl, rfl⟩, rfl⟩
    · rintro ⟨_, _, ⟨rfl, rfl⟩, rfl⟩; rfl
  | err => simp
  | panic => simp

theorem runRd_panic_iff {α β : Type} {p : Rd α} {f : α → β} {r : Bytes} :
    runRd p f r = .panic ↔ p r = .panic := by
  unfold runRd
  cases h : p r with
  | ok x => simp
  | err => simp
  | panic => simp

/-- C21 (and C22): `parse_response` succeeds on exactly the byte strings that start with a frame
of one of the five kinds of `Decodes`, and returns exactly that message; the service code decides
the kind and every field is the one at its offset. -/
theorem C21_dispatch_exact (r : Bytes) (x : Response) : parseResponse r = .ok x ↔ Decodes r x := by
  constructor
  · intro h
    unfold parseResponse at h
    split at h
    · rename_i b1 b2 c1 c2 tl
      split at h
      · obtain ⟨t, r', h1, rfl⟩ := runRd_ok_iff.1 h
        obtain ⟨len, pad, rest, h2, h3, h4, h5, _⟩ := TunnelingRequest.fromPacket_iff.1 h1
        rw [h4]
        have := Decodes.tunnelingRequest t.channel t.seq pad len rest h2 h3
        rw [← h5] at this
        exact this
      · split at h
        · obtain ⟨t, r', h1, rfl⟩ := runRd_ok_iff.1 h
          rw [TunnelingAck.fromPacket_iff.1 h1]
          exact .tunnelingAck _ _ _ _
        · split at h
          · obtain ⟨t, r', h1, rfl⟩ := runRd_ok_iff.1 h
            obtain ⟨res, h2⟩ := FeatureResp.fromPacket_iff.1 h1
            rw [h2]
            exact .featureResponse _ _ _ _ _ _ _
          · split at h
            · obtain ⟨t, r', h1, rfl⟩ := runRd_ok_iff.1 h
              rw [DisconnectResponse.fromPacket_iff.1 h1]
              exact .disconnectResponse _ _ _
            · split at h
              · obtain ⟨t, r', h1, rfl⟩ := runRd_ok_iff.1 h
                rw [ConnectionstateResponse.fromPacket_iff.1 h1]
                exact .connectionstateResponse _ _ _
              · split at h
                · rename_i hc
                  exfalso
                  obtain ⟨t, r', h1, rfl⟩ := runRd_ok_iff.1 h
                  obtain ⟨b, res, _, h2⟩ := DisconnectRequest.fromPacket_iff.1 h1
                  simp only [hpai, List.cons_append, List.nil_append, List.cons.injEq] at h2 hc
                  have h8 := h2.2.2.2.1
                  rw [hc.2.1] at h8
                  exact absurd h8 (by decide)
                · cases h
    · cases h
  · intro h
    cases h with
    | tunnelingRequest channel seq pad len rest h1 h2 =>
      have : TunnelingRequest.fromPacket (header TUNNELING_REQUEST len ++ [4, channel, seq, pad] ++ rest)
          = .ok (⟨channel, seq, padded (len - 10) rest⟩, rest.drop (len - 10)) :=
        TunnelingRequest.fromPacket_iff.2 ⟨len, pad, rest, h1, h2, rfl, rfl, rfl⟩
      have h3 := (runRd_ok_iff (f := Response.tunnelingRequest)).2 ⟨_, _, this, rfl⟩
      simp only [header, TUNNELING_REQUEST, word, byte, List.cons_append, List.nil_append] at h3 ⊢
      simpa [parseResponse] using h3
    | tunnelingAck channel seq status rest =>
      have := (TunnelingAck.fromPacket_iff (t := ⟨channel, seq, status⟩)).2
        (rfl : _ = frame TUNNELING_ACK [4, channel, seq, status] ++ rest)
      have h3 := (runRd_ok_iff (f := Response.tunnelingAck)).2 ⟨_, _, this, rfl⟩
      simp only [frame, TUNNELING_ACK, word, byte, List.cons_append, List.nil_append] at h3 ⊢
      simpa [parseResponse] using h3
    | featureResponse channel seq res status value f rest =>
      have := (FeatureResp.fromPacket_iff (f := ⟨f, value, status, channel, seq⟩)).2
        ⟨res, (rfl : _ = frame TUNNELING_FEATURE_RESPONSE
          [4, channel, seq, res, byte (featureCode f), status, value] ++ rest)⟩
      have h3 := (runRd_ok_iff (f := Response.featureResponse)).2 ⟨_, _, this, rfl⟩
      simp only [frame, TUNNELING_FEATURE_RESPONSE, word, byte, List.cons_append, List.nil_append] at h3 ⊢
      simpa [parseResponse] using h3
    | connectionstateResponse channel status rest =>
      have := (ConnectionstateResponse.fromPacket_iff (c := ⟨channel, status⟩)).2
        (rfl : _ = frame CONNECTIONSTATE_RESPONSE [channel, status] ++ rest)
      have h3 := (runRd_ok_iff (f := Response.connectionstateResponse)).2 ⟨_, _, this, rfl⟩
      simp only [frame, CONNECTIONSTATE_RESPONSE, word, byte, List.cons_append, List.nil_append] at h3 ⊢
      simpa [parseResponse] using h3
    | disconnectResponse channel status rest =>
      have := (DisconnectResponse.fromPacket_iff (c := ⟨channel, status⟩)).2
        (rfl : _ = frame DISCONNECT_RESPONSE [channel, status] ++ rest)
      have h3 := (runRd_ok_iff (f := Response.disconnectResponse)).2 ⟨_, _, this, rfl⟩
      simp only [frame, DISCONNECT_RESPONSE, word, byte, List.cons_append, List.nil_append] at h3 ⊢
      simpa [parseResponse] using h3

example : parseResponse [6, 0x10, 4, 0x20, 0, 12, 4, 9, 3, 0, 0x29, 0] = .ok (.tunnelingRequest ⟨9, 3, [0x29, 0]⟩) :=
  by decide

/-- C20, the exact set of panicking inputs: tunneling requests that declare a total length below
ten. (The full property "never panics" is therefore false.) -/
theorem C20_panics_iff (r : Bytes) :
    parseResponse r = .panic ↔ ∃ (len : Nat) (channel seq pad : U8) (rest : Bytes),
      len < 10 ∧ r = header TUNNELING_REQUEST len ++ [4, channel, seq, pad] ++ rest := by
  rw [← TunnelingRequest.fromPacket_panic_iff]
  constructor
  · intro h
    unfold parseResponse at h
    repeat' split at h
    all_goals first
      | cases h; done
      | (rw [runRd_panic_iff] at h; first
          | exact h
          | exact absurd h TunnelingAck.fromPacket_no_panic
          | exact absurd h FeatureResp.fromPacket_no_panic
          | exact absurd h DisconnectResponse.fromPacket_no_panic
          | exact absurd h ConnectionstateResponse.fromPacket_no_panic
          | exact absurd h DisconnectRequest.fromPacket_no_panic)
  · intro h
    have h2 := (runRd_panic_iff (f := Response.tunnelingRequest)).2 h
    obtain ⟨len, ch, sq, pad, rest, _, rfl⟩ := TunnelingRequest.fromPacket_panic_iff.1 h
    simp only [header, TUNNELING_REQUEST, word, byte, List.cons_append, List.nil_append] at h2 ⊢
    simpa [parseResponse] using h2

/-- C20 refuted: a ten-byte datagram that makes `parse_response` panic. -/
theorem C20_violated : ¬ ∀ r, parseResponse r ≠ .panic := by
  intro h
  exact h [6, 0x10, 4, 0x20, 0, 9, 4, 1, 0, 0] (by decide)

/-- C20, the part that holds: no panic for any frame whose declared total length is at least ten
or whose service code is not TUNNELING_REQUEST. -/
theorem C20_no_panic_partial (r : Bytes)
    (h : ∀ a b c d e f rest, r = a :: b :: c :: d :: e :: f :: rest →
      ([c, d] ≠ word TUNNELING_REQUEST ∨ 10 ≤ value [e, f])) : parseResponse r ≠ .panic := by
  rw [Ne, C20_panics_iff]
  rintro ⟨len, ch, sq, pad, rest, hl, rfl⟩
  rcases h _ _ _ _ _ _ _ (by simp [header, word, TUNNELING_REQUEST]; exact ⟨rfl, rfl, rfl, rfl, rfl, rfl, rfl⟩)
    with h | h
  · exact h rfl
  · rw [value_pair, byte_toNat (by omega), byte_toNat (by omega)] at h
    omega

/-- C22 refuted: no byte string whatsoever is decoded as a disconnect request. -/
theorem C22_violated (r : Bytes) (d : DisconnectRequest) : parseResponse r ≠ .ok (.disconnectRequest d) := by
  rw [Ne, C21_dispatch_exact]
  intro h
  cases h

/-- C22, what happens instead: every well-formed DISCONNECT_REQUEST frame (followed by anything)
is rejected with an error. -/
theorem C22_disconnect_request_rejected (d : DisconnectRequest) (rest : Bytes) :
    parseResponse (frame DISCONNECT_REQUEST ([d.channel, 0] ++ hpai d.controlEndpoint) ++ rest) = .err := by
  cases h : parseResponse (frame DISCONNECT_REQUEST ([d.channel, 0] ++ hpai d.controlEndpoint) ++ rest) with
  | err => rfl
  | ok x =>
    exfalso
    rw [C21_dispatch_exact] at h
    generalize hr : frame DISCONNECT_REQUEST ([d.channel, 0] ++ hpai d.controlEndpoint) ++ rest = r at h
    cases h <;>
      simp [frame, header, word, byte, DISCONNECT_REQUEST, TUNNELING_REQUEST, TUNNELING_ACK,
        TUNNELING_FEATURE_RESPONSE, CONNECTIONSTATE_RESPONSE, DISCONNECT_RESPONSE] at hr
  | panic =>
    exfalso
    rw [C20_panics_iff] at h
    obtain ⟨len, ch, sq, pad, r, _, h⟩ := h
    simp [frame, header, word, byte, DISCONNECT_REQUEST, TUNNELING_REQUEST] at h

/-- C22: the answer the library would send is well formed (it is only never sent): a disconnect
response for the same channel with status 0. -/
theorem C22_answer (d : DisconnectRequest) :
    (DisconnectResponse.ofRequest d).packet = frame DISCONNECT_RESPONSE [d.channel, 0] := by
  rw [C19_bodies.2.2.1]; rfl

/-! ## C23 -/

/-- C23: a byte string is accepted as a CONNECT_RESPONSE exactly if it is the standard encoding
of one whose status is none of the four refusal codes (any length field of at least 8), and the
channel, status, data endpoint and address are the encoded ones; decoding never panics. -/
theorem C23_connect_response (r rest : Bytes) (c : ConnectionResponse) :
    (ConnectionResponse.fromPacket r = .ok (c, rest) ↔
      ∃ len, 8 ≤ len ∧ len < 65536 ∧ ¬ refusedStatus c.status ∧ IndInRange c.crd.address ∧
        r = connectResponse len c ++ rest) ∧
    ConnectionResponse.fromPacket r ≠ .panic :=
  ⟨ConnectionResponse.fromPacket_iff, ConnectionResponse.fromPacket_no_panic⟩

/-- C23, the two directions a user sees: standard responses are accepted, refusals are errors. -/
theorem C23_accept_reject (c : ConnectionResponse) (rest : Bytes) (hr : IndInRange c.crd.address) :
    (¬ refusedStatus c.status →
      ConnectionResponse.fromPacket (connectResponse 20 c ++ rest) = .ok (c, rest)) ∧
    (refusedStatus c.status → ConnectionResponse.fromPacket (connectResponse 20 c ++ rest) = .err) := by
  constructor
  · intro hs
    exact ConnectionResponse.fromPacket_iff.2 ⟨20, by omega, by omega, hs, hr, rfl⟩
  · intro hs
    cases h : ConnectionResponse.fromPacket (connectResponse 20 c ++ rest) with
    | err => rfl
    | panic => exact absurd h ConnectionResponse.fromPacket_no_panic
    | ok x =>
      obtain ⟨c', r'⟩ := x
      obtain ⟨len, _, _, hs', _, hb⟩ := ConnectionResponse.fromPacket_iff.1 h
      exfalso; apply hs'
      simp only [connectResponse, header, word, List.cons_append, List.nil_append, List.cons.injEq] at hb
      rw [← hb.2.2.2.2.2.2.2.1]; exact hs

example : ConnectionResponse.fromPacket
      [6, 0x10, 2, 6, 0, 0x14, 8, 0, 8, 1, 0, 0, 0, 0, 0, 0, 4, 4, 0xff, 0xf0]
    = .ok (⟨8, 0, ⟨1, ⟨⟨0, 0, 0, 0⟩, 0⟩⟩, ⟨⟨15, 15, 240⟩⟩⟩, []) := by decide

/-! ## C24

Full statement: each of the four messages decodes from its own encoding. It is false of all four. -/

theorem connectionResponse_packet_eq (c : ConnectionResponse) :
    c.packet = [0x06, 0x10, 0x02, 0x06, 0x08, c.channel, c.status] ++ hpai c.dataEndpoint
      ++ [4, 4] ++ word c.crd.address.toU16.toNat := by
  simp [ConnectionResponse.packet, hpai_packet, Crd.packet, be16_eq_word]

/-- C24 refuted for connection responses: the library's own encoding is always rejected. -/
theorem C24_connectionResponse_violated (c : ConnectionResponse) :
    ConnectionResponse.fromPacket c.packet = .err := by
  cases h : ConnectionResponse.fromPacket c.packet with
  | err => rfl
  | panic => exact absurd h ConnectionResponse.fromPacket_no_panic
  | ok x =>
    exfalso
    obtain ⟨c', r'⟩ := x
    obtain ⟨len, _, _, _, _, hb⟩ := ConnectionResponse.fromPacket_iff.1 h
    have := congrArg List.length hb
    rw [connectionResponse_packet_eq] at this
    simp [connectResponse, header, hpai_length] at this
    omega

/-- C24 refuted for feature responses: the encoder writes the service code of FEATURE_SET. -/
theorem C24_featureResp_violated (f : FeatureResp) (rest : Bytes) :
    FeatureResp.fromPacket (f.packet ++ rest) = .err := by
  cases h : FeatureResp.fromPacket (f.packet ++ rest) with
  | err => rfl
  | panic => exact absurd h FeatureResp.fromPacket_no_panic
  | ok x =>
    exfalso
    obtain ⟨c', r'⟩ := x
    obtain ⟨res, hb⟩ := FeatureResp.fromPacket_iff.1 h
    simp [FeatureResp.packet, frame, TUNNELING_FEATURE_RESPONSE, word, byte] at hb

/-- What is encoded instead: the request to set the feature to this value; the status is lost. -/
theorem C24_featureResp_exact (f : FeatureResp) :
    f.packet = frame TUNNELING_FEATURE_SET [4, f.channel, f.seq, 0, byte (featureCode f.feature), 0, f.value] := by
  have : f.feature.code = byte (featureCode f.feature) := by cases f.feature <;> decide
  simp [FeatureResp.packet, frame, TUNNELING_FEATURE_SET, word, byte, this]

/-- C24 refuted for disconnect requests: the decoder does not read the header. -/
theorem C24_disconnectRequest_violated (d : DisconnectRequest) (rest : Bytes) :
    DisconnectRequest.fromPacket (d.packet ++ rest) = .err := by
  cases h : DisconnectRequest.fromPacket (d.packet ++ rest) with
  | err => rfl
  | panic => exact absurd h DisconnectRequest.fromPacket_no_panic
  | ok x =>
    exfalso
    obtain ⟨c', r'⟩ := x
    obtain ⟨b, res, h8, hb⟩ := DisconnectRequest.fromPacket_iff.1 h
    simp only [DisconnectRequest.packet, List.cons_append, List.nil_append, List.cons.injEq] at hb
    rw [← hb.1] at h8
    exact absurd h8 (by decide)

/-! ## C25 -/

/-- C25: a byte string is accepted as a feature response exactly if it is the standard encoding
of one for a known feature (the reserved byte is ignored), with exactly these fields; unknown
feature codes are rejected; decoding never panics. -/
theorem C25_feature_response :
    (∀ r rest f, FeatureResp.fromPacket r = .ok (f, rest) ↔ ∃ res : U8,
      r = frame TUNNELING_FEATURE_RESPONSE
        [4, f.channel, f.seq, res, byte (featureCode f.feature), f.status, f.value] ++ rest) ∧
    (∀ (ch sq res code st v : U8) rest, (∀ f, code ≠ byte (featureCode f)) →
      FeatureResp.fromPacket (frame TUNNELING_FEATURE_RESPONSE [4, ch, sq, res, code, st, v] ++ rest) = .err) ∧
    (∀ r, FeatureResp.fromPacket r ≠ .panic) := by
  refine ⟨fun _ _ _ => FeatureResp.fromPacket_iff, ?_, fun _ => FeatureResp.fromPacket_no_panic⟩
  intro ch sq res code st v rest hu
  cases h : FeatureResp.fromPacket (frame TUNNELING_FEATURE_RESPONSE [4, ch, sq, res, code, st, v] ++ rest) with
  | err => rfl
  | panic => exact absurd h FeatureResp.fromPacket_no_panic
  | ok x =>
    exfalso
    obtain ⟨c', r'⟩ := x
    obtain ⟨res', hb⟩ := FeatureResp.fromPacket_iff.1 h
    simp [frame, TUNNELING_FEATURE_RESPONSE, word] at hb
    exact hu _ hb.2.2.2.1

example : FeatureResp.fromPacket [6, 0x10, 4, 0x23, 0, 0x0d, 4, 1, 2, 0, 8, 0, 1]
    = .ok (⟨.infoServiceEnable, 1, 0, 1, 2⟩, []) ∧ (∀ f, (9 : U8) ≠ byte (featureCode f)) :=
  ⟨by decide, by intro f; cases f <;> decide⟩

/-! ## C26 -/

/-- C26: search requests round trip; the multicast form names 224.0.23.12:3671 over UDP, the
unicast form names the given address. -/
theorem C26_search_request :
    (∀ (s : SearchRequest) rest, SearchRequest.fromPacket (s.packet ++ rest) = .ok (s, rest)) ∧
    SearchRequest.udp.packet = frame SEARCH_REQUEST (hpai ⟨1, ⟨⟨224, 0, 23, 12⟩, 3671⟩⟩) ∧
    (∀ a, (SearchRequest.udpUnicast a).packet = frame SEARCH_REQUEST (hpai ⟨1, a⟩)) ∧
    (∀ r, SearchRequest.fromPacket r ≠ .panic) := by
  refine ⟨?_, by decide, C19_bodies.2.2.2.2.2.1, ?_⟩
  · intro s rest
    simp only [SearchRequest.fromPacket, Rd.bind_ok_iff, Header.fromPacket_iff, Rd.ensure_ok_iff,
      Hpai.fromPacket_iff, Rd.pure_ok_iff]
    refine ⟨⟨0x0201, 14⟩, hpai s.discoveryEndpoint ++ rest, ?_, (), _, ⟨by rfl, rfl⟩, _, _, rfl, rfl, rfl⟩
    simp only [SearchRequest.packet, hpai_packet, be16_eq_word]
    simp [header, hpai, word, byte]
  · intro r
    simp [SearchRequest.fromPacket, Rd.bind_panic_iff, Header.fromPacket_no_panic, Rd.ensure_panic_iff,
      Hpai.fromPacket_no_panic]

example : (SearchRequest.udpUnicast ⟨⟨10, 0, 0, 1⟩, 5000⟩).packet
    = [6, 0x10, 2, 1, 0, 14, 8, 1, 10, 0, 0, 1, 0x13, 0x88] := by decide

end Knx
