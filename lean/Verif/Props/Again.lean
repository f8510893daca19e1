import Verif.Props.Dib

/-!
# Property C133: a packet that is decoded and encoded again is the same packet

The full statement: if a packet is decoded, then the octets of the decoded value, followed by what the decoder left, are the packet.
It is true of six kinds of packets, true of three under conditions that are given exactly, and never true of the other four.
-/

namespace Knx

open Spec

/-! ## Always the same -/

/-- C133, the part that holds without conditions: headers, endpoints, connection response data blocks, connection state responses,
disconnect responses and tunneling acknowledgements. -/
theorem C133_same_partial :
    (∀ {d h r}, Header.fromPacket d = .ok (h, r) → h.packet ++ r = d) ∧
    (∀ {d h r}, Hpai.fromPacket d = .ok (h, r) → h.packet ++ r = d) ∧
    (∀ {d c r}, Crd.fromPacket d = .ok (c, r) → c.packet ++ r = d) ∧
    (∀ {d c r}, ConnectionstateResponse.fromPacket d = .ok (c, r) → c.packet ++ r = d) ∧
    (∀ {d c r}, DisconnectResponse.fromPacket d = .ok (c, r) → c.packet ++ r = d) ∧
    (∀ {d t r}, TunnelingAck.fromPacket d = .ok (t, r) → t.packet ++ r = d) := by
  refine ⟨?_, ?_, ?_, ?_, ?_, ?_⟩
  · intro d h r e; rw [Header.fromPacket_iff.1 e, header_packet]
  · intro d h r e; rw [Hpai.fromPacket_iff.1 e, hpai_packet]
  · intro d c r e
    obtain ⟨hr, rfl⟩ := Crd.fromPacket_iff.1 e
    simp [Crd.packet, be16_eq_word, toU16_indCode hr]
  · intro d c r e
    rw [ConnectionstateResponse.fromPacket_iff.1 e]
    simp [ConnectionstateResponse.packet, frame, CONNECTIONSTATE_RESPONSE, word, byte]
  · intro d c r e
    rw [DisconnectResponse.fromPacket_iff.1 e]
    simp [DisconnectResponse.packet, frame, DISCONNECT_RESPONSE, word, byte, be16_eq_word]
  · intro d t r e
    rw [TunnelingAck.fromPacket_iff.1 e]
    simp [TunnelingAck.packet, frame, TUNNELING_ACK, word, byte]

example : TunnelingAck.fromPacket [6, 16, 4, 33, 0, 10, 4, 7, 3, 0x29, 1, 2] = .ok (⟨7, 3, 0x29⟩, [1, 2]) := by decide

/-! ## The same under conditions -/

/-- C133 for connection state requests: the same exactly if the packet says sixteen octets and its reserved octet is zero. -/
theorem C133_state_iff {d r : Bytes} {c : ConnectionstateRequest} (h : ConnectionstateRequest.fromPacket d = .ok (c, r)) :
    c.packet ++ r = d ↔ d.take 8 = [6, 16, 2, 7, 0, 16, c.channel, 0] := by
  obtain ⟨len, pad, hl, rfl⟩ := ConnectionstateRequest.fromPacket_iff.1 h
  have e : c.packet = [6, 16, 2, 7, 0, 16, c.channel, 0] ++ hpai c.controlEndpoint := by
    simp only [ConnectionstateRequest.packet, hpai_packet, hpai_length]; rfl
  rw [e, List.append_left_inj, List.append_left_inj, List.append_assoc, List.take_left' (by rfl)]
  exact eq_comm

example : ConnectionstateRequest.fromPacket [6, 16, 2, 7, 0, 99, 7, 1, 8, 1, 10, 0, 0, 9, 14, 87] =
    .ok (⟨7, ⟨1, ⟨⟨10, 0, 0, 9⟩, 3671⟩⟩⟩, []) := by decide

/-- C133 for search requests: the same exactly if the packet says fourteen octets. -/
theorem C133_search_iff {d r : Bytes} {s : SearchRequest} (h : SearchRequest.fromPacket d = .ok (s, r)) :
    s.packet ++ r = d ↔ d.take 6 = [6, 16, 2, 1, 0, 14] := by
  simp only [SearchRequest.fromPacket, Rd.bind_ok_iff, Header.fromPacket_iff, Rd.ensure_ok_iff, Hpai.fromPacket_iff, Rd.pure_ok_iff,
    beq_iff_eq] at h
  obtain ⟨hd, _, rfl, _, _, ⟨hs, rfl⟩, e, _, rfl, rfl, rfl⟩ := h
  have e2 : (SearchRequest.mk e).packet = [6, 16, 2, 1, 0, 14] ++ hpai e := by
    simp only [SearchRequest.packet, hpai_packet, hpai_length]; rfl
  rw [e2, List.append_assoc, List.append_left_inj, List.take_left' (by rfl)]
  exact eq_comm

example : SearchRequest.fromPacket [6, 16, 2, 1, 0, 0, 8, 1, 10, 0, 0, 9, 14, 87] = .ok (⟨⟨1, ⟨⟨10, 0, 0, 9⟩, 3671⟩⟩⟩, []) := by decide

/-- C133 for tunneling requests: the same exactly if the reserved octet is zero and the packet has all the octets it says it has. -/
theorem C133_tunnel_iff (m : Mode) {d r : Bytes} {t : TunnelingRequest} (h : TunnelingRequest.fromPacket d = .ok (t, r)) :
    ∃ p, t.packet m = .ok p ∧
      (p ++ r = d ↔ d[9]? = some 0 ∧ ((d.getD 4 0).toNat * 256 + (d.getD 5 0).toNat ≤ d.length)) := by
  obtain ⟨len, pad, rest, h1, h2, rfl, h3, rfl⟩ := TunnelingRequest.fromPacket_iff.1 h
  have hl : t.cemi.length = len - 10 := by rw [h3]; simp [padded]
  refine ⟨_, tunnelingRequest_packet m t (by omega), ?_⟩
  have e : frame TUNNELING_REQUEST ([4, t.channel, t.seq, 0] ++ t.cemi) =
      (header TUNNELING_REQUEST len ++ [4, t.channel, t.seq]) ++ ([0] ++ t.cemi) := by
    have : 6 + ([4, t.channel, t.seq, 0] ++ t.cemi).length = len := by simp [hl]; omega
    simp only [frame, this]
    simp [header]
  have e2 : header TUNNELING_REQUEST len ++ [4, t.channel, t.seq, pad] ++ rest =
      (header TUNNELING_REQUEST len ++ [4, t.channel, t.seq]) ++ ([pad] ++ rest) := by simp
  have e3 : (header TUNNELING_REQUEST len ++ [4, t.channel, t.seq, pad] ++ rest)[9]? = some pad := rfl
  have e4 : (header TUNNELING_REQUEST len ++ [4, t.channel, t.seq, pad] ++ rest).getD 4 0 = byte (len / 256) := rfl
  have e5 : (header TUNNELING_REQUEST len ++ [4, t.channel, t.seq, pad] ++ rest).getD 5 0 = byte (len % 256) := rfl
  have e6 : (byte (len / 256)).toNat * 256 + (byte (len % 256)).toNat = len := by
    simp only [byte, BitVec.toNat_ofNat]; omega
  have e7 : (header TUNNELING_REQUEST len ++ [4, t.channel, t.seq, pad] ++ rest).length = 10 + rest.length := by
    simp [header, word]; omega
  rw [e3, e4, e5, e6, e7, e, e2, List.append_assoc, List.append_right_inj, List.append_assoc, List.cons_append, List.cons_append,
    List.cons.injEq, List.nil_append, List.nil_append, h3, Option.some.injEq, eq_comm (a := (0 : U8))]
  refine and_congr_right fun _ => ⟨fun q => ?_, fun q => ?_⟩
  · have := congrArg List.length q
    simp [padded] at this
    omega
  · have : padded (len - 10) rest = rest.take (len - 10) := by
      rw [padded, List.take_append_of_le_length (by omega)]
    rw [this, List.take_append_drop]

/-! ## Never the same -/

/-- C133 refuted for connection responses: the encoder writes a length of one octet. -/
theorem C133_violated_connect {d r : Bytes} {c : ConnectionResponse} (h : ConnectionResponse.fromPacket d = .ok (c, r)) :
    c.packet ++ r ≠ d := by
  obtain ⟨len, _, _, _, _, rfl⟩ := ConnectionResponse.fromPacket_iff.1 h
  intro e
  have := congrArg List.length e
  rw [connectionResponse_packet_eq] at this
  simp [connectResponse, header, hpai_length] at this
  omega

example : ConnectionResponse.fromPacket [6, 16, 2, 6, 0, 20, 8, 0, 8, 1, 0, 0, 0, 0, 0, 0, 4, 4, 0xff, 0xf0] =
    .ok (⟨8, 0, ⟨1, ⟨⟨0, 0, 0, 0⟩, 0⟩⟩, ⟨⟨15, 15, 240⟩⟩⟩, []) := by decide

/-- C133 refuted for disconnect requests: the decoder expects no header, the encoder writes one. -/
theorem C133_violated_disconnect {d r : Bytes} {c : DisconnectRequest} (h : DisconnectRequest.fromPacket d = .ok (c, r)) :
    c.packet ++ r ≠ d := by
  obtain ⟨b, res, hb, rfl⟩ := DisconnectRequest.fromPacket_iff.1 h
  intro e
  have := congrArg List.head? e
  simp [DisconnectRequest.packet] at this
  subst this; simp at hb

example : DisconnectRequest.fromPacket [8, 7, 0, 8, 1, 10, 0, 0, 9, 14, 87] = .ok (⟨7, ⟨1, ⟨⟨10, 0, 0, 9⟩, 3671⟩⟩⟩, []) := by decide

/-- C133 refuted for feature responses: the encoder writes another service. -/
theorem C133_violated_feature {d r : Bytes} {f : FeatureResp} (h : FeatureResp.fromPacket d = .ok (f, r)) : f.packet ++ r ≠ d := by
  obtain ⟨res, rfl⟩ := FeatureResp.fromPacket_iff.1 h
  simp [FeatureResp.packet, frame, TUNNELING_FEATURE_RESPONSE, word, byte]

example : FeatureResp.fromPacket [6, 16, 4, 0x23, 0, 13, 4, 7, 0, 0, 8, 0, 1] = .ok (⟨.infoServiceEnable, 1, 0, 7, 0⟩, []) := by decide

/-- C133 refuted for search responses: the encoder leaves out the headers of the two blocks. -/
theorem C133_violated_response {m : Mode} {d r : Bytes} {s : SearchResponse} (h : SearchResponse.fromPacket m d = .ok (s, r)) :
    s.packet ++ r ≠ d := by
  intro e
  obtain ⟨len, st, _, _, _, _, _, _, _, hb⟩ := searchResponse_iff.1 h
  have := congrArg List.length (e.trans hb)
  simp [SearchResponse.packet, header, hpai_length, hpai_packet, deviceInfo_packet_length, families_packet,
    deviceInfoBody_length, familiesBody_length] at this
  omega

example (m : Mode) : ∃ s, SearchResponse.fromPacket m
    ([6, 16, 2, 2, 0, 72, 8, 1, 192, 168, 1, 2, 14, 87, 54, 1, 2, 0, 0x11, 0x0b, 0, 0, 1, 2, 3, 4, 5, 6, 224, 0, 23, 12, 1, 2, 3, 4, 5, 6] ++
      List.replicate 30 65 ++ [4, 2, 2, 1]) = .ok (s, []) := by
  cases m <;> exact ⟨_, rfl⟩

/-! ## Description blocks -/

/-- A decoded block: its length, its type, its octets; of the status of a device only the lowest bit is kept. -/
theorem dib_taken {m : Mode} {d r : Bytes} {b : Dib} (h : Dib.fromPacket m d = .ok (b, r)) :
    ∃ l body, d = l :: byte (dibCode b) :: (body ++ r) ∧ body.length = (dibBody b).length ∧
      (∀ i, b = .deviceInformation i → IndInRange i.address) ∧
      (body = dibBody b ↔ (dibCode b = 1 → ∃ s, body[1]? = some s ∧ s.toNat < 2)) := by
  simp only [Dib.fromPacket, Rd.bind_ok_iff, Rd.u8_ok_iff, Rd.lift_ok_iff, DescType.ofU8_iff] at h
  obtain ⟨l, _, rfl, t, _, rfl, ty, _, ⟨rfl, rfl⟩, h⟩ := h
  cases ty <;> simp only [Rd.bind_ok_iff, Rd.pure_ok_iff] at h <;> obtain ⟨a, r2, h1, rfl, rfl⟩ := h
  · obtain ⟨_, _, h3, st, h4, rfl⟩ := DeviceInfo.fromPacket_iff.1 h1
    refine ⟨l, _, rfl, by simp [dibBody, deviceInfoBody_length], ?_, ?_⟩
    · intro i e; cases e; exact h3
    · have hs : st &&& 1 = st ↔ st.toNat < 2 := by
        clear h4 h1; revert st; decide
      simp only [dibBody, dibCode, deviceInfoBody, h4]
      simp only [List.append_assoc, List.append_left_inj, List.cons.injEq, and_true, true_and, forall_const]
      constructor
      · intro q; exact ⟨st, rfl, hs.1 q.symm⟩
      · rintro ⟨s, q, hq⟩
        have q : some st = some s := q
        cases q
        exact (hs.2 hq).symm
  · obtain ⟨_, _, _, _, rfl⟩ := ServiceFamilies.fromPacket_iff.1 h1
    exact ⟨l, _, rfl, rfl, (fun i e => by cases e), by simp [dibBody, dibCode]⟩
  · obtain ⟨_, _, rfl⟩ := IpConfig.fromPacket_iff.1 h1
    exact ⟨l, _, rfl, rfl, (fun i e => by cases e), by simp [dibCode]⟩
  · obtain ⟨_, _, rfl⟩ := IpCurrentConfig.fromPacket_iff.1 h1
    exact ⟨l, _, rfl, rfl, (fun i e => by cases e), by simp [dibCode]⟩
  · obtain ⟨_, _, rfl⟩ := KnxAddresses.fromPacket_imp h1
    exact ⟨l, _, rfl, rfl, (fun i e => by cases e), by simp [dibCode]⟩
  · obtain ⟨_, _, rfl⟩ := ManufacturerData.fromPacket_imp h1
    exact ⟨l, _, rfl, rfl, (fun i e => by cases e), by simp [dibCode]⟩

/-- C133 for description blocks: the same exactly if the length octet is the number of octets taken (modulo 256), this number is even, and
the status octet of a device has no other bit than the lowest. -/
theorem C133_dib_iff {m : Mode} {d r : Bytes} {b : Dib} (h : Dib.fromPacket m d = .ok (b, r)) :
    b.packet ++ r = d ↔ d[0]? = some (BitVec.ofNat 8 (d.length - r.length)) ∧ (d.length - r.length) % 2 = 0 ∧
      (d[1]? = some 1 → ∃ s, d[3]? = some s ∧ s.toNat < 2) := by
  obtain ⟨l, body, rfl, h1, h2, h3⟩ := dib_taken h
  rw [dib_packet b h2]
  have e1 : (l :: byte (dibCode b) :: (body ++ r)).length - r.length = 2 + (dibBody b).length := by
    simp; omega
  have e2 : (l :: byte (dibCode b) :: (body ++ r))[0]? = some l := rfl
  have e3 : (l :: byte (dibCode b) :: (body ++ r))[1]? = some (byte (dibCode b)) := rfl
  have hc : byte (dibCode b) = 1 ↔ dibCode b = 1 := by cases b <;> simp [dibCode, byte]
  rw [e1, e2, e3, Option.some.injEq, Option.some.injEq, hc]
  have hq : (dibCode b = 1 → ∃ s, (l :: byte (dibCode b) :: (body ++ r))[3]? = some s ∧ s.toNat < 2) ↔ body = dibBody b := by
    rw [h3]
    refine forall_congr' fun hb => ?_
    have : 1 < body.length := by
      rw [h1]; cases b <;> simp [dibCode] at hb
      simp [dibBody, deviceInfoBody_length]
    simp [List.getElem?_append_left this]
  rw [hq]
  have e4 : (2 + (dibBody b).length) % 2 = 0 ↔ (dibBody b).length % 2 = 0 := by omega
  rw [e4]
  by_cases hp : (dibBody b).length % 2 = 0
  · simp only [hp, if_true, List.append_nil, dib, List.cons_append, List.nil_append, List.cons.injEq, true_and, List.append_left_inj]
    simp only [byte, eq_comm]
  · simp only [hp, if_false, false_and, and_false, iff_false]
    intro q
    have := congrArg List.length q
    simp [dib] at this
    omega

/-- The length octet of this block of service families is five, but it takes four octets; so it is not the same. -/
example (m : Mode) : Dib.fromPacket m [5, 2, 2, 1, 7] = .ok (.supportedServiceFamilies ⟨5, .supportedServiceFamilies, [⟨2, 1⟩]⟩, [7]) := by
  cases m <;> rfl

example : (Dib.supportedServiceFamilies ⟨5, .supportedServiceFamilies, [⟨2, 1⟩]⟩).packet = [4, 2, 2, 1] := rfl

/-- C133 refuted for manufacturer data: the length octet of a block that is decoded never is the number of octets taken. -/
theorem C133_violated_manufacturer {m : Mode} {d r : Bytes} {x : ManufacturerData}
    (h : Dib.fromPacket m d = .ok (.manufacturerData x, r)) : (Dib.manufacturerData x).packet ++ r ≠ d := by
  rw [Ne, C133_dib_iff h]
  rintro ⟨h1, -, -⟩
  simp only [Dib.fromPacket, Rd.bind_ok_iff, Rd.u8_ok_iff, Rd.lift_ok_iff, DescType.ofU8_iff] at h
  obtain ⟨l, _, rfl, t, _, rfl, ty, _, ⟨rfl, rfl⟩, h⟩ := h
  cases ty <;> simp only [Rd.bind_ok_iff, Rd.pure_ok_iff] at h <;> obtain ⟨a, r2, h2, h3, rfl⟩ := h <;> cases h3
  obtain ⟨_, h4, rfl⟩ := ManufacturerData.fromPacket_imp h2
  have h1 : some l = _ := h1
  rw [Option.some.injEq] at h1
  have := congrArg BitVec.toNat h1
  simp [dibBody] at this
  omega

example (m : Mode) : ∃ x, Dib.fromPacket m [2, 254, 0, 7, 1, 2] = .ok (.manufacturerData x, []) := by
  cases m <;> exact ⟨_, rfl⟩

/-- C133 for KNX addresses: the same only in release builds, and only if the length octet is two (it then takes 127 further addresses). -/
theorem C133_addresses_iff {m : Mode} {d r : Bytes} {k : KnxAddresses}
    (h : Dib.fromPacket m d = .ok (.knxAddresses k, r)) : (Dib.knxAddresses k).packet ++ r = d ↔ m = .release ∧ d[0]? = some 2 := by
  rw [C133_dib_iff h]
  simp only [Dib.fromPacket, Rd.bind_ok_iff, Rd.u8_ok_iff, Rd.lift_ok_iff, DescType.ofU8_iff] at h
  obtain ⟨l, _, rfl, t, _, rfl, ty, _, ⟨rfl, rfl⟩, h⟩ := h
  cases ty <;> simp only [Rd.bind_ok_iff, Rd.pure_ok_iff] at h <;> obtain ⟨a, r2, h2, h3, rfl⟩ := h <;> cases h3
  obtain ⟨_, h4, rfl⟩ := KnxAddresses.fromPacket_imp h2
  have hb : (dibBody (.knxAddresses k)).length = 4 + 4 * k.additional.length := by
    have : ((k.additional.map ip4).flatten).length = 4 * k.additional.length := by
      generalize k.additional = as
      induction as with
      | nil => rfl
      | cons a as ih => simp [ip4] at ih ⊢; omega
    simp [dibBody, ip4] at this ⊢; omega
  have hm : m = .debug → 4 ≤ l.toNat := by
    intro hm
    refine Nat.le_of_not_lt fun hl => ?_
    have : KnxAddresses.fromPacket m l (dibBody (.knxAddresses k) ++ r) = .panic :=
      KnxAddresses.fromPacket_panic_iff.2 ⟨hm, by omega, by rw [List.length_append, hb]; omega⟩
    rw [this] at h2; cases h2
  have e1 : (l :: DescType.knxAddresses.code :: (dibBody (.knxAddresses k) ++ r)).length - r.length = 6 + 4 * k.additional.length := by
    simp [hb]; omega
  have e2 : (l :: DescType.knxAddresses.code :: (dibBody (.knxAddresses k) ++ r))[0]? = some l := rfl
  have e3 : (l :: DescType.knxAddresses.code :: (dibBody (.knxAddresses k) ++ r))[1]? = some 5 := rfl
  rw [e1, e2, e3, Option.some.injEq, Option.some.injEq, Option.some.injEq]
  have hl := l.isLt
  have h5 : (l - 4).toNat = (252 + l.toNat) % 256 := by
    rw [BitVec.toNat_sub]; simp
  rw [h5] at h4
  have q : ∀ n, l = BitVec.ofNat 8 n ↔ l.toNat = n % 256 := fun n => by
    rw [← BitVec.toNat_inj, BitVec.toNat_ofNat]
  have q2 : l = 2 ↔ l.toNat = 2 := q 2
  rw [q, q2]
  constructor
  · rintro ⟨h6, _, _⟩
    cases m with
    | debug => have := hm rfl; omega
    | release => exact ⟨rfl, by omega⟩
  · rintro ⟨_, h6⟩
    refine ⟨by omega, by omega, ?_⟩
    intro h; cases h

example (m : Mode) : ∃ k, Dib.fromPacket m [6, 5, 1, 2, 3, 4, 5, 6, 7, 8] = .ok (.knxAddresses k, []) := by
  cases m <;> exact ⟨_, rfl⟩

/-- C133, the part of the description blocks: those of a device with no reserved status bit set, of service families, of the address
settings are the same if their length octet is the one of the standard. -/
theorem C133_blocks_partial {m : Mode} {d r : Bytes} {b : Dib} (h : Dib.fromPacket m d = .ok (b, r)) (hk : RoundTrips b)
    (hl : d[0]? = some (byte (2 + (dibBody b).length))) (hs : ∀ i, b = .deviceInformation i → ∃ s, d[3]? = some s ∧ s.toNat < 2) :
    b.packet ++ r = d := by
  obtain ⟨l, body, rfl, h1, h2, h3⟩ := dib_taken h
  rw [C133_dib_iff h]
  have e1 : (l :: byte (dibCode b) :: (body ++ r)).length - r.length = 2 + (dibBody b).length := by
    simp; omega
  rw [e1]
  refine ⟨hl, ?_, ?_⟩
  · cases b with
    | deviceInformation i => simp [dibBody, deviceInfoBody_length]
    | supportedServiceFamilies s => simp [dibBody, familiesBody_length]
    | ipConfig c => simp [dibBody, ip4]
    | ipCurrentConfig c => simp [dibBody, ip4]
    | knxAddresses k => exact hk.elim
    | manufacturerData x => exact hk.elim
  · intro q
    have q : some (byte (dibCode b)) = some 1 := q
    cases b with
    | deviceInformation i => exact hs i rfl
    | _ => cases q

/-! ## Once encoded again, always the same -/

/-- C133: every tunneling request that is accepted, even one that is cut short, can be encoded again, and what is then sent is decoded
to the same request. -/
theorem C133_tunnel_again (m : Mode) {d r : Bytes} {t : TunnelingRequest} (h : TunnelingRequest.fromPacket d = .ok (t, r)) (e : Bytes) :
    ∃ p, t.packet m = .ok p ∧ TunnelingRequest.fromPacket (p ++ e) = .ok (t, e) := by
  obtain ⟨len, pad, rest, h1, h2, rfl, h3, rfl⟩ := TunnelingRequest.fromPacket_iff.1 h
  have hl : t.cemi.length = len - 10 := by rw [h3]; simp [padded]
  exact C18_tunneling_roundtrip.2 m t e (by omega)

/-- A request that says it has twelve octets, and has eleven. -/
example : TunnelingRequest.fromPacket [6, 16, 4, 32, 0, 12, 4, 7, 3, 9, 0x29] = .ok (⟨7, 3, [0x29, 0]⟩, []) := by decide

/-- The block with the length octet that the encoder writes. -/
def relength : Dib → Dib
  | .deviceInformation i => .deviceInformation { i with structureLength := 54 }
  | .supportedServiceFamilies s => .supportedServiceFamilies { s with structureLength := byte (2 + 2 * s.families.length) }
  | .ipConfig c => .ipConfig { c with structureLength := 16 }
  | .ipCurrentConfig c => .ipCurrentConfig { c with structureLength := 20 }
  | b => b

/-- C133: a block of the four kinds that is accepted is, encoded again, accepted again by the same build; only its length octet may have
become another. -/
theorem C133_blocks_again {m : Mode} {d r : Bytes} {b : Dib} (h : Dib.fromPacket m d = .ok (b, r)) (hk : RoundTrips b) (e : Bytes) :
    Dib.fromPacket m (b.packet ++ e) = .ok (relength b, e) := by
  obtain ⟨-, -, -, -, h2, -⟩ := dib_taken h
  simp only [Dib.fromPacket, Rd.bind_ok_iff, Rd.u8_ok_iff, Rd.lift_ok_iff, DescType.ofU8_iff] at h
  obtain ⟨l, _, rfl, t, _, rfl, ty, _, ⟨rfl, rfl⟩, h⟩ := h
  cases ty <;> simp only [Rd.bind_ok_iff, Rd.pure_ok_iff] at h <;> obtain ⟨a, r2, h1, rfl, rfl⟩ := h
  · obtain ⟨_, h4, h5, st, h6, -⟩ := DeviceInfo.fromPacket_iff.1 h1
    have : (Dib.deviceInformation a).packet = (relength (.deviceInformation a)).packet := rfl
    rw [this]
    refine C28_dib_roundtrip_partial m _ e ⟨h4, by simp [relength, dibBody, deviceInfoBody_length, Dib.structureLength], ?_⟩ trivial
    intro i hi
    cases hi
    refine ⟨h5, ?_⟩
    have hs : ∀ x : U8, (x &&& 1).toNat < 2 := by decide
    simp only [h6]; exact hs st
  · obtain ⟨_, h4, h5, h6, -⟩ := ServiceFamilies.fromPacket_iff.1 h1
    rw [dib_packet _ h2]
    simp only [relength]
    rw [dib_families_iff]
    have hl := l.isLt
    have h7 : (l - 2).toNat = (254 + l.toNat) % 256 := by rw [BitVec.toNat_sub]; simp
    rw [h7] at h6
    refine ⟨familiesBody a.families ++ e, ?_, ServiceFamilies.fromPacket_iff.2 ⟨rfl, h4, ?_, ?_, rfl⟩⟩
    · simp [dib, dibCode, dibBody, familiesBody_length, byte]
    · intro hm
      have := h5 hm
      simp only [byte, BitVec.toNat_ofNat]; omega
    · have h8 : (byte (2 + 2 * a.families.length) - 2).toNat = (254 + (2 + 2 * a.families.length) % 256) % 256 := by
        rw [BitVec.toNat_sub]; simp [byte]
      rw [h8]
      show a.families.length = _
      omega
  · obtain ⟨_, h4, -⟩ := IpConfig.fromPacket_iff.1 h1
    exact C28_dib_roundtrip_partial m (relength (.ipConfig a)) e ⟨h4, by simp [relength, dibBody, ip4, Dib.structureLength], fun i hi => by cases hi⟩ trivial
  · obtain ⟨_, h4, -⟩ := IpCurrentConfig.fromPacket_iff.1 h1
    exact C28_dib_roundtrip_partial m (relength (.ipCurrentConfig a)) e ⟨h4, by simp [relength, dibBody, ip4, Dib.structureLength], fun i hi => by cases hi⟩ trivial
  · exact hk.elim
  · exact hk.elim

end Knx
