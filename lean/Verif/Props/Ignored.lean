import Verif.Props.Again

/-!
# Property C138: the octets of a packet that its decoder ignores

The full statement: two packets that are accepted as the same message, with the same rest, are the same packet.
It is true of six kinds of packets; of the others the octets are given that do not matter: two packets are accepted as the same message
exactly if they are the same without these octets.
Search responses and description blocks are not treated here.
-/

namespace Knx

open Spec

/-- A packet without `n` octets from octet `i` on. -/
def skipping (i n : Nat) (d : Bytes) : Bytes := d.take i ++ d.drop (i + n)

/-! ## Nothing is ignored -/

/-- C138, the part that holds without exceptions: headers, endpoints, connection response data blocks, connection state responses,
disconnect responses and tunneling acknowledgements. -/
theorem C138_partial :
    (∀ {d d' h r}, Header.fromPacket d = .ok (h, r) → Header.fromPacket d' = .ok (h, r) → d = d') ∧
    (∀ {d d' h r}, Hpai.fromPacket d = .ok (h, r) → Hpai.fromPacket d' = .ok (h, r) → d = d') ∧
    (∀ {d d' c r}, Crd.fromPacket d = .ok (c, r) → Crd.fromPacket d' = .ok (c, r) → d = d') ∧
    (∀ {d d' c r}, ConnectionstateResponse.fromPacket d = .ok (c, r) → ConnectionstateResponse.fromPacket d' = .ok (c, r) → d = d') ∧
    (∀ {d d' c r}, DisconnectResponse.fromPacket d = .ok (c, r) → DisconnectResponse.fromPacket d' = .ok (c, r) → d = d') ∧
    (∀ {d d' t r}, TunnelingAck.fromPacket d = .ok (t, r) → TunnelingAck.fromPacket d' = .ok (t, r) → d = d') := by
  refine ⟨?_, ?_, ?_, ?_, ?_, ?_⟩
  · intro d d' h r e e'; rw [Header.fromPacket_iff.1 e, Header.fromPacket_iff.1 e']
  · intro d d' h r e e'; rw [Hpai.fromPacket_iff.1 e, Hpai.fromPacket_iff.1 e']
  · intro d d' c r e e'; rw [(Crd.fromPacket_iff.1 e).2, (Crd.fromPacket_iff.1 e').2]
  · intro d d' c r e e'; rw [ConnectionstateResponse.fromPacket_iff.1 e, ConnectionstateResponse.fromPacket_iff.1 e']
  · intro d d' c r e e'; rw [DisconnectResponse.fromPacket_iff.1 e, DisconnectResponse.fromPacket_iff.1 e']
  · intro d d' t r e e'; rw [TunnelingAck.fromPacket_iff.1 e, TunnelingAck.fromPacket_iff.1 e']

/-! ## Connection state requests: the length and the octet behind the channel -/

theorem skipping_state (len : Nat) (ch pad : U8) (t : Bytes) :
    skipping 4 2 (skipping 7 1 (header CONNECTIONSTATE_REQUEST len ++ [ch, pad] ++ t)) = [6, 0x10, 2, 7, ch] ++ t := by
  simp [skipping, header, word, CONNECTIONSTATE_REQUEST, byte]

/-- C138: of a connection state request the length and the octet behind the channel do not matter. -/
theorem C138_state_iff {d d' r r' : Bytes} {c c' : ConnectionstateRequest} (h : ConnectionstateRequest.fromPacket d = .ok (c, r))
    (h' : ConnectionstateRequest.fromPacket d' = .ok (c', r')) :
    (c, r) = (c', r') ↔ skipping 4 2 (skipping 7 1 d) = skipping 4 2 (skipping 7 1 d') := by
  obtain ⟨len, pad, -, rfl⟩ := ConnectionstateRequest.fromPacket_iff.1 h
  obtain ⟨len', pad', -, rfl⟩ := ConnectionstateRequest.fromPacket_iff.1 h'
  rw [List.append_assoc, List.append_assoc _ _ r', skipping_state, skipping_state]
  constructor
  · intro e; cases e; rfl
  · intro e
    simp only [List.cons_append, List.nil_append, List.cons.injEq, true_and] at e
    have h1 := ConnectionstateRequest.fromPacket_iff.2 ⟨0, 0, by decide, (rfl : _ = header CONNECTIONSTATE_REQUEST 0 ++ [c.channel, 0]
      ++ hpai c.controlEndpoint ++ r)⟩
    have h2 := ConnectionstateRequest.fromPacket_iff.2 ⟨0, 0, by decide, (rfl : _ = header CONNECTIONSTATE_REQUEST 0 ++ [c'.channel, 0]
      ++ hpai c'.controlEndpoint ++ r')⟩
    rw [List.append_assoc, e.1, e.2, ← List.append_assoc, h2] at h1
    exact (Res.ok.inj h1).symm

/-- What does not matter may be anything. -/
theorem C138_state_any {d r : Bytes} {c : ConnectionstateRequest} (h : ConnectionstateRequest.fromPacket d = .ok (c, r)) (len : Nat)
    (hl : len < 65536) (pad : U8) :
    ConnectionstateRequest.fromPacket (d.take 4 ++ word len ++ (d.drop 6).take 1 ++ [pad] ++ d.drop 8) = .ok (c, r) := by
  obtain ⟨len', pad', -, rfl⟩ := ConnectionstateRequest.fromPacket_iff.1 h
  refine ConnectionstateRequest.fromPacket_iff.2 ⟨len, pad, hl, ?_⟩
  simp [header, word]

/-! ## Search requests: the length -/

theorem searchRequest_iff {d r : Bytes} {s : SearchRequest} : SearchRequest.fromPacket d = .ok (s, r) ↔
    ∃ l : U16, d = header SEARCH_REQUEST l.toNat ++ hpai s.discoveryEndpoint ++ r := by
  simp only [SearchRequest.fromPacket, Rd.bind_ok_iff, Header.fromPacket_iff, Rd.ensure_ok_iff, Hpai.fromPacket_iff, Rd.pure_ok_iff,
    beq_iff_eq]
  constructor
  · rintro ⟨⟨s, l⟩, _, rfl, _, _, ⟨rfl, rfl⟩, e, _, rfl, rfl, rfl⟩
    exact ⟨l, by simp [SEARCH_REQUEST]⟩
  · rintro ⟨l, rfl⟩
    exact ⟨⟨0x0201, l⟩, _, by simp [SEARCH_REQUEST], (), _, ⟨rfl, rfl⟩, _, _, rfl, rfl, rfl⟩

theorem skipping_search (len : Nat) (t : Bytes) : skipping 4 2 (header SEARCH_REQUEST len ++ t) = [6, 0x10, 2, 1] ++ t := by
  simp [skipping, header, word, SEARCH_REQUEST, byte]

/-- C138: of a search request the length does not matter. -/
theorem C138_search_iff {d d' r r' : Bytes} {s s' : SearchRequest} (h : SearchRequest.fromPacket d = .ok (s, r))
    (h' : SearchRequest.fromPacket d' = .ok (s', r')) : (s, r) = (s', r') ↔ skipping 4 2 d = skipping 4 2 d' := by
  obtain ⟨l, rfl⟩ := searchRequest_iff.1 h
  obtain ⟨l', rfl⟩ := searchRequest_iff.1 h'
  rw [List.append_assoc, List.append_assoc _ _ r', skipping_search, skipping_search]
  constructor
  · intro e; cases e; rfl
  · intro e
    have e := List.append_cancel_left e
    have h1 := searchRequest_iff.2 ⟨l', (rfl : _ = header SEARCH_REQUEST l'.toNat ++ hpai s.discoveryEndpoint ++ r)⟩
    rw [List.append_assoc, e, ← List.append_assoc, h'] at h1
    exact (Res.ok.inj h1).symm

/-! ## Connection responses: the length -/

theorem skipping_connect (len : Nat) (c : ConnectionResponse) (r : Bytes) :
    skipping 4 2 (connectResponse len c ++ r) = [6, 0x10, 2, 6] ++
      ([c.channel, c.status] ++ hpai c.dataEndpoint ++ [0x04, 0x04] ++ word (indCode c.crd.address) ++ r) := by
  simp [skipping, connectResponse, header, word, CONNECT_RESPONSE, byte]

/-- C138: of a connection response the length does not matter. -/
theorem C138_connect_iff {d d' r r' : Bytes} {c c' : ConnectionResponse} (h : ConnectionResponse.fromPacket d = .ok (c, r))
    (h' : ConnectionResponse.fromPacket d' = .ok (c', r')) : (c, r) = (c', r') ↔ skipping 4 2 d = skipping 4 2 d' := by
  obtain ⟨len, h8, hl, hs, hi, rfl⟩ := ConnectionResponse.fromPacket_iff.1 h
  obtain ⟨len', h8', hl', hs', hi', rfl⟩ := ConnectionResponse.fromPacket_iff.1 h'
  rw [skipping_connect, skipping_connect]
  constructor
  · intro e; cases e; rfl
  · intro e
    have e := List.append_cancel_left e
    have h1 := ConnectionResponse.fromPacket_iff.2 ⟨len', h8', hl', hs, hi, (rfl : _ = connectResponse len' c ++ r)⟩
    have hp : connectResponse len' c ++ r = connectResponse len' c' ++ r' := by
      have : ∀ (c : ConnectionResponse) r, connectResponse len' c ++ r = header CONNECT_RESPONSE len' ++
          ([c.channel, c.status] ++ hpai c.dataEndpoint ++ [0x04, 0x04] ++ word (indCode c.crd.address) ++ r) := by
        intro c r; simp [connectResponse]
      rw [this, this, e]
    rw [hp, h'] at h1
    exact (Res.ok.inj h1).symm

/-! ## Disconnect requests: the first octet and the one behind the channel -/

/-- C138: of a disconnect request the first octet and the one behind the channel do not matter. -/
theorem C138_disconnect_iff {d d' r r' : Bytes} {c c' : DisconnectRequest} (h : DisconnectRequest.fromPacket d = .ok (c, r))
    (h' : DisconnectRequest.fromPacket d' = .ok (c', r')) :
    (c, r) = (c', r') ↔ skipping 0 1 (skipping 2 1 d) = skipping 0 1 (skipping 2 1 d') := by
  obtain ⟨b, res, hb, rfl⟩ := DisconnectRequest.fromPacket_iff.1 h
  obtain ⟨b', res', hb', rfl⟩ := DisconnectRequest.fromPacket_iff.1 h'
  have key : ∀ (b ch res : U8) (t : Bytes), skipping 0 1 (skipping 2 1 ([b, ch, res] ++ t)) = ch :: t := by
    intro b ch res t; simp [skipping]
  rw [List.append_assoc, List.append_assoc _ _ r', key, key]
  constructor
  · intro e; cases e; rfl
  · intro e
    simp only [List.cons.injEq] at e
    have h1 := DisconnectRequest.fromPacket_iff.2 ⟨b', res', hb', (rfl : _ = [b', c.channel, res'] ++ hpai c.controlEndpoint ++ r)⟩
    rw [List.append_assoc, e.1, e.2, ← List.append_assoc, h'] at h1
    exact (Res.ok.inj h1).symm

/-! ## Answers about features: the octet behind the number -/

/-- C138: of an answer about a feature the octet behind the number does not matter. -/
theorem C138_feature_iff {d d' r r' : Bytes} {f f' : FeatureResp} (h : FeatureResp.fromPacket d = .ok (f, r))
    (h' : FeatureResp.fromPacket d' = .ok (f', r')) : (f, r) = (f', r') ↔ skipping 9 1 d = skipping 9 1 d' := by
  obtain ⟨res, rfl⟩ := FeatureResp.fromPacket_iff.1 h
  obtain ⟨res', rfl⟩ := FeatureResp.fromPacket_iff.1 h'
  have key : ∀ (res : U8) (f : FeatureResp) (r : Bytes), skipping 9 1 (frame TUNNELING_FEATURE_RESPONSE
      [4, f.channel, f.seq, res, byte (featureCode f.feature), f.status, f.value] ++ r) =
      [6, 0x10, 4, 0x23, 0, 13, 4] ++ ([f.channel, f.seq, byte (featureCode f.feature), f.status, f.value] ++ r) := by
    intro res f r; simp [skipping, frame, word, TUNNELING_FEATURE_RESPONSE, byte]
  rw [key, key]
  constructor
  · intro e; cases e; rfl
  · intro e
    have e := List.append_cancel_left e
    simp only [List.cons_append, List.nil_append, List.cons.injEq] at e
    obtain ⟨e1, e2, e3, e4, e5, e6⟩ := e
    have h1 := FeatureResp.fromPacket_iff.2 ⟨res', (rfl : _ = frame TUNNELING_FEATURE_RESPONSE
      [4, f.channel, f.seq, res', byte (featureCode f.feature), f.status, f.value] ++ r)⟩
    rw [e1, e2, e3, e4, e5, e6, h'] at h1
    rw [e6]
    exact (Res.ok.inj h1).symm

/-! ## Tunneling requests: the octet behind the number, and zeros that are missing -/

/-- C138: of tunneling requests that are complete, the octet behind the number does not matter. -/
theorem C138_tunnel_iff {d d' r r' : Bytes} {t t' : TunnelingRequest} (h : TunnelingRequest.fromPacket d = .ok (t, r))
    (h' : TunnelingRequest.fromPacket d' = .ok (t', r')) (hd : value ((d.drop 4).take 2) ≤ d.length)
    (hd' : value ((d'.drop 4).take 2) ≤ d'.length) : (t, r) = (t', r') ↔ skipping 9 1 d = skipping 9 1 d' := by
  have key : ∀ (len : Nat) (ch seq pad : U8) (rest : Bytes), skipping 9 1 (header TUNNELING_REQUEST len ++ [4, ch, seq, pad] ++ rest) =
      header TUNNELING_REQUEST len ++ ([4, ch, seq] ++ rest) := by
    intro len ch seq pad rest; simp [skipping, header, word]
  have val : ∀ (len : Nat) (t : Bytes), len < 65536 → value (((header TUNNELING_REQUEST len ++ t).drop 4).take 2) = len := by
    intro len t hl
    have h1 : ((header TUNNELING_REQUEST len ++ t).drop 4).take 2 = [byte (len / 256), byte (len % 256)] := by
      simp [header, word]
    rw [h1]
    simp [value, byte]
    omega
  have pad : ∀ (n : Nat) (b : Bytes), n ≤ b.length → padded n b = b.take n := by
    intro n b h; unfold padded; rw [List.take_append_of_le_length h]
  obtain ⟨len, p, rest, h10, hl, rfl, hc, rfl⟩ := TunnelingRequest.fromPacket_iff.1 h
  obtain ⟨len', p', rest', h10', hl', rfl, hc', rfl⟩ := TunnelingRequest.fromPacket_iff.1 h'
  rw [List.append_assoc, val _ _ hl] at hd
  rw [List.append_assoc, val _ _ hl'] at hd'
  have hr : len - 10 ≤ rest.length := by simp [header, word] at hd; omega
  have hr' : len' - 10 ≤ rest'.length := by simp [header, word] at hd'; omega
  rw [pad _ _ hr] at hc
  rw [pad _ _ hr'] at hc'
  have hn : t.cemi.length = len - 10 := by rw [hc, List.length_take]; omega
  have hn' : t'.cemi.length = len' - 10 := by rw [hc', List.length_take]; omega
  rw [key, key]
  constructor
  · intro e
    simp only [Prod.mk.injEq] at e
    obtain ⟨e1, e2⟩ := e
    subst e1
    have hll : len = len' := by omega
    subst hll
    have : rest = rest' := by
      rw [← List.take_append_drop (len - 10) rest, ← List.take_append_drop (len - 10) rest', ← hc, ← hc', e2]
    rw [this]
  · intro e
    obtain ⟨e1, e2⟩ := List.append_inj e rfl
    simp only [List.cons_append, List.nil_append, List.cons.injEq, true_and] at e2
    obtain ⟨ec, es, er⟩ := e2
    have hll : len = len' := by
      rw [← val len [] hl, ← val len' [] hl', e1]
    subst hll
    subst er
    obtain ⟨c, q, m⟩ := t
    obtain ⟨c', q', m'⟩ := t'
    simp only at ec es hc hc'
    rw [ec, es, hc, hc']

/-! ## What does not matter may be anything -/

/-- C138: what does not matter may be anything, in the length of a connection response anything from eight on, in the first octet of a
disconnect request anything from eight on. -/
theorem C138_any :
    (∀ {d r s}, SearchRequest.fromPacket d = .ok (s, r) → ∀ l : U16,
      SearchRequest.fromPacket (d.take 4 ++ word l.toNat ++ d.drop 6) = .ok (s, r)) ∧
    (∀ {d r c}, ConnectionResponse.fromPacket d = .ok (c, r) → ∀ len, 8 ≤ len → len < 65536 →
      ConnectionResponse.fromPacket (d.take 4 ++ word len ++ d.drop 6) = .ok (c, r)) ∧
    (∀ {d r c}, DisconnectRequest.fromPacket d = .ok (c, r) → ∀ b res : U8, 8 ≤ b.toNat →
      DisconnectRequest.fromPacket ([b] ++ (d.drop 1).take 1 ++ [res] ++ d.drop 3) = .ok (c, r)) ∧
    (∀ {d r f}, FeatureResp.fromPacket d = .ok (f, r) → ∀ res : U8,
      FeatureResp.fromPacket (d.take 9 ++ [res] ++ d.drop 10) = .ok (f, r)) ∧
    (∀ {d r t}, TunnelingRequest.fromPacket d = .ok (t, r) → ∀ res : U8,
      TunnelingRequest.fromPacket (d.take 9 ++ [res] ++ d.drop 10) = .ok (t, r)) := by
  refine ⟨?_, ?_, ?_, ?_, ?_⟩
  · intro d r s h l
    obtain ⟨l', rfl⟩ := searchRequest_iff.1 h
    exact searchRequest_iff.2 ⟨l, by simp [header, word]⟩
  · intro d r c h len h8 hl
    obtain ⟨len', -, -, hs, hi, rfl⟩ := ConnectionResponse.fromPacket_iff.1 h
    exact ConnectionResponse.fromPacket_iff.2 ⟨len, h8, hl, hs, hi, by simp [connectResponse, header, word]⟩
  · intro d r c h b res hb
    obtain ⟨b', res', -, rfl⟩ := DisconnectRequest.fromPacket_iff.1 h
    exact DisconnectRequest.fromPacket_iff.2 ⟨b, res, hb, by simp⟩
  · intro d r f h res
    obtain ⟨res', rfl⟩ := FeatureResp.fromPacket_iff.1 h
    exact FeatureResp.fromPacket_iff.2 ⟨res, by simp [frame, word]⟩
  · intro d r t h res
    obtain ⟨len, p, rest, h10, hl, rfl, hc, rfl⟩ := TunnelingRequest.fromPacket_iff.1 h
    exact TunnelingRequest.fromPacket_iff.2 ⟨len, res, rest, h10, hl, by simp [header, word], hc, rfl⟩

/-- Zeros at the end of a tunneling request that are missing are put there: a request that is cut short is accepted as the complete one. -/
theorem C138_violated_tunnel : ∃ d d' : Bytes, d.length ≠ d'.length ∧ TunnelingRequest.fromPacket d = TunnelingRequest.fromPacket d' ∧
    TunnelingRequest.fromPacket d ≠ .err :=
  ⟨[6, 16, 4, 32, 0, 12, 4, 1, 0, 0, 7, 0], [6, 16, 4, 32, 0, 12, 4, 1, 0, 0, 7], by decide, by decide, by decide⟩

/-- Different packets that are accepted as the same message. -/
theorem C138_violated_state : ∃ d d' : Bytes, d ≠ d' ∧ ConnectionstateRequest.fromPacket d = ConnectionstateRequest.fromPacket d' ∧
    ConnectionstateRequest.fromPacket d ≠ .err :=
  ⟨[6, 16, 2, 7, 0, 16, 1, 0, 8, 1, 10, 0, 0, 9, 14, 87], [6, 16, 2, 7, 9, 9, 1, 5, 8, 1, 10, 0, 0, 9, 14, 87], by decide, by decide, by decide⟩

example : DisconnectRequest.fromPacket [8, 1, 0, 8, 1, 10, 0, 0, 9, 14, 87] = DisconnectRequest.fromPacket [200, 1, 7, 8, 1, 10, 0, 0, 9, 14, 87] ∧
    DisconnectRequest.fromPacket [8, 1, 0, 8, 1, 10, 0, 0, 9, 14, 87] = .ok (⟨1, ⟨1, ⟨⟨10, 0, 0, 9⟩, 3671⟩⟩⟩, []) := by decide

end Knx
