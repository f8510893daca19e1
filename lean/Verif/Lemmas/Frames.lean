import Verif.Spec.Frames
import Verif.Lemmas.Emi
import Verif.Props.Addresses

/-! Helper lemmas for the KNXnet/IP frame parsers: exact inversion of every reader. -/

namespace Knx

open Spec

theorem word_ofBe16 (a b : U8) : word (ofBe16 a b).toNat = [a, b] := by
  rw [← be16_eq_word, be16, ofBe16_hi, ofBe16_lo]

theorem eq_ofBe16_iff {w : U16} {a b : U8} : w = ofBe16 a b ↔ word w.toNat = [a, b] := by
  constructor
  · rintro rfl; exact word_ofBe16 a b
  · intro h
    rw [← be16_eq_word, ← word_ofBe16, ← be16_eq_word, be16_inj] at h
    exact h

theorem word_cons (n : Nat) : word n = [byte (n / 256), byte (n % 256)] := rfl

theorem word_inj {m n : Nat} (hm : m < 65536) (hn : n < 65536) : word m = word n ↔ m = n := by
  constructor
  · intro h
    simp only [word, List.cons.injEq, and_true, byte] at h
    have h1 := congrArg BitVec.toNat h.1
    have h2 := congrArg BitVec.toNat h.2
    simp at h1 h2
    omega
  · rintro rfl; rfl

@[simp] theorem word_length (n : Nat) : (word n).length = 2 := rfl

theorem value_pair (a b : U8) : value [a, b] = a.toNat * 256 + b.toNat := by simp [value]

/-- Inversion of a big-endian `u16` read, in specification vocabulary. -/
theorem u16_iff {r r' : Bytes} {w : U16} : Rd.u16 r = .ok (w, r') ↔ r = word w.toNat ++ r' := by
  rw [Rd.u16_ok_iff]
  constructor
  · rintro ⟨a, b, rfl, rfl⟩; rw [word_ofBe16]; rfl
  · rintro rfl
    refine ⟨byte (w.toNat / 256), byte (w.toNat % 256), rfl, ?_⟩
    rw [eq_ofBe16_iff]; rfl

theorem ind_ofU16_iff {w : U16} {a : IndAddr} :
    a = IndAddr.ofU16 w ↔ IndInRange a ∧ indCode a = w.toNat := by
  constructor
  · rintro rfl
    have h : IndAddr.ofU16 (IndAddr.toU16 (IndAddr.ofU16 w)) = IndAddr.ofU16 w := by
      rw [C01_individual_u16_roundtrip.1]
    have hr := (C01_individual_u16_roundtrip.2 _).1 h
    refine ⟨hr, ?_⟩
    have := IndAddr.toU16_toNat _ hr.1 hr.2
    rw [C01_individual_u16_roundtrip.1] at this
    simp only [indCode]; omega
  · rintro ⟨hr, hc⟩
    have := IndAddr.toU16_toNat _ hr.1 hr.2
    have hw : w = a.toU16 := by
      apply BitVec.eq_of_toNat_eq
      rw [this, ← hc]; simp only [indCode]
    rw [hw]
    exact ((C01_individual_u16_roundtrip.2 a).2 hr).symm

theorem toU16_indCode {a : IndAddr} (h : IndInRange a) : a.toU16.toNat = indCode a := by
  have := IndAddr.toU16_toNat _ h.1 h.2
  simp only [indCode]; omega

theorem Hpai.fromPacket_iff {r r' : Bytes} {h : Hpai} :
    Hpai.fromPacket r = .ok (h, r') ↔ r = hpai h ++ r' := by
  simp only [Hpai.fromPacket, Rd.bind_ok_iff, Rd.u8_ok_iff, Rd.ensure_ok_iff, u16_iff, Rd.pure_ok_iff,
    beq_iff_eq, hpai]
  constructor
  · rintro ⟨_, _, rfl, _, _, ⟨rfl, rfl⟩, pc, _, rfl, a, _, rfl, b, _, rfl, c, _, rfl, d, _, rfl, p, _, rfl, rfl, rfl⟩
    simp
  · rintro rfl
    refine ⟨8, _, rfl, (), _, ⟨rfl, rfl⟩, _, _, rfl, _, _, rfl, _, _, rfl, _, _, rfl, _, _, rfl, _, _, rfl, ?_, rfl⟩
    rfl

theorem Hpai.fromPacket_no_panic {r : Bytes} : Hpai.fromPacket r ≠ .panic := by
  simp [Hpai.fromPacket, Rd.bind_panic_iff, Rd.u8_panic_iff, Rd.ensure_panic_iff, Rd.u16_panic_iff,
    Rd.pure_panic_iff]

theorem Header.fromPacket_iff {r r' : Bytes} {h : Header} :
    Header.fromPacket r = .ok (h, r') ↔ r = header h.serviceType.toNat h.totalLength.toNat ++ r' := by
  simp only [Header.fromPacket, Rd.bind_ok_iff, Rd.u8_ok_iff, Rd.ensure_ok_iff, u16_iff, Rd.pure_ok_iff,
    beq_iff_eq, header]
  constructor
  · rintro ⟨_, _, rfl, _, _, ⟨rfl, rfl⟩, _, _, rfl, _, _, ⟨rfl, rfl⟩, s, _, rfl, l, _, rfl, rfl, rfl⟩
    simp
  · rintro rfl
    exact ⟨6, _, rfl, (), _, ⟨rfl, rfl⟩, 0x10, _, rfl, (), _, ⟨rfl, rfl⟩, _, _, rfl, _, _, rfl, rfl, rfl⟩

theorem Header.fromPacket_no_panic {r : Bytes} : Header.fromPacket r ≠ .panic := by
  simp [Header.fromPacket, Rd.bind_panic_iff, Rd.u8_panic_iff, Rd.ensure_panic_iff, Rd.u16_panic_iff,
    Rd.pure_panic_iff]

theorem Crd.fromPacket_iff {r r' : Bytes} {c : Crd} :
    Crd.fromPacket r = .ok (c, r') ↔
      IndInRange c.address ∧ r = [0x04, 0x04] ++ word (indCode c.address) ++ r' := by
  simp only [Crd.fromPacket, Rd.bind_ok_iff, Rd.u8_ok_iff, Rd.ensure_ok_iff, u16_iff, Rd.pure_ok_iff,
    beq_iff_eq]
  constructor
  · rintro ⟨_, _, rfl, _, _, ⟨rfl, rfl⟩, _, _, rfl, _, _, ⟨rfl, rfl⟩, w, _, rfl, rfl, rfl⟩
    have := ind_ofU16_iff.1 (rfl : IndAddr.ofU16 w = IndAddr.ofU16 w)
    exact ⟨this.1, by simp [this.2]⟩
  · rintro ⟨hr, rfl⟩
    have hw := toU16_indCode hr
    refine ⟨4, _, rfl, (), _, ⟨rfl, rfl⟩, 4, _, rfl, (), _, ⟨rfl, rfl⟩, c.address.toU16, r', by rw [hw]; rfl, ?_, rfl⟩
    cases c
    simp only [Crd.mk.injEq]
    exact ind_ofU16_iff.2 ⟨hr, hw.symm⟩

theorem Crd.fromPacket_no_panic {r : Bytes} : Crd.fromPacket r ≠ .panic := by
  simp [Crd.fromPacket, Rd.bind_panic_iff, Rd.u8_panic_iff, Rd.ensure_panic_iff, Rd.u16_panic_iff,
    Rd.pure_panic_iff]

theorem verifyHeader_iff {r r' : Bytes} {u : Unit} :
    verifyHeader r = .ok (u, r') ↔ r = [0x06, 0x10] ++ r' := by
  simp only [verifyHeader, Rd.bind_ok_iff, Rd.u8_ok_iff, Rd.ensure_ok_iff, beq_iff_eq]
  constructor
  · rintro ⟨_, _, rfl, _, _, ⟨rfl, rfl⟩, _, _, rfl, rfl, rfl⟩; rfl
  · rintro rfl; exact ⟨6, _, rfl, (), _, ⟨rfl, rfl⟩, 0x10, _, rfl, rfl, rfl⟩

theorem verifyHeader_no_panic {r : Bytes} : verifyHeader r ≠ .panic := by
  simp [verifyHeader, Rd.bind_panic_iff, Rd.u8_panic_iff, Rd.ensure_panic_iff]

theorem TunnelingRequest.fromPacket_iff {r r' : Bytes} {t : TunnelingRequest} :
    TunnelingRequest.fromPacket r = .ok (t, r') ↔ ∃ (len : Nat) (pad : U8) (rest : Bytes),
      10 ≤ len ∧ len < 65536 ∧ r = header TUNNELING_REQUEST len ++ [4, t.channel, t.seq, pad] ++ rest ∧
      t.cemi = padded (len - 10) rest ∧ r' = rest.drop (len - 10) := by
  simp only [TunnelingRequest.fromPacket, Rd.bind_ok_iff, Rd.u8_ok_iff, Rd.ensure_ok_iff, u16_iff,
    beq_iff_eq, header, verifyHeader_iff]
  constructor
  · rintro ⟨_, _, rfl, c, _, rfl, _, _, ⟨rfl, rfl⟩, l, _, rfl, _, _, rfl, _, _, ⟨rfl, rfl⟩, ch, _, rfl, sq, _, rfl, pad, r1, rfl, h⟩
    split at h
    · cases h
    · rename_i hl
      simp only [Rd.bind_ok_iff, Rd.fill_ok_iff, Rd.pure_ok_iff] at h
      obtain ⟨v, _, ⟨rfl, rfl⟩, rfl, rfl⟩ := h
      refine ⟨l.toNat, pad, r1, by omega, l.isLt, ?_, fill_eq_padded _ _, rfl⟩
      simp [TUNNELING_REQUEST]
  · rintro ⟨len, pad, rest, h1, h2, rfl, hc, rfl⟩
    refine ⟨(), _, rfl, 0x0420, word len ++ [4, t.channel, t.seq, pad] ++ rest, by simp [TUNNELING_REQUEST]; rfl,
      (), _, ⟨rfl, rfl⟩,
      BitVec.ofNat 16 len, [4, t.channel, t.seq, pad] ++ rest, ?_, _, _, rfl, (), _, ⟨rfl, rfl⟩, _, _, rfl, _, _, rfl, _, _, rfl, ?_⟩
    · simp [Nat.mod_eq_of_lt h2]
    · have : (BitVec.ofNat 16 len).toNat = len := by simp; omega
      rw [this, if_neg (by omega)]
      simp only [Rd.bind_ok_iff, Rd.fill_ok_iff, Rd.pure_ok_iff]
      refine ⟨_, _, ⟨rfl, rfl⟩, ?_, rfl⟩
      rw [fill_eq_padded]
      change t = ⟨t.channel, t.seq, padded (len - 10) rest⟩
      rw [← hc]

theorem TunnelingRequest.fromPacket_panic_iff {r : Bytes} :
    TunnelingRequest.fromPacket r = .panic ↔ ∃ (len : Nat) (channel seq pad : U8) (rest : Bytes),
      len < 10 ∧ r = header TUNNELING_REQUEST len ++ [4, channel, seq, pad] ++ rest := by
  simp only [TunnelingRequest.fromPacket, Rd.bind_panic_iff, Rd.u8_panic_iff, Rd.u16_panic_iff,
    Rd.ensure_panic_iff, verifyHeader_no_panic, Rd.u8_ok_iff, Rd.ensure_ok_iff, u16_iff,
    beq_iff_eq, header, verifyHeader_iff, false_or]
  constructor
  · rintro ⟨_, _, rfl, c, _, rfl, _, _, ⟨rfl, rfl⟩, l, _, rfl, _, _, rfl, _, _, ⟨rfl, rfl⟩, ch, _, rfl, sq, _, rfl, pad, r1, rfl, h⟩
    split at h
    · rename_i hl
      refine ⟨l.toNat, ch, sq, pad, r1, hl, ?_⟩
      simp [TUNNELING_REQUEST]
    · simp [Rd.bind_panic_iff, Rd.fill_panic_iff, Rd.pure_panic_iff] at h
  · rintro ⟨len, ch, sq, pad, rest, h1, rfl⟩
    refine ⟨(), _, rfl, 0x0420, word len ++ [4, ch, sq, pad] ++ rest, by simp [TUNNELING_REQUEST]; rfl,
      (), _, ⟨rfl, rfl⟩,
      BitVec.ofNat 16 len, [4, ch, sq, pad] ++ rest, ?_, _, _, rfl, (), _, ⟨rfl, rfl⟩, _, _, rfl, _, _, rfl, _, _, rfl, ?_⟩
    · simp [Nat.mod_eq_of_lt (show len < 65536 by omega)]
    · have : (BitVec.ofNat 16 len).toNat = len := by simp; omega
      rw [this, if_pos h1]
      rfl

theorem TunnelingAck.fromPacket_iff {r r' : Bytes} {t : TunnelingAck} :
    TunnelingAck.fromPacket r = .ok (t, r') ↔
      r = frame TUNNELING_ACK [4, t.channel, t.seq, t.status] ++ r' := by
  simp only [TunnelingAck.fromPacket, Rd.bind_ok_iff, Rd.u8_ok_iff, Rd.ensure_ok_iff, u16_iff,
    beq_iff_eq, frame, verifyHeader_iff, Rd.pure_ok_iff]
  constructor
  · rintro ⟨_, _, rfl, c, _, rfl, _, _, ⟨rfl, rfl⟩, l, _, rfl, _, _, ⟨rfl, rfl⟩, _, _, rfl, _, _, ⟨rfl, rfl⟩, ch, _, rfl, sq, _, rfl, st, _, rfl, rfl, rfl⟩
    simp [TUNNELING_ACK]
  · rintro rfl
    refine ⟨(), _, rfl, 0x0421, _, rfl, (), _, ⟨rfl, rfl⟩, 0x0a, [4, t.channel, t.seq, t.status] ++ r', rfl,
      (), _, ⟨rfl, rfl⟩, _, _, rfl, (), _, ⟨rfl, rfl⟩, _, _, rfl, _, _, rfl, _, _, rfl, rfl, rfl⟩

theorem TunnelingAck.fromPacket_no_panic {r : Bytes} : TunnelingAck.fromPacket r ≠ .panic := by
  simp [TunnelingAck.fromPacket, Rd.bind_panic_iff, Rd.u8_panic_iff, Rd.ensure_panic_iff, Rd.u16_panic_iff,
    Rd.pure_panic_iff, verifyHeader_no_panic]

theorem KnxIpFeature.ofU8_iff {v : U8} {f : KnxIpFeature} :
    KnxIpFeature.ofU8 v = .ok f ↔ v = byte (featureCode f) := by
  constructor
  · intro h
    unfold KnxIpFeature.ofU8 at h
    repeat' split at h
    all_goals first | (cases h; assumption) | (cases h)
  · rintro rfl; cases f <;> decide

theorem KnxIpFeature.ofU8_no_panic {v : U8} : KnxIpFeature.ofU8 v ≠ .panic := by
  unfold KnxIpFeature.ofU8
  repeat' split
  all_goals simp

theorem FeatureResp.fromPacket_iff {r r' : Bytes} {f : FeatureResp} :
    FeatureResp.fromPacket r = .ok (f, r') ↔ ∃ res : U8,
      r = frame TUNNELING_FEATURE_RESPONSE
        [4, f.channel, f.seq, res, byte (featureCode f.feature), f.status, f.value] ++ r' := by
  simp only [FeatureResp.fromPacket, Rd.bind_ok_iff, Rd.u8_ok_iff, Rd.ensure_ok_iff, u16_iff,
    beq_iff_eq, frame, verifyHeader_iff, Rd.pure_ok_iff, Rd.lift_ok_iff, KnxIpFeature.ofU8_iff]
  constructor
  · rintro ⟨_, _, rfl, c, _, rfl, _, _, ⟨rfl, rfl⟩, l, _, rfl, _, _, ⟨rfl, rfl⟩, _, _, rfl, _, _, ⟨rfl, rfl⟩, ch, _, rfl, sq, _, rfl, res, _, rfl, fb, _, rfl, f, _, ⟨rfl, rfl⟩, st, _, rfl, v, _, rfl, rfl, rfl⟩
    exact ⟨res, by simp [TUNNELING_FEATURE_RESPONSE]⟩
  · rintro ⟨res, rfl⟩
    refine ⟨(), _, rfl, 0x0423, _, rfl, (), _, ⟨rfl, rfl⟩, 0x0d,
      [4, f.channel, f.seq, res, byte (featureCode f.feature), f.status, f.value] ++ r', rfl,
      (), _, ⟨rfl, rfl⟩, _, _, rfl, (), _, ⟨rfl, rfl⟩, _, _, rfl, _, _, rfl, _, _, rfl, _, _, rfl, f.feature, _, ⟨rfl, rfl⟩,
      _, _, rfl, _, _, rfl, rfl, rfl⟩

theorem FeatureResp.fromPacket_no_panic {r : Bytes} : FeatureResp.fromPacket r ≠ .panic := by
  simp [FeatureResp.fromPacket, Rd.bind_panic_iff, Rd.u8_panic_iff, Rd.ensure_panic_iff, Rd.u16_panic_iff,
    Rd.pure_panic_iff, verifyHeader_no_panic, Rd.lift_panic_iff, KnxIpFeature.ofU8_no_panic]

theorem ConnectionstateResponse.fromPacket_iff {r r' : Bytes} {c : ConnectionstateResponse} :
    ConnectionstateResponse.fromPacket r = .ok (c, r') ↔
      r = frame CONNECTIONSTATE_RESPONSE [c.channel, c.status] ++ r' := by
  simp only [ConnectionstateResponse.fromPacket, Rd.bind_ok_iff, Rd.u8_ok_iff, Rd.ensure_ok_iff, u16_iff,
    beq_iff_eq, frame, Rd.pure_ok_iff]
  constructor
  · rintro ⟨_, _, rfl, _, _, ⟨rfl, rfl⟩, _, _, rfl, _, _, ⟨rfl, rfl⟩, s, _, rfl, _, _, ⟨rfl, rfl⟩, l, _, rfl, _, _, ⟨rfl, rfl⟩, ch, _, rfl, st, _, rfl, rfl, rfl⟩
    simp [CONNECTIONSTATE_RESPONSE]
  · rintro rfl
    exact ⟨_, _, rfl, (), _, ⟨rfl, rfl⟩, _, _, rfl, (), _, ⟨rfl, rfl⟩, 0x0208, _, rfl, (), _, ⟨rfl, rfl⟩, 8,
      [c.channel, c.status] ++ r', rfl, (), _, ⟨rfl, rfl⟩, _, _, rfl, _, _, rfl, rfl, rfl⟩

theorem ConnectionstateResponse.fromPacket_no_panic {r : Bytes} :
    ConnectionstateResponse.fromPacket r ≠ .panic := by
  simp [ConnectionstateResponse.fromPacket, Rd.bind_panic_iff, Rd.u8_panic_iff, Rd.ensure_panic_iff,
    Rd.u16_panic_iff, Rd.pure_panic_iff]

theorem DisconnectResponse.fromPacket_iff {r r' : Bytes} {c : DisconnectResponse} :
    DisconnectResponse.fromPacket r = .ok (c, r') ↔
      r = frame DISCONNECT_RESPONSE [c.channel, c.status] ++ r' := by
  simp only [DisconnectResponse.fromPacket, Rd.bind_ok_iff, Rd.u8_ok_iff, Rd.ensure_ok_iff, u16_iff,
    beq_iff_eq, frame, Rd.pure_ok_iff]
  constructor
  · rintro ⟨_, _, rfl, _, _, ⟨rfl, rfl⟩, _, _, rfl, _, _, ⟨rfl, rfl⟩, s, _, rfl, _, _, ⟨rfl, rfl⟩, l, _, rfl, _, _, ⟨rfl, rfl⟩, ch, _, rfl, st, _, rfl, rfl, rfl⟩
    simp [DISCONNECT_RESPONSE]
  · rintro rfl
    exact ⟨_, _, rfl, (), _, ⟨rfl, rfl⟩, _, _, rfl, (), _, ⟨rfl, rfl⟩, 0x020a, _, rfl, (), _, ⟨rfl, rfl⟩, 8,
      [c.channel, c.status] ++ r', rfl, (), _, ⟨rfl, rfl⟩, _, _, rfl, _, _, rfl, rfl, rfl⟩

theorem DisconnectResponse.fromPacket_no_panic {r : Bytes} : DisconnectResponse.fromPacket r ≠ .panic := by
  simp [DisconnectResponse.fromPacket, Rd.bind_panic_iff, Rd.u8_panic_iff, Rd.ensure_panic_iff,
    Rd.u16_panic_iff, Rd.pure_panic_iff]

theorem DisconnectRequest.fromPacket_iff {r r' : Bytes} {c : DisconnectRequest} :
    DisconnectRequest.fromPacket r = .ok (c, r') ↔ ∃ b res : U8, 8 ≤ b.toNat ∧
      r = [b, c.channel, res] ++ hpai c.controlEndpoint ++ r' := by
  simp only [DisconnectRequest.fromPacket, Rd.bind_ok_iff, Rd.u8_ok_iff, Rd.ensure_ok_iff,
    Hpai.fromPacket_iff, decide_eq_true_eq, Rd.pure_ok_iff]
  constructor
  · rintro ⟨b, _, rfl, _, _, ⟨hb, rfl⟩, ch, _, rfl, res, _, rfl, h, _, rfl, rfl, rfl⟩
    exact ⟨b, res, by simpa [BitVec.le_def] using hb, by simp⟩
  · rintro ⟨b, res, hb, rfl⟩
    exact ⟨b, _, rfl, (), _, ⟨by simpa [BitVec.le_def] using hb, rfl⟩, _, _, rfl, res, _, rfl, _, _, rfl, rfl, rfl⟩

theorem DisconnectRequest.fromPacket_no_panic {r : Bytes} : DisconnectRequest.fromPacket r ≠ .panic := by
  simp [DisconnectRequest.fromPacket, Rd.bind_panic_iff, Rd.u8_panic_iff, Rd.ensure_panic_iff,
    Rd.pure_panic_iff, Hpai.fromPacket_no_panic]

theorem ConnectionstateRequest.fromPacket_iff {r r' : Bytes} {c : ConnectionstateRequest} :
    ConnectionstateRequest.fromPacket r = .ok (c, r') ↔ ∃ (len : Nat) (pad : U8), len < 65536 ∧
      r = header CONNECTIONSTATE_REQUEST len ++ [c.channel, pad] ++ hpai c.controlEndpoint ++ r' := by
  simp only [ConnectionstateRequest.fromPacket, Rd.bind_ok_iff, Rd.u8_ok_iff, Rd.ensure_ok_iff, u16_iff,
    beq_iff_eq, header, Rd.pure_ok_iff, Hpai.fromPacket_iff]
  constructor
  · rintro ⟨_, _, rfl, _, _, ⟨rfl, rfl⟩, _, _, rfl, _, _, ⟨rfl, rfl⟩, s, _, rfl, _, _, ⟨rfl, rfl⟩, l, _, rfl, ch, _, rfl, pad, _, rfl, h, _, rfl, rfl, rfl⟩
    exact ⟨l.toNat, pad, l.isLt, by simp [CONNECTIONSTATE_REQUEST]⟩
  · rintro ⟨len, pad, hl, rfl⟩
    refine ⟨_, _, rfl, (), _, ⟨rfl, rfl⟩, _, _, rfl, (), _, ⟨rfl, rfl⟩, 0x0207,
      word len ++ ([c.channel, pad] ++ hpai c.controlEndpoint ++ r'), by simp [CONNECTIONSTATE_REQUEST], (), _, ⟨rfl, rfl⟩, BitVec.ofNat 16 len,
      [c.channel, pad] ++ hpai c.controlEndpoint ++ r', ?_, _, _, rfl, _, _, rfl, _, _, rfl, rfl, rfl⟩
    simp [Nat.mod_eq_of_lt hl]

theorem ConnectionResponse.fromPacket_iff {r r' : Bytes} {c : ConnectionResponse} :
    ConnectionResponse.fromPacket r = .ok (c, r') ↔ ∃ len : Nat, 8 ≤ len ∧ len < 65536 ∧
      ¬ refusedStatus c.status ∧ IndInRange c.crd.address ∧ r = connectResponse len c ++ r' := by
  simp only [ConnectionResponse.fromPacket, Rd.bind_ok_iff, Rd.u8_ok_iff, Rd.ensure_ok_iff, u16_iff,
    beq_iff_eq, connectResponse, header, Rd.pure_ok_iff, Hpai.fromPacket_iff, Crd.fromPacket_iff]
  have hst : ∀ st : U8, ((!(st == 0x22 || st == 0x23 || st == 0x24 || st == 0x29)) = true) ↔ ¬ refusedStatus st := by
    intro st; simp [refusedStatus, not_or, and_assoc]
  simp only [hst]
  constructor
  · rintro ⟨_, _, rfl, _, _, ⟨rfl, rfl⟩, _, _, rfl, _, _, ⟨rfl, rfl⟩, s, _, rfl, _, _, ⟨rfl, rfl⟩, l, _, rfl, _, _, ⟨hl, rfl⟩, ch, _, rfl, st, _, rfl, _, _, ⟨hs, rfl⟩, h, _, rfl, crd, _, ⟨hr, rfl⟩, rfl, rfl⟩
    refine ⟨l.toNat, by simpa [BitVec.le_def] using hl, l.isLt, hs, hr, by simp [CONNECT_RESPONSE]⟩
  · rintro ⟨len, h8, hl, hs, hr, rfl⟩
    refine ⟨_, _, rfl, (), _, ⟨rfl, rfl⟩, _, _, rfl, (), _, ⟨rfl, rfl⟩, 0x0206,
      word len ++ ([c.channel, c.status] ++ hpai c.dataEndpoint ++ [4, 4] ++ word (indCode c.crd.address) ++ r'),
      by simp [CONNECT_RESPONSE], (), _, ⟨rfl, rfl⟩, BitVec.ofNat 16 len,
      [c.channel, c.status] ++ hpai c.dataEndpoint ++ [4, 4] ++ word (indCode c.crd.address) ++ r', ?_, (), _, ⟨?_, rfl⟩, _, _, rfl, _, _, rfl, (), _, ⟨hs, rfl⟩, _, _,
      by simp; rfl, c.crd, r', ⟨hr, by simp⟩, rfl, rfl⟩
    · simp [Nat.mod_eq_of_lt hl]
    · simp [BitVec.le_def, Nat.mod_eq_of_lt hl, h8]

theorem ConnectionResponse.fromPacket_no_panic {r : Bytes} : ConnectionResponse.fromPacket r ≠ .panic := by
  simp [ConnectionResponse.fromPacket, Rd.bind_panic_iff, Rd.u8_panic_iff, Rd.ensure_panic_iff,
    Rd.u16_panic_iff, Rd.pure_panic_iff, Hpai.fromPacket_no_panic, Crd.fromPacket_no_panic]

end Knx
