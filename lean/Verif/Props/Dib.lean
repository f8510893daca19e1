import Verif.Lemmas.Dib
import Verif.Props.Frames

/-!
# Properties C24 (search response) and C27-C31: description blocks and discovery
-/

namespace Knx

open Spec

theorem deviceInfo_packet (d : DeviceInfo) (h : IndInRange d.address) : d.packet = deviceInfoBody d := by
  simp [DeviceInfo.packet, deviceInfoBody, be16_eq_word, toU16_indCode h, medium_code, Ipv4.octets]

theorem deviceInfo_packet_length (d : DeviceInfo) : d.packet.length = 52 := by
  simp [DeviceInfo.packet, Ipv4.octets]

theorem families_packet (s : ServiceFamilies) : s.packet = familiesBody s.families := by
  simp [ServiceFamilies.packet, familiesBody, List.flatMap]

theorem knxAddresses_packet (k : KnxAddresses) : k.packet = dibBody (.knxAddresses k) := by
  simp [KnxAddresses.packet, dibBody, ip4, Ipv4.octets, List.flatMap]
  rfl

/-! ## Block decoding -/

/-- What the block decoder accepts. -/
theorem dib_deviceInfo_iff {m : Mode} {r r' : Bytes} {d : DeviceInfo} :
    Dib.fromPacket m r = .ok (.deviceInformation d, r') ↔
      ∃ r1, r = d.structureLength :: 1 :: r1 ∧ DeviceInfo.fromPacket d.structureLength r1 = .ok (d, r') := by
  simp only [Dib.fromPacket, Rd.bind_ok_iff, Rd.u8_ok_iff, Rd.lift_ok_iff, DescType.ofU8_iff]
  constructor
  · rintro ⟨l, _, rfl, t, _, rfl, ty, _, ⟨rfl, rfl⟩, h⟩
    cases ty <;> simp only [Rd.bind_ok_iff, Rd.pure_ok_iff] at h <;> obtain ⟨a, r2, h1, h2, rfl⟩ := h <;>
      cases h2
    obtain ⟨rfl, _⟩ := DeviceInfo.fromPacket_iff.1 h1
    exact ⟨_, rfl, h1⟩
  · rintro ⟨r1, rfl, h⟩
    refine ⟨_, _, rfl, 1, _, rfl, .deviceInfo, _, ⟨rfl, rfl⟩, ?_⟩
    simp only [Rd.bind_ok_iff, Rd.pure_ok_iff]
    exact ⟨_, _, h, rfl, rfl⟩

theorem dib_families_iff {m : Mode} {r r' : Bytes} {s : ServiceFamilies} :
    Dib.fromPacket m r = .ok (.supportedServiceFamilies s, r') ↔
      ∃ r1, r = s.structureLength :: 2 :: r1 ∧ ServiceFamilies.fromPacket m s.structureLength r1 = .ok (s, r') := by
  simp only [Dib.fromPacket, Rd.bind_ok_iff, Rd.u8_ok_iff, Rd.lift_ok_iff, DescType.ofU8_iff]
  constructor
  · rintro ⟨l, _, rfl, t, _, rfl, ty, _, ⟨rfl, rfl⟩, h⟩
    cases ty <;> simp only [Rd.bind_ok_iff, Rd.pure_ok_iff] at h <;> obtain ⟨a, r2, h1, h2, rfl⟩ := h <;>
      cases h2
    obtain ⟨rfl, _⟩ := ServiceFamilies.fromPacket_iff.1 h1
    exact ⟨_, rfl, h1⟩
  · rintro ⟨r1, rfl, h⟩
    refine ⟨_, _, rfl, 2, _, rfl, .supportedServiceFamilies, _, ⟨rfl, rfl⟩, ?_⟩
    simp only [Rd.bind_ok_iff, Rd.pure_ok_iff]
    exact ⟨_, _, h, rfl, rfl⟩

/-! ## C27 -/

/-- Exact description of successful search-response decoding. -/
theorem searchResponse_iff {m : Mode} {r rest : Bytes} {s : SearchResponse} :
    SearchResponse.fromPacket m r = .ok (s, rest) ↔
      ∃ (len : Nat) (st : U8), len < 65536 ∧
        s.deviceHardware.descriptionType = .deviceInfo ∧
        s.serviceFamilies.descriptionType = .supportedServiceFamilies ∧
        IndInRange s.deviceHardware.address ∧ s.deviceHardware.status.bits = st &&& 1 ∧
        (m = .debug → 2 ≤ s.serviceFamilies.structureLength.toNat) ∧
        s.serviceFamilies.families.length = (s.serviceFamilies.structureLength - 2).toNat / 2 ∧
        r = header SEARCH_RESPONSE len ++ hpai s.controlEndpoint
          ++ [s.deviceHardware.structureLength, 1] ++ deviceInfoBody { s.deviceHardware with status := ⟨st⟩ }
          ++ [s.serviceFamilies.structureLength, 2] ++ familiesBody s.serviceFamilies.families ++ rest := by
  obtain ⟨ep, d, f⟩ := s
  simp only [SearchResponse.fromPacket, Rd.bind_ok_iff, Header.fromPacket_iff, Rd.ensure_ok_iff,
    Hpai.fromPacket_iff, Rd.pure_ok_iff]
  constructor
  · rintro ⟨h, _, rfl, _, _, ⟨hs, rfl⟩, e, _, rfl, d1, _, h1, hp⟩
    cases d1 <;> simp only [Rd.bind_ok_iff, Rd.pure_ok_iff, Rd.fail_ok_iff, false_and, exists_false] at hp
    obtain ⟨d', _, ⟨rfl, rfl⟩, f1, _, h3, hp⟩ := hp
    cases f1 <;> simp only [Rd.bind_ok_iff, Rd.pure_ok_iff, Rd.fail_ok_iff, false_and, exists_false] at hp
    obtain ⟨f', _, ⟨rfl, rfl⟩, h5, rfl⟩ := hp
    cases h5
    obtain ⟨r1, rfl, h6⟩ := dib_deviceInfo_iff.1 h1
    obtain ⟨_, h7, h8, st, h9, rfl⟩ := DeviceInfo.fromPacket_iff.1 h6
    obtain ⟨r2, rfl, ha⟩ := dib_families_iff.1 h3
    obtain ⟨_, hb, hc, hd, rfl⟩ := ServiceFamilies.fromPacket_iff.1 ha
    refine ⟨h.totalLength.toNat, st, h.totalLength.isLt, h7, hb, h8, h9, hc, hd, ?_⟩
    have : h.serviceType = 0x0202 := by simpa using hs
    rw [this]; simp [SEARCH_RESPONSE, header]
  · rintro ⟨len, st, hl, h7, hb, h8, h9, hc, hd, rfl⟩
    refine ⟨⟨0x0202, BitVec.ofNat 16 len⟩, _, ?_, (), _, ⟨rfl, rfl⟩, ep, _, rfl, .deviceInformation d,
      [f.structureLength, 2] ++ familiesBody f.families ++ rest,
      dib_deviceInfo_iff.2 ⟨_, rfl, DeviceInfo.fromPacket_iff.2 ⟨rfl, h7, h8, st, h9, rfl⟩⟩, ?_⟩
    · have : (BitVec.ofNat 16 len).toNat = len := by simp; omega
      simp only [this]
      simp [SEARCH_RESPONSE]
    · simp only [Rd.bind_ok_iff, Rd.pure_ok_iff]
      refine ⟨d, _, ⟨rfl, rfl⟩, .supportedServiceFamilies f, _,
        dib_families_iff.2 ⟨_, rfl, ServiceFamilies.fromPacket_iff.2 ⟨rfl, hb, hc, hd, rfl⟩⟩, ?_⟩
      simp only [Rd.bind_ok_iff, Rd.pure_ok_iff]
      exact ⟨f, _, ⟨rfl, rfl⟩, rfl, rfl⟩

/-- C27: a standard search response (at most 126 service families, which is all a one-byte
structure length can express) is decoded to exactly its endpoint, device information and
families, whatever follows and in both overflow modes. -/
theorem C27_search_response (m : Mode) (ep : Hpai) (d : DeviceInfo) (fs : List ServiceFamily) (rest : Bytes)
    (hd : DeviceInfoOk d) (hl : d.structureLength = 54) (hf : fs.length ≤ 126) :
    SearchResponse.fromPacket m (searchResponse ep d fs ++ rest)
      = .ok (⟨ep, d, ⟨byte (2 + 2 * fs.length), .supportedServiceFamilies, fs⟩⟩, rest) := by
  rw [searchResponse_iff]
  obtain ⟨h1, h2, h3⟩ := hd
  have hst : d.status.bits &&& 1 = d.status.bits := by
    obtain ⟨x, hx⟩ := exists_setWidth 1 d.status.bits h2
    rw [hx]; clear hx; revert x; decide +kernel
  refine ⟨6 + (hpai ep ++ dib 54 1 (deviceInfoBody d) ++ dib (2 + 2 * fs.length) 2 (familiesBody fs)).length,
    d.status.bits, ?_, h3, rfl, h1, hst.symm, ?_, ?_, ?_⟩
  · simp [hpai_length, dib, deviceInfoBody_length, familiesBody_length]; omega
  · intro _; simp only [byte_toNat (show 2 + 2 * fs.length < 256 by omega)]; omega
  · have : (byte (2 + 2 * fs.length) - 2).toNat = 2 * fs.length := by
      rw [BitVec.toNat_sub, byte_toNat (by omega)]; simp; omega
    show fs.length = _
    rw [this]; omega
  · have hd : deviceInfoBody { d with status := ⟨d.status.bits⟩ } = deviceInfoBody d := rfl
    simp only [searchResponse, frame, dib, header, byte, hl]
    simp [deviceInfoBody]

/-- C27, the converse: whatever is decoded was in the frame. -/
theorem C27_search_response_sound (m : Mode) (r rest : Bytes) (s : SearchResponse)
    (h : SearchResponse.fromPacket m r = .ok (s, rest)) :
    ∃ (len : Nat) (st : U8), s.deviceHardware.status.bits = st &&& 1 ∧
      r = header SEARCH_RESPONSE len ++ hpai s.controlEndpoint
          ++ [s.deviceHardware.structureLength, 1] ++ deviceInfoBody { s.deviceHardware with status := ⟨st⟩ }
          ++ [s.serviceFamilies.structureLength, 2] ++ familiesBody s.serviceFamilies.families ++ rest := by
  obtain ⟨len, st, _, _, _, _, h1, _, _, h2⟩ := searchResponse_iff.1 h
  exact ⟨len, st, h1, h2⟩

/-- A device information value used in the examples. -/
def exampleDevice : DeviceInfo :=
  { structureLength := 54, descriptionType := .deviceInfo, medium := .tp1, status := ⟨1⟩, address := ⟨1, 1, 250⟩,
    projectId := 7, serial := Vector.replicate 6 3, multicast := ⟨224, 0, 23, 12⟩, mac := Vector.replicate 6 9,
    friendlyName := Vector.replicate 30 65 }

example : DeviceInfoOk exampleDevice ∧ exampleDevice.structureLength = 54 :=
  ⟨⟨⟨by decide, by decide⟩, by decide, rfl⟩, rfl⟩

example : (SearchResponse.fromPacket .debug
    (searchResponse ⟨1, ⟨⟨192, 168, 0, 9⟩, 3671⟩⟩ exampleDevice [⟨2, 1⟩, ⟨3, 1⟩, ⟨4, 2⟩] ++ [1, 2])) =
    .ok (⟨⟨1, ⟨⟨192, 168, 0, 9⟩, 3671⟩⟩, exampleDevice, ⟨8, .supportedServiceFamilies, [⟨2, 1⟩, ⟨3, 1⟩, ⟨4, 2⟩]⟩⟩, [1, 2]) :=
  C27_search_response .debug _ _ _ _ ⟨⟨by decide, by decide⟩, by decide, rfl⟩ rfl (by decide)

/-! ## C24, search response -/

/-- C24 refuted for search responses: decoding the library's own encoding never returns the value
(the encoder omits the block headers). -/
theorem C24_searchResponse_violated (m : Mode) (s : SearchResponse) (rest : Bytes) :
    SearchResponse.fromPacket m s.packet ≠ .ok (s, rest) := by
  intro h
  obtain ⟨len, st, _, _, _, _, _, _, _, hb⟩ := searchResponse_iff.1 h
  have := congrArg List.length hb
  simp [SearchResponse.packet, header, hpai_length, hpai_packet, deviceInfo_packet_length, families_packet,
    deviceInfoBody_length, familiesBody_length] at this
  omega

/-- C24: the bytes of an encoded search response: the endpoint and the bodies of the two blocks without their headers. -/
theorem C24_searchResponse_exact (s : SearchResponse) (h : IndInRange s.deviceHardware.address) :
    s.packet = frame SEARCH_RESPONSE (hpai s.controlEndpoint ++ deviceInfoBody s.deviceHardware ++ familiesBody s.serviceFamilies.families) := by
  simp only [SearchResponse.packet, hpai_packet, deviceInfo_packet _ h, families_packet, frame, List.length_append, be16_eq_word]
  simp only [hpai_length, deviceInfoBody_length, word, SEARCH_RESPONSE, byte]
  simp
  constructor <;> (apply BitVec.eq_of_toNat_eq; simp only [BitVec.toNat_ofNat]; omega)

/-! ## C28 -/

theorem dib_packet (d : Dib) (h : ∀ i, d = .deviceInformation i → IndInRange i.address) :
    d.packet = dib (2 + (dibBody d).length) (dibCode d) (dibBody d)
      ++ (if (dibBody d).length % 2 = 0 then [] else [0]) := by
  have key : d.parts.2 = dibBody d ∧ d.parts.1.code = byte (dibCode d) := by
    cases d with
    | deviceInformation i => exact ⟨deviceInfo_packet i (h i rfl), rfl⟩
    | supportedServiceFamilies s => exact ⟨families_packet s, rfl⟩
    | ipConfig c => exact ⟨by simp [Dib.parts, IpConfig.packet, dibBody, ip4, Ipv4.octets], rfl⟩
    | ipCurrentConfig c => exact ⟨by simp [Dib.parts, IpCurrentConfig.packet, dibBody, ip4, Ipv4.octets], rfl⟩
    | knxAddresses k => exact ⟨knxAddresses_packet k, rfl⟩
    | manufacturerData x =>
      exact ⟨by simp [Dib.parts, ManufacturerData.packet, dibBody, be16_eq_word], rfl⟩
  simp only [Dib.packet, key.1, key.2, dib, byte]
  have : (2 + (dibBody d).length) % 2 = (dibBody d).length % 2 := by omega
  rw [this]
  by_cases hh : (dibBody d).length % 2 = 0 <;> simp [hh]

/-- The kinds of blocks that round trip. -/
def RoundTrips : Dib → Prop
  | .knxAddresses _ => False
  | .manufacturerData _ => False
  | _ => True

/-- C28, the part that holds: device information, service families, IP config and IP current
config blocks decode from their encoding, leaving exactly what follows, in both overflow modes. -/
theorem C28_dib_roundtrip_partial (m : Mode) (d : Dib) (rest : Bytes) (hc : DibConsistent d) (hk : RoundTrips d) :
    Dib.fromPacket m (d.packet ++ rest) = .ok (d, rest) := by
  obtain ⟨ht, hl, hi⟩ := hc
  rw [dib_packet d fun i e => (hi i e).1]
  have hlt := d.structureLength.isLt
  have hb : byte (2 + (dibBody d).length) = d.structureLength := by rw [← hl, byte_self]
  cases d with
  | deviceInformation i =>
    obtain ⟨h1, h2⟩ := hi i rfl
    have hst : i.status.bits &&& 1 = i.status.bits := by
      obtain ⟨x, hx⟩ := exists_setWidth 1 i.status.bits h2
      rw [hx]; clear hx; revert x; decide +kernel
    rw [dib_deviceInfo_iff]
    refine ⟨deviceInfoBody i ++ rest, ?_, DeviceInfo.fromPacket_iff.2 ⟨rfl, ht, h1, i.status.bits, hst.symm, rfl⟩⟩
    simp only [dib, hb, dibCode]
    simp [dibBody, deviceInfoBody_length, Dib.structureLength, byte]
  | supportedServiceFamilies s =>
    rw [dib_families_iff]
    simp only [Dib.structureLength, dibBody, familiesBody_length] at hl hlt hb
    refine ⟨familiesBody s.families ++ rest, ?_, ServiceFamilies.fromPacket_iff.2
      ⟨rfl, ht, fun _ => by omega, ?_, rfl⟩⟩
    · simp only [dib, dibCode, dibBody, familiesBody_length, hb]
      simp [byte]
    · have : (s.structureLength - 2).toNat = 2 * s.families.length := by
        rw [BitVec.toNat_sub, hl]; simp; omega
      rw [this]; omega
  | ipConfig c =>
    have h3 := IpConfig.fromPacket_iff.2 ⟨rfl, ht, (rfl : _ = dibBody (.ipConfig c) ++ rest)⟩
    simp only [Dib.fromPacket, Rd.bind_ok_iff, Rd.u8_ok_iff, Rd.lift_ok_iff, DescType.ofU8_iff]
    refine ⟨c.structureLength, _, ?_, 3, dibBody (.ipConfig c) ++ rest, rfl, .ipConfig, _, ⟨rfl, rfl⟩, ?_⟩
    · simp only [dib, hb, dibCode]
      simp [dibBody, ip4, Dib.structureLength, byte]
    · simp only [Rd.bind_ok_iff, Rd.pure_ok_iff]
      exact ⟨_, _, h3, rfl, rfl⟩
  | ipCurrentConfig c =>
    have h3 := IpCurrentConfig.fromPacket_iff.2 ⟨rfl, ht, (rfl : _ = dibBody (.ipCurrentConfig c) ++ rest)⟩
    simp only [Dib.fromPacket, Rd.bind_ok_iff, Rd.u8_ok_iff, Rd.lift_ok_iff, DescType.ofU8_iff]
    refine ⟨c.structureLength, _, ?_, 4, dibBody (.ipCurrentConfig c) ++ rest, rfl, .ipCurrentConfig, _,
      ⟨rfl, rfl⟩, ?_⟩
    · simp only [dib, hb, dibCode]
      simp [dibBody, ip4, Dib.structureLength, byte]
    · simp only [Rd.bind_ok_iff, Rd.pure_ok_iff]
      exact ⟨_, _, h3, rfl, rfl⟩
  | knxAddresses k => exact hk.elim
  | manufacturerData x => exact hk.elim

/-- C28 refuted for the other two kinds: a consistent block of KNX addresses or manufacturer data
is never decoded back, whatever follows. -/
theorem C28_violated (m : Mode) (d : Dib) (rest rest' : Bytes) (hc : DibConsistent d) (hk : ¬ RoundTrips d) :
    Dib.fromPacket m (d.packet ++ rest) ≠ .ok (d, rest') := by
  obtain ⟨ht, hl, hi⟩ := hc
  intro h
  cases d with
  | knxAddresses k =>
    simp only [Dib.fromPacket, Rd.bind_ok_iff, Rd.u8_ok_iff, Rd.lift_ok_iff, DescType.ofU8_iff] at h
    obtain ⟨l, _, _, t, _, _, ty, _, ⟨rfl, rfl⟩, h⟩ := h
    cases ty <;> simp only [Rd.bind_ok_iff, Rd.pure_ok_iff] at h <;> obtain ⟨a, r2, h1, h2, rfl⟩ := h <;>
      cases h2
    obtain ⟨rfl, h3, _⟩ := KnxAddresses.fromPacket_imp h1
    have h4 : (dibBody (.knxAddresses k)).length = 4 + 4 * k.additional.length := by
      simp only [dibBody, List.length_append]
      have : ∀ l : List Ipv4, ((l.map ip4).flatten).length = 4 * l.length := by
        intro l; induction l with
        | nil => rfl
        | cons x l ih => simp only [List.map_cons, List.flatten_cons, List.length_append, ih]; simp [ip4]; omega
      rw [this]; simp [ip4]
    rw [h4] at hl
    simp only [Dib.structureLength] at hl
    have h5 := k.structureLength.isLt
    have : (k.structureLength - 4).toNat = 2 + 4 * k.additional.length := by
      rw [BitVec.toNat_sub, hl]; simp; omega
    omega
  | manufacturerData x =>
    simp only [Dib.fromPacket, Rd.bind_ok_iff, Rd.u8_ok_iff, Rd.lift_ok_iff, DescType.ofU8_iff] at h
    obtain ⟨l, _, _, t, _, _, ty, _, ⟨rfl, rfl⟩, h⟩ := h
    cases ty <;> simp only [Rd.bind_ok_iff, Rd.pure_ok_iff] at h <;> obtain ⟨a, r2, h1, h2, rfl⟩ := h <;>
      cases h2
    obtain ⟨rfl, h3, _⟩ := ManufacturerData.fromPacket_imp h1
    simp only [Dib.structureLength, dibBody, List.length_append, word_length] at hl
    omega
  | deviceInformation i => exact hk trivial
  | supportedServiceFamilies i => exact hk trivial
  | ipConfig i => exact hk trivial
  | ipCurrentConfig i => exact hk trivial

example : DibConsistent (.supportedServiceFamilies ⟨6, .supportedServiceFamilies, [⟨2, 1⟩, ⟨4, 1⟩]⟩) :=
  ⟨rfl, by decide, by intro i h; cases h⟩
example : DibConsistent (.deviceInformation exampleDevice) :=
  ⟨rfl, by decide, by rintro i ⟨⟩; exact ⟨⟨by decide, by decide⟩, by decide⟩⟩
example : DibConsistent (.knxAddresses ⟨10, .knxAddresses, ⟨0, 0, 1, 2⟩, [⟨0, 0, 1, 3⟩]⟩) ∧
    DibConsistent (.manufacturerData ⟨7, .manufacturerData, 5, [1, 2, 3]⟩) :=
  ⟨⟨rfl, by decide, by intro i h; cases h⟩, ⟨rfl, by decide, by intro i h; cases h⟩⟩

/-! ## C29 -/

/-- C29, the exact set of panicking inputs of block decoding: debug builds only, and exactly the
blocks with an impossible declared length. -/
theorem C29_dib_panics_iff (m : Mode) (r : Bytes) :
    Dib.fromPacket m r = .panic ↔ m = .debug ∧ ImpossibleDib r := by
  simp only [Dib.fromPacket, Rd.bind_panic_iff, Rd.u8_panic_iff, Rd.u8_ok_iff, Rd.lift_panic_iff, Rd.lift_ok_iff,
    DescType.ofU8_iff, DescType.ofU8_no_panic, false_or]
  constructor
  · rintro ⟨l, _, rfl, t, _, rfl, ty, _, ⟨rfl, rfl⟩, h⟩
    cases ty <;>
      simp only [Rd.bind_panic_iff, Rd.pure_panic_iff, DeviceInfo.fromPacket_no_panic,
        IpConfig.fromPacket_no_panic, IpCurrentConfig.fromPacket_no_panic, ManufacturerData.fromPacket_no_panic,
        ServiceFamilies.fromPacket_panic_iff, KnxAddresses.fromPacket_panic_iff, and_false, exists_false, or_false] at h
    · exact ⟨h.1, .inl ⟨l, _, h.2, rfl⟩⟩
    · exact ⟨h.1, .inr ⟨l, _, h.2.1, h.2.2, rfl⟩⟩
  · rintro ⟨hm, ⟨l, rest, h, rfl⟩ | ⟨l, rest, h, h', rfl⟩⟩
    · refine ⟨l, _, rfl, 2, _, rfl, .supportedServiceFamilies, _, ⟨rfl, rfl⟩, ?_⟩
      simp only [Rd.bind_panic_iff, ServiceFamilies.fromPacket_panic_iff]
      exact .inl ⟨hm, h⟩
    · refine ⟨l, _, rfl, 5, _, rfl, .knxAddresses, _, ⟨rfl, rfl⟩, ?_⟩
      simp only [Rd.bind_panic_iff, KnxAddresses.fromPacket_panic_iff]
      exact .inl ⟨hm, h, h'⟩

/-- C29 for search responses: a panic needs a debug build and an impossible block in one of the
two block positions. -/
theorem C29_search_panics_iff (m : Mode) (r : Bytes) :
    SearchResponse.fromPacket m r = .panic ↔ m = .debug ∧
      ∃ (len : Nat) (ep : Hpai) (r1 : Bytes), len < 65536 ∧ r = header SEARCH_RESPONSE len ++ hpai ep ++ r1 ∧
        (ImpossibleDib r1 ∨
          ∃ (l : U8) (d : DeviceInfo) (r2 : Bytes), IndInRange d.address ∧
            r1 = [l, 1] ++ deviceInfoBody d ++ r2 ∧ ImpossibleDib r2) := by
  simp only [SearchResponse.fromPacket, Rd.bind_panic_iff, Header.fromPacket_no_panic, Header.fromPacket_iff,
    Rd.ensure_panic_iff, Rd.ensure_ok_iff, Hpai.fromPacket_no_panic, Hpai.fromPacket_iff, C29_dib_panics_iff,
    false_or]
  constructor
  · rintro ⟨h, _, rfl, u, _, ⟨hs, rfl⟩, e, _, rfl, hp⟩
    have hs' : h.serviceType = 0x0202 := by simpa using hs
    rcases hp with ⟨hm, hi⟩ | ⟨d1, r1, h1, hp⟩
    · refine ⟨hm, h.totalLength.toNat, e, _, h.totalLength.isLt, ?_, .inl hi⟩
      rw [hs']; simp [SEARCH_RESPONSE]
    · cases d1 <;> simp only [Rd.bind_panic_iff, Rd.pure_panic_iff, Rd.pure_ok_iff, Rd.fail_panic_iff,
        Rd.fail_ok_iff, false_or, false_and, exists_false, C29_dib_panics_iff] at hp
      obtain ⟨d, _, ⟨rfl, rfl⟩, ⟨hm, hi⟩ | ⟨d2, r2, h2, hp⟩⟩ := hp
      · obtain ⟨r3, rfl, h6⟩ := dib_deviceInfo_iff.1 h1
        obtain ⟨_, h7, h8, st, h9, rfl⟩ := DeviceInfo.fromPacket_iff.1 h6
        refine ⟨hm, h.totalLength.toNat, e, _, h.totalLength.isLt, ?_, .inr
          ⟨d.structureLength, { d with status := ⟨st⟩ }, _, h8, rfl, hi⟩⟩
        rw [hs']; simp [SEARCH_RESPONSE]
      · cases d2 <;> simp [Rd.bind_panic_iff, Rd.fail_panic_iff, Rd.fail_ok_iff] at hp
  · rintro ⟨hm, len, ep, r1, hl, rfl, hp⟩
    refine ⟨⟨0x0202, BitVec.ofNat 16 len⟩, hpai ep ++ r1, ?_, (), _, ⟨rfl, rfl⟩, ep, r1, rfl, ?_⟩
    · have : (BitVec.ofNat 16 len).toNat = len := by simp; omega
      simp only [this]
      simp [SEARCH_RESPONSE]
    · rcases hp with hp | ⟨l, d, r2, hd, rfl, hp⟩
      · exact .inl ⟨hm, hp⟩
      · refine .inr ⟨.deviceInformation { d with structureLength := l, descriptionType := .deviceInfo, status := ⟨d.status.bits &&& 1⟩ }, r2,
          dib_deviceInfo_iff.2 ⟨deviceInfoBody d ++ r2, rfl, DeviceInfo.fromPacket_iff.2 ⟨rfl, rfl, hd, d.status.bits, rfl, rfl⟩⟩, ?_⟩
        simp only [Rd.bind_panic_iff, Rd.pure_panic_iff, Rd.pure_ok_iff, C29_dib_panics_iff, false_or]
        exact ⟨_, r2, ⟨rfl, rfl⟩, .inl ⟨hm, hp⟩⟩

/-- C29 refuted: a service-family block of declared length 0 panics in debug builds. -/
theorem C29_violated : ¬ ∀ (m : Mode) (r : Bytes), Dib.fromPacket m r ≠ .panic := by
  intro h
  exact h .debug [0, 2] (by decide)

/-- C29, the part that holds: release builds never panic. -/
theorem C29_release_never_panics_partial (r : Bytes) :
    Dib.fromPacket .release r ≠ .panic ∧ SearchResponse.fromPacket .release r ≠ .panic := by
  constructor
  · rw [Ne, C29_dib_panics_iff]; exact fun h => by cases h.1
  · rw [Ne, C29_search_panics_iff]; exact fun h => by cases h.1

/-! ## C30 -/

/-- C30: an encoded block has an even number of bytes, its first byte is the unpadded length
(modulo 256), its second byte the type code, and padding is at most one zero byte. -/
theorem C30_dib_even (d : Dib) :
    d.packet.length % 2 = 0 ∧
    ∃ body pad, d.packet = dib (2 + body.length) (dibCode d) body ++ pad ∧
      (pad = [] ∨ pad = [0]) ∧ pad.length = body.length % 2 := by
  have hc : d.parts.1.code = byte (dibCode d) := by cases d <;> rfl
  have : ∃ body pad, d.packet = dib (2 + body.length) (dibCode d) body ++ pad ∧
      (pad = [] ∨ pad = [0]) ∧ pad.length = body.length % 2 := by
    refine ⟨d.parts.2, if (2 + d.parts.2.length) % 2 ≠ 0 then [0] else [], ?_, ?_, ?_⟩
    · simp only [Dib.packet, hc, dib]; simp [byte]
    · split <;> simp
    · split <;> simp <;> omega
  refine ⟨?_, this⟩
  obtain ⟨body, pad, h, _, h2⟩ := this
  rw [h]; simp [dib, h2]; omega

example : (Dib.packet (.manufacturerData ⟨7, .manufacturerData, 5, [1, 2, 3]⟩)) = [7, 0xFE, 0, 5, 1, 2, 3, 0] := by
  decide

/-! ## C31 -/

theorem isoEncode_some_iff {s : List Char} {b : Bytes} :
    isoEncode s = some b ↔ (∀ c ∈ s, c.toNat ≤ 0xff) ∧ b = s.map fun c => byte c.toNat := by
  induction s generalizing b with
  | nil => simp [isoEncode, eq_comm]
  | cons c cs ih =>
    simp only [isoEncode]
    split
    · rename_i hc
      simp only [Option.map_eq_some_iff, ih, List.mem_cons, forall_eq_or_imp, List.map_cons]
      constructor
      · rintro ⟨b', ⟨h1, rfl⟩, rfl⟩; exact ⟨⟨hc, h1⟩, rfl⟩
      · rintro ⟨⟨_, h1⟩, rfl⟩; exact ⟨_, ⟨h1, rfl⟩, rfl⟩
    · rename_i hc
      simp [hc]

theorem isoDecode_encode {s : List Char} (h : ∀ c ∈ s, c.toNat ≤ 0xff) :
    isoDecode (s.map fun c => byte c.toNat) = s := by
  induction s with
  | nil => rfl
  | cons c cs ih =>
    simp only [List.mem_cons, forall_eq_or_imp] at h
    simp only [isoDecode, List.map_cons] at ih ⊢
    rw [ih h.2, byte_toNat (by omega)]
    simp

/-- C31: a device information block can be created exactly from names of 30 ISO-8859-1
characters; it has the given fields and the name reads back unchanged; creation never panics and
reading the name never fails. -/
theorem C31_friendly_name (l : U8) (md : KnxMedium) (st : DeviceStatus) (ad : IndAddr) (pid : U16)
    (ser : Vector U8 6) (mc : Ipv4) (mac : Vector U8 6) (name : List Char) :
    ((∃ d, DeviceInfo.new l md st ad pid ser mc mac name = .ok d) ↔
      name.length = 30 ∧ ∀ c ∈ name, c.toNat ≤ 0xff) ∧
    (∀ d, DeviceInfo.new l md st ad pid ser mc mac name = .ok d →
      d.friendlyNameStr = .ok name ∧ d.structureLength = l ∧ d.medium = md ∧ d.status = st ∧ d.address = ad ∧
      d.projectId = pid ∧ d.serial = ser ∧ d.multicast = mc ∧ d.mac = mac ∧ d.descriptionType = .deviceInfo) ∧
    DeviceInfo.new l md st ad pid ser mc mac name ≠ .panic := by
  unfold DeviceInfo.new
  cases h : isoEncode name with
  | none =>
    refine ⟨?_, by simp, by simp⟩
    constructor
    · rintro ⟨d, hd⟩; cases hd
    · rintro ⟨_, h2⟩
      rw [isoEncode_some_iff.2 ⟨h2, rfl⟩] at h; cases h
  | some b =>
    obtain ⟨h1, rfl⟩ := isoEncode_some_iff.1 h
    by_cases hl : name.length = 30
    · simp only [List.length_map, hl, dite_true]
      refine ⟨⟨fun _ => ⟨trivial, h1⟩, fun _ => ⟨_, rfl⟩⟩, ?_, by simp⟩
      intro d hd
      simp only [Res.ok.injEq] at hd
      subst hd
      refine ⟨?_, rfl, rfl, rfl, rfl, rfl, rfl, rfl, rfl, rfl⟩
      simp only [DeviceInfo.friendlyNameStr, Vector.toList]
      rw [isoDecode_encode h1]
    · simp only [List.length_map, hl, dite_false]
      simp

theorem C31_friendly_name_total (d : DeviceInfo) : ∃ s, d.friendlyNameStr = .ok s ∧ s.length = 30 :=
  ⟨_, rfl, by simp [isoDecode]⟩

example : ∃ d, DeviceInfo.new 54 .tp1 ⟨0⟩ ⟨1, 1, 1⟩ 0 (Vector.replicate 6 0) ⟨0, 0, 0, 0⟩ (Vector.replicate 6 0)
    (List.replicate 29 'x' ++ ['é']) = .ok d :=
  (C31_friendly_name ..).1.2 ⟨by decide, by decide⟩

end Knx
