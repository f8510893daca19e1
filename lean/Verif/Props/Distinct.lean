import Verif.Props.Dib
import Verif.Props.Addresses

/-!
# Property C135: different messages are different octets

The full statement: two messages that are encoded to the same octets are the same message.
It is false in four ways, all of them given here, and true in every other respect.
-/

namespace Knx

open Spec

/-- The messages of KNXnet/IP that the library can encode. -/
inductive Letter where
  | connect (c : ConnectionRequest)
  | connected (c : ConnectionResponse)
  | state (c : ConnectionstateRequest)
  | stateIs (c : ConnectionstateResponse)
  | disconnect (c : DisconnectRequest)
  | disconnected (c : DisconnectResponse)
  | search (s : SearchRequest)
  | found (s : SearchResponse)
  | tunnel (t : TunnelingRequest)
  | ack (t : TunnelingAck)
  | setFeature (f : FeatureSet)
  | featureIs (f : FeatureResp)

/-- The octets of a message. -/
def Letter.octets (m : Mode) : Letter → Res Bytes
  | .connect c => .ok c.packet
  | .connected c => .ok c.packet
  | .state c => .ok c.packet
  | .stateIs c => .ok c.packet
  | .disconnect c => .ok c.packet
  | .disconnected c => .ok c.packet
  | .search s => .ok s.packet
  | .found s => .ok s.packet
  | .tunnel t => t.packet m
  | .ack t => .ok t.packet
  | .setFeature f => .ok f.packet
  | .featureIs f => .ok f.packet

/-- The number that is written for a device address, in range or not: the area above the line above the device, the bits of the line
that do not fit falling on those of the area, and the bits of the area that do not fit lost. -/
def addressNumber (a : IndAddr) : Nat :=
  (a.area.toNat * 4096 % 65536) ||| (a.line.toNat * 256) ||| a.address.toNat

/-- Which two messages cannot be told apart. -/
def SameWire : Letter → Letter → Prop
  | .connect c, .connect d => c = d
  | .connected c, .connected d =>
    c.channel = d.channel ∧ c.status = d.status ∧ c.dataEndpoint = d.dataEndpoint ∧
      addressNumber c.crd.address = addressNumber d.crd.address
  | .state c, .state d => c = d
  | .stateIs c, .stateIs d => c = d
  | .disconnect c, .disconnect d => c = d
  | .disconnected c, .disconnected d => c = d
  | .search c, .search d => c = d
  | .found c, .found d =>
    c.controlEndpoint = d.controlEndpoint ∧
    addressNumber c.deviceHardware.address = addressNumber d.deviceHardware.address ∧
    d.deviceHardware = { c.deviceHardware with
      structureLength := d.deviceHardware.structureLength
      descriptionType := d.deviceHardware.descriptionType
      address := d.deviceHardware.address } ∧
    c.serviceFamilies.families = d.serviceFamilies.families
  | .tunnel c, .tunnel d => c = d
  | .ack c, .ack d => c = d
  | .setFeature c, .setFeature d => c = d
  | .setFeature c, .featureIs d | .featureIs d, .setFeature c =>
    c.feature = d.feature ∧ c.value = d.value ∧ c.channel = d.channel ∧ c.seq = d.seq
  | .featureIs c, .featureIs d => d = { c with status := d.status }
  | _, _ => False

/-! ## The parts -/

theorem toU16_addressNumber (a : IndAddr) : a.toU16.toNat = addressNumber a := by
  have h1 := a.area.isLt
  have h2 := a.line.isLt
  have h3 := a.address.isLt
  simp only [IndAddr.toU16, addressNumber, BitVec.toNat_or, BitVec.toNat_shiftLeft, BitVec.toNat_setWidth, Nat.shiftLeft_eq]
  rw [Nat.mod_eq_of_lt (show a.area.toNat < 2 ^ 16 by omega), Nat.mod_eq_of_lt (show a.line.toNat < 2 ^ 16 by omega),
    Nat.mod_eq_of_lt (show a.address.toNat < 2 ^ 16 by omega), Nat.mod_eq_of_lt (show a.line.toNat * 2 ^ 8 < 2 ^ 16 by omega)]
  simp

theorem toU16_alike {a b : IndAddr} : be16 a.toU16 = be16 b.toU16 ↔ addressNumber a = addressNumber b := by
  rw [be16_inj, ← toU16_addressNumber, ← toU16_addressNumber]
  exact ⟨fun h => by rw [h], BitVec.eq_of_toNat_eq⟩

theorem octets_alike {a b : Ipv4} : a.octets = b.octets ↔ a = b := by
  cases a; cases b; simp [Ipv4.octets]

theorem hpai_alike {a b : Hpai} : a.packet = b.packet ↔ a = b := by
  obtain ⟨c, ⟨⟨i1, i2, i3, i4⟩, p⟩⟩ := a
  obtain ⟨d, ⟨⟨j1, j2, j3, j4⟩, q⟩⟩ := b
  constructor
  · intro h
    have h' : [8, c, i1, i2, i3, i4] ++ be16 p = [8, d, j1, j2, j3, j4] ++ be16 q := h
    have := List.append_inj h' rfl
    have hp := be16_inj.1 this.2
    simp only [List.cons.injEq, and_true, true_and] at this
    obtain ⟨⟨rfl, rfl, rfl, rfl, rfl⟩, -⟩ := this
    rw [hp]
  · rintro h; rw [h]

theorem hpai_octets (h : Hpai) : h.packet.length = 8 := rfl

theorem families_alike {a b : ServiceFamilies} : a.packet = b.packet ↔ a.families = b.families := by
  obtain ⟨l, t, a⟩ := a
  obtain ⟨l', t', b⟩ := b
  simp only [ServiceFamilies.packet]
  constructor
  · intro h
    induction a generalizing b with
    | nil => cases b with
      | nil => rfl
      | cons y b => simp at h
    | cons x a ih => cases b with
      | nil => simp at h
      | cons y b =>
        simp only [List.flatMap_cons, List.cons_append, List.nil_append, List.cons.injEq] at h
        obtain ⟨h1, h2, h3⟩ := h
        obtain ⟨x1, x2⟩ := x
        obtain ⟨y1, y2⟩ := y
        simp only at h1 h2
        rw [h1, h2, ih b h3]
  · intro h; rw [h]

theorem medium_alike {a b : KnxMedium} : a.code = b.code ↔ a = b := by
  cases a <;> cases b <;> decide

theorem feature_alike {a b : KnxIpFeature} : a.code = b.code ↔ a = b := by
  cases a <;> cases b <;> decide

theorem device_alike {a b : DeviceInfo} : a.packet = b.packet ↔
    addressNumber a.address = addressNumber b.address ∧
    b = { a with structureLength := b.structureLength, descriptionType := b.descriptionType, address := b.address } := by
  obtain ⟨l, t, me, ⟨st⟩, ad, pr, se, mu, ma, na⟩ := a
  obtain ⟨l', t', me', ⟨st'⟩, ad', pr', se', mu', ma', na'⟩ := b
  simp only [DeviceInfo.packet, DeviceInfo.mk.injEq, DeviceStatus.mk.injEq, true_and]
  constructor
  · intro h
    obtain ⟨h, h8⟩ := List.append_inj' h (by simp)
    obtain ⟨h, h7⟩ := List.append_inj' h (by simp)
    obtain ⟨h, h6⟩ := List.append_inj' h rfl
    obtain ⟨h, h5⟩ := List.append_inj' h (by simp)
    obtain ⟨h, h4⟩ := List.append_inj' h rfl
    obtain ⟨h, h3⟩ := List.append_inj' h rfl
    obtain ⟨h1, h2⟩ := List.append_inj' h rfl
    refine ⟨toU16_alike.1 h3, (medium_alike.1 (List.cons.inj h1).1).symm, (List.cons.inj h2).1.symm, (be16_inj.1 h4).symm,
      (Vector.toList_inj.1 h5).symm, (octets_alike.1 h6).symm, (Vector.toList_inj.1 h7).symm, (Vector.toList_inj.1 h8).symm⟩
  · rintro ⟨h, rfl, rfl, rfl, rfl, rfl, rfl, rfl⟩
    rw [toU16_alike.2 h]

theorem device_octets (d : DeviceInfo) : d.packet.length = 52 := by
  simp [DeviceInfo.packet, Ipv4.octets]

/-! ## The service a message asks for -/

/-- The first four octets of a message. -/
def Letter.code : Letter → Bytes
  | .connect _ => [6, 0x10, 2, 5]
  | .connected _ => [6, 0x10, 2, 6]
  | .state _ => [6, 0x10, 2, 7]
  | .stateIs _ => [6, 0x10, 2, 8]
  | .disconnect _ => [6, 0x10, 2, 9]
  | .disconnected _ => [6, 0x10, 2, 10]
  | .search _ => [6, 0x10, 2, 1]
  | .found _ => [6, 0x10, 2, 2]
  | .tunnel _ => [6, 0x10, 4, 0x20]
  | .ack _ => [6, 0x10, 4, 0x21]
  | .setFeature _ => [6, 0x10, 4, 0x24]
  | .featureIs _ => [6, 0x10, 4, 0x24]

theorem tunnel_octets {m : Mode} {t : TunnelingRequest} {p : Bytes} (h : t.packet m = .ok p) :
    ∃ s : U16, p = [0x06, 0x10, 0x04, 0x20] ++ be16 s ++ [4, t.channel, t.seq, 0] ++ t.cemi := by
  unfold TunnelingRequest.packet at h
  split at h
  · rename_i s _; cases h; exact ⟨s, rfl⟩
  · cases h
  · cases h

theorem octets_code {m : Mode} {x : Letter} {p : Bytes} (h : x.octets m = .ok p) : p.take 4 = x.code := by
  cases x with
  | tunnel t => obtain ⟨s, rfl⟩ := tunnel_octets h; rfl
  | _ => cases h; rfl

/-! ## The messages -/

theorem connect_alike {c d : ConnectionRequest} (h : c.packet = d.packet) : c = d := by
  simp only [ConnectionRequest.packet, hpai_octets] at h
  obtain ⟨h, h3⟩ := List.append_inj' h (by simp [Cri.packet])
  obtain ⟨h, h2⟩ := List.append_inj' h (by simp [hpai_octets])
  obtain ⟨-, h1⟩ := List.append_inj' h (by simp [hpai_octets])
  obtain ⟨a, b, ⟨e⟩⟩ := c
  obtain ⟨a', b', ⟨e'⟩⟩ := d
  have e1 : a = a' := hpai_alike.1 h1
  have e2 : b = b' := hpai_alike.1 h2
  have e3 : e = e' := (List.cons.inj (List.cons.inj (List.cons.inj h3).2).2).1
  rw [e1, e2, e3]

theorem connected_alike {c d : ConnectionResponse} (h : c.packet = d.packet) :
    c.channel = d.channel ∧ c.status = d.status ∧ c.dataEndpoint = d.dataEndpoint ∧
      addressNumber c.crd.address = addressNumber d.crd.address := by
  simp only [ConnectionResponse.packet, Crd.packet] at h
  obtain ⟨h, h3⟩ := List.append_inj' h (by simp)
  obtain ⟨h1, h2⟩ := List.append_inj' h (by simp [hpai_octets])
  simp only [List.cons.injEq, and_true, true_and] at h1
  exact ⟨h1.1, h1.2, hpai_alike.1 h2, toU16_alike.1 (List.append_inj' h3 (by simp)).2⟩

theorem state_alike {c d : ConnectionstateRequest} (h : c.packet = d.packet) : c = d := by
  simp only [ConnectionstateRequest.packet] at h
  obtain ⟨h, h3⟩ := List.append_inj' h (by simp [hpai_octets])
  obtain ⟨h, -⟩ := List.append_inj' h (by simp)
  obtain ⟨-, h1⟩ := List.append_inj' h (by simp)
  obtain ⟨a, b⟩ := c
  obtain ⟨a', b'⟩ := d
  have e1 : a = a' := (List.cons.inj h1).1
  have e2 : b = b' := hpai_alike.1 h3
  rw [e1, e2]

theorem stateIs_alike {c d : ConnectionstateResponse} (h : c.packet = d.packet) : c = d := by
  simp only [ConnectionstateResponse.packet, List.cons.injEq, and_true, true_and] at h
  obtain ⟨a, b⟩ := c
  obtain ⟨a', b'⟩ := d
  have e1 : a = a' := h.1
  have e2 : b = b' := h.2
  rw [e1, e2]

theorem disconnect_alike {c d : DisconnectRequest} (h : c.packet = d.packet) : c = d := by
  simp only [DisconnectRequest.packet] at h
  obtain ⟨h, h3⟩ := List.append_inj' h (by simp [hpai_octets])
  obtain ⟨h, -⟩ := List.append_inj' h (by simp)
  obtain ⟨-, h1⟩ := List.append_inj' h (by simp)
  obtain ⟨a, b⟩ := c
  obtain ⟨a', b'⟩ := d
  have e1 : a = a' := (List.cons.inj h1).1
  have e2 : b = b' := hpai_alike.1 h3
  rw [e1, e2]

theorem disconnected_alike {c d : DisconnectResponse} (h : c.packet = d.packet) : c = d := by
  simp only [DisconnectResponse.packet] at h
  obtain ⟨h, h3⟩ := List.append_inj' h (by simp)
  obtain ⟨-, h1⟩ := List.append_inj' h (by simp)
  obtain ⟨a, b⟩ := c
  obtain ⟨a', b'⟩ := d
  have e1 : a = a' := (List.cons.inj h1).1
  have e2 : b = b' := (List.cons.inj h3).1
  rw [e1, e2]

theorem search_alike {c d : SearchRequest} (h : c.packet = d.packet) : c = d := by
  simp only [SearchRequest.packet] at h
  obtain ⟨a⟩ := c
  obtain ⟨a'⟩ := d
  have e1 : a = a' := hpai_alike.1 (List.append_inj' h (by simp [hpai_octets])).2
  rw [e1]

theorem found_alike {c d : SearchResponse} (h : c.packet = d.packet) :
    c.controlEndpoint = d.controlEndpoint ∧ c.deviceHardware.packet = d.deviceHardware.packet ∧
    c.serviceFamilies.families = d.serviceFamilies.families := by
  simp only [SearchResponse.packet, List.append_assoc] at h
  obtain ⟨-, h⟩ := List.append_inj h (by simp)
  obtain ⟨-, h⟩ := List.append_inj h (by simp)
  obtain ⟨h1, h⟩ := List.append_inj h (by simp [hpai_octets])
  obtain ⟨h2, h3⟩ := List.append_inj h (by rw [device_octets, device_octets])
  exact ⟨hpai_alike.1 h1, h2, families_alike.1 h3⟩

theorem tunnel_alike {m n : Mode} {c d : TunnelingRequest} {p : Bytes} (hc : c.packet m = .ok p) (hd : d.packet n = .ok p) :
    c = d := by
  obtain ⟨s, rfl⟩ := tunnel_octets hc
  obtain ⟨s', h⟩ := tunnel_octets hd
  simp only [List.append_assoc] at h
  obtain ⟨-, h⟩ := List.append_inj h (by simp)
  obtain ⟨-, h⟩ := List.append_inj h (by simp)
  obtain ⟨h1, h2⟩ := List.append_inj h (by simp)
  simp only [List.cons.injEq, and_true, true_and] at h1
  obtain ⟨a, b, e⟩ := c
  obtain ⟨a', b', e'⟩ := d
  have e1 : a = a' := h1.1
  have e2 : b = b' := h1.2
  have e3 : e = e' := h2
  rw [e1, e2, e3]

theorem ack_alike {c d : TunnelingAck} (h : c.packet = d.packet) : c = d := by
  simp only [TunnelingAck.packet, List.cons_append, List.nil_append, List.cons.injEq, and_true, true_and] at h
  obtain ⟨a, b, e⟩ := c
  obtain ⟨a', b', e'⟩ := d
  have e1 : a = a' := h.1
  have e2 : b = b' := h.2.1
  have e3 : e = e' := h.2.2
  rw [e1, e2, e3]

theorem setFeature_alike {c d : FeatureSet} (h : c.packet = d.packet) :
    c.feature = d.feature ∧ c.value = d.value ∧ c.channel = d.channel ∧ c.seq = d.seq := by
  simp only [FeatureSet.packet, List.cons_append, List.nil_append, List.cons.injEq, and_true, true_and] at h
  exact ⟨feature_alike.1 h.2.2.1, h.2.2.2, h.1, h.2.1⟩

/-- C135, exactly: two messages that are encoded, in builds of the same kind or not, are encoded to the same octets only if they
differ in nothing but what is not written. -/
theorem C135_partial {m n : Mode} {x y : Letter} {p : Bytes} (hx : x.octets m = .ok p) (hy : y.octets n = .ok p) :
    SameWire x y := by
  have hc : x.code = y.code := by rw [← octets_code hx, ← octets_code hy]
  cases x <;> cases y <;> first | (exfalso; revert hc; simp only [Letter.code]; decide) | skip
  · exact connect_alike ((Res.ok.inj hx).trans (Res.ok.inj hy).symm)
  · exact connected_alike ((Res.ok.inj hx).trans (Res.ok.inj hy).symm)
  · exact state_alike ((Res.ok.inj hx).trans (Res.ok.inj hy).symm)
  · exact stateIs_alike ((Res.ok.inj hx).trans (Res.ok.inj hy).symm)
  · exact disconnect_alike ((Res.ok.inj hx).trans (Res.ok.inj hy).symm)
  · exact disconnected_alike ((Res.ok.inj hx).trans (Res.ok.inj hy).symm)
  · exact search_alike ((Res.ok.inj hx).trans (Res.ok.inj hy).symm)
  · obtain ⟨h1, h2, h3⟩ := found_alike ((Res.ok.inj hx).trans (Res.ok.inj hy).symm)
    exact ⟨h1, (device_alike.1 h2).1, (device_alike.1 h2).2, h3⟩
  · exact tunnel_alike hx hy
  · exact ack_alike ((Res.ok.inj hx).trans (Res.ok.inj hy).symm)
  · rename_i c d
    obtain ⟨h1, h2, h3, h4⟩ := setFeature_alike ((Res.ok.inj hx).trans (Res.ok.inj hy).symm)
    obtain ⟨a, b, e, f⟩ := c
    obtain ⟨a', b', e', f'⟩ := d
    simp only at h1 h2 h3 h4
    show FeatureSet.mk a b e f = FeatureSet.mk a' b' e' f'
    rw [h1, h2, h3, h4]
  · rename_i c d
    exact setFeature_alike (d := ⟨d.feature, d.value, d.channel, d.seq⟩) ((Res.ok.inj hx).trans (Res.ok.inj hy).symm)
  · rename_i c d
    exact setFeature_alike (d := ⟨c.feature, c.value, c.channel, c.seq⟩) ((Res.ok.inj hy).trans (Res.ok.inj hx).symm)
  · rename_i c d
    obtain ⟨h1, h2, h3, h4⟩ := setFeature_alike (c := ⟨c.feature, c.value, c.channel, c.seq⟩)
      (d := ⟨d.feature, d.value, d.channel, d.seq⟩) ((Res.ok.inj hx).trans (Res.ok.inj hy).symm)
    obtain ⟨a, b, g, e, f⟩ := c
    obtain ⟨a', b', g', e', f'⟩ := d
    simp only at h1 h2 h3 h4
    show FeatureResp.mk a' b' g' e' f' = FeatureResp.mk a b g' e f
    rw [h1, h2, h3, h4]

/-- C135, the other direction: messages that are alike are encoded to the same octets, whatever the messages are. -/
theorem C135_alike (m : Mode) {x y : Letter} (h : SameWire x y) : x.octets m = y.octets m := by
  cases x <;> cases y <;> simp only [SameWire] at h <;> first | (subst h; rfl) | skip
  · obtain ⟨h1, h2, h3, h4⟩ := h
    simp only [Letter.octets, ConnectionResponse.packet, Crd.packet, h1, h2, h3, toU16_alike.2 h4]
  · obtain ⟨h1, h2, h3, h4⟩ := h
    have h2 := device_alike.2 ⟨h2, h3⟩
    simp only [Letter.octets, SearchResponse.packet, h1, h2, families_alike.2 h4]
  · obtain ⟨h1, h2, h3, h4⟩ := h
    simp only [Letter.octets, FeatureSet.packet, FeatureResp.packet, h1, h2, h3, h4]
  · obtain ⟨h1, h2, h3, h4⟩ := h
    simp only [Letter.octets, FeatureSet.packet, FeatureResp.packet, h1, h2, h3, h4]
  · rw [h]; rfl

/-- Every message but a tunneling request is encoded, and a tunneling request is in a release build. -/
theorem C135_encoded (x : Letter) : ∃ p, x.octets .release = .ok p := by
  cases x with
  | tunnel t => simp [Letter.octets, TunnelingRequest.packet, addU]
  | _ => exact ⟨_, rfl⟩

/-- C135, both directions. -/
theorem C135_iff (x y : Letter) : x.octets .release = y.octets .release ↔ SameWire x y := by
  constructor
  · intro h
    obtain ⟨p, hp⟩ := C135_encoded x
    exact C135_partial hp (h ▸ hp)
  · exact C135_alike .release

/-- Within the ranges the number of a device address is the address. -/
theorem C135_address {a b : IndAddr} (ha : IndInRange a) (hb : IndInRange b) (h : addressNumber a = addressNumber b) : a = b := by
  have h := be16_inj.1 (toU16_alike.2 h)
  rw [← (C01_individual_u16_roundtrip.2 a).2 ha, ← (C01_individual_u16_roundtrip.2 b).2 hb, h]

/-! ## Different messages, the same octets -/

/-- An answer to a feature request is the octets of a request to set the feature. -/
theorem C135_violated_feature (f : FeatureResp) (m : Mode) :
    (Letter.featureIs f).octets m = (Letter.setFeature ⟨f.feature, f.value, f.channel, f.seq⟩).octets m := rfl

/-- An answer that says the feature could not be read is the octets of one that says it was. -/
theorem C135_violated_status : ∃ f g : FeatureResp, f.status ≠ g.status ∧
    ∀ m, (Letter.featureIs f).octets m = (Letter.featureIs g).octets m :=
  ⟨⟨.infoServiceEnable, 1, 0, 1, 0⟩, ⟨.infoServiceEnable, 1, 0x21, 1, 0⟩, by decide, fun _ => rfl⟩

/-- Device addresses out of range: `1.16.0` is written as `1.0.0`. -/
theorem C135_violated_address : ∃ c d : ConnectionResponse, c.crd ≠ d.crd ∧
    ∀ m, (Letter.connected c).octets m = (Letter.connected d).octets m :=
  ⟨⟨1, 0, Hpai.udp, ⟨⟨1, 16, 0⟩⟩⟩, ⟨1, 0, Hpai.udp, ⟨⟨1, 0, 0⟩⟩⟩, by decide, fun _ => rfl⟩

/-- The length and the kind that a description block says of itself are not written with a search response. -/
theorem C135_violated_device (s : SearchResponse) (l : U8) (t : DescType) (m : Mode) :
    (Letter.found s).octets m =
      (Letter.found { s with deviceHardware := { s.deviceHardware with structureLength := l, descriptionType := t } }).octets m := rfl

example : SameWire (.ack ⟨1, 2, 0⟩) (.ack ⟨1, 2, 0⟩) ∧ ¬ SameWire (.ack ⟨1, 2, 0⟩) (.ack ⟨1, 3, 0⟩) :=
  ⟨rfl, by simp [SameWire]⟩

example : ¬ SameWire (.state ⟨1, Hpai.udp⟩) (.disconnect ⟨1, Hpai.udp⟩) := id

example : (Letter.tunnel ⟨1, 0, []⟩).octets .debug ≠ (Letter.tunnel ⟨1, 0, [0]⟩).octets .debug :=
  fun h => absurd (h : (.ok [6, 0x10, 4, 0x20, 0, 10, 4, 1, 0, 0] : Res Bytes) = .ok [6, 0x10, 4, 0x20, 0, 11, 4, 1, 0, 0, 0]) (by decide)

end Knx
