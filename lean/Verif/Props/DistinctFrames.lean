import Verif.Props.Distinct

/-!
# Property C136: different requests to the bus are different frames, and different description blocks are different octets

The full statement: two requests to the bus that are encoded to the same frame are the same request, and two description blocks that
are encoded to the same octets are the same block.
What is not written, or written on top of something else, is given exactly.
-/

namespace Knx

open Spec

/-! ## The requests -/

/-- The ten bits of an application service and what is written into its low six bits, as a number. -/
def serviceBits (a : Apdu) : Nat :=
  a.apci.code.toNat % 16 * 64 + ((a.apci.extendedCode.getD 0).toNat % 64 |||
    match a.data with
    | .small d => d.toNat % 64
    | .big _ => 0)

/-- The octets that follow the service. -/
def following (a : Apdu) : Bytes :=
  match a.data with
  | .small _ => []
  | .big d => d

/-- The number of a destination, whatever its kind and whether its parts are in range or not. -/
def destinationNumber : KnxAddress → Nat
  | .individual a => addressNumber a
  | .group3 a => (a.main.toNat * 2048 % 65536) ||| (a.middle.toNat * 256) ||| a.sub.toNat
  | .group2 a => a.main.toNat * 256 + a.sub.toNat
  | .group1 a => a.main.toNat

theorem toU16_destination (a : KnxAddress) : a.toU16.toNat = destinationNumber a := by
  cases a with
  | individual a => exact toU16_addressNumber a
  | group3 a =>
    have h1 := a.main.isLt
    have h2 := a.middle.isLt
    have h3 := a.sub.isLt
    simp only [KnxAddress.toU16, Group3.toU16, destinationNumber, BitVec.toNat_or, BitVec.toNat_shiftLeft, BitVec.toNat_setWidth,
      Nat.shiftLeft_eq]
    rw [Nat.mod_eq_of_lt (show a.main.toNat < 2 ^ 16 by omega), Nat.mod_eq_of_lt (show a.middle.toNat < 2 ^ 16 by omega),
      Nat.mod_eq_of_lt (show a.sub.toNat < 2 ^ 16 by omega), Nat.mod_eq_of_lt (show a.middle.toNat * 2 ^ 8 < 2 ^ 16 by omega)]
    simp
  | group2 a =>
    have h2 := a.main.isLt
    have h3 := a.sub.isLt
    simp only [KnxAddress.toU16, Group2.toU16, destinationNumber, BitVec.toNat_or, BitVec.toNat_shiftLeft, BitVec.toNat_setWidth]
    rw [Nat.mod_eq_of_lt (show a.main.toNat < 2 ^ 16 by omega), Nat.mod_eq_of_lt (show a.sub.toNat < 2 ^ 16 by omega),
      Nat.mod_eq_of_lt (show a.main.toNat <<< 8 < 2 ^ 16 by rw [Nat.shiftLeft_eq]; omega)]
    rw [show (0 : U16).toNat = 0 from rfl, Nat.zero_or, ← Nat.shiftLeft_add_eq_or_of_lt h3, Nat.shiftLeft_eq]
  | group1 a => rfl

theorem low4 (c : U8) : (c &&& 15#8).toNat = c.toNat % 16 := by
  rw [BitVec.toNat_and]; exact Nat.and_two_pow_sub_one_eq_mod _ 4

theorem low6 (c : U8) : (c &&& 0x3f#8).toNat = c.toNat % 64 := by
  rw [BitVec.toNat_and]; exact Nat.and_two_pow_sub_one_eq_mod _ 6

theorem service_word (c x y : U8) :
    be16 (BitVec.ofNat 16 (c.toNat % 16 * 64 + (x.toNat % 64 ||| y.toNat % 64))) =
      [(c &&& 0b1100#8) >>> 2, ((c &&& 0b11#8) <<< 6) ||| (x &&& 0x3f#8) ||| (y &&& 0x3f#8)] := by
  have hw : BitVec.ofNat 16 (c.toNat % 16 * 64 + (x.toNat % 64 ||| y.toNat % 64)) =
      ((c &&& 15#8).setWidth 16 <<< 6) ||| ((x &&& 0x3f#8) ||| (y &&& 0x3f#8)).setWidth 16 := by
    have hxy : x.toNat % 64 ||| y.toNat % 64 < 2 ^ 6 :=
      Nat.or_lt_two_pow (Nat.mod_lt _ (by decide)) (Nat.mod_lt _ (by decide))
    have hc : c.toNat % 16 < 16 := Nat.mod_lt _ (by decide)
    apply BitVec.eq_of_toNat_eq
    rw [BitVec.toNat_or, BitVec.toNat_shiftLeft, BitVec.toNat_setWidth, BitVec.toNat_setWidth, BitVec.toNat_or, low4, low6, low6,
      BitVec.toNat_ofNat, Nat.mod_eq_of_lt (show c.toNat % 16 < 2 ^ 16 by omega),
      Nat.mod_eq_of_lt (show (x.toNat % 64 ||| y.toNat % 64) < 2 ^ 16 by omega),
      Nat.mod_eq_of_lt (show (c.toNat % 16) <<< 6 < 2 ^ 16 by rw [Nat.shiftLeft_eq]; omega),
      ← Nat.shiftLeft_add_eq_or_of_lt hxy, Nat.shiftLeft_eq, Nat.mod_eq_of_lt (by omega)]
  rw [hw]
  simp only [be16, List.cons.injEq, and_true]
  constructor
  · bits8
  · bits8

/-- The octets of an application layer message: the ten bits of the service in two octets, and what follows. -/
theorem apdu_octets (a : Apdu) : a.packet = be16 (BitVec.ofNat 16 (serviceBits a)) ++ following a := by
  obtain ⟨⟨c, e⟩, d⟩ := a
  cases e <;> cases d
  · rename_i d
    have := service_word c 0 d
    simp only [Apdu.packet, Apci.packet, serviceBits, following, Option.getD]
    rw [this]; simp
  · have := service_word c 0 0
    simp only [Apdu.packet, Apci.packet, serviceBits, following, Option.getD]
    rw [show (0 : Nat) = (0 : U8).toNat % 64 from rfl, this]; simp
  · rename_i e d
    have := service_word c e d
    simp only [Apdu.packet, Apci.packet, serviceBits, following, Option.getD]
    rw [this]; simp
  · rename_i e d
    have := service_word c e 0
    simp only [Apdu.packet, Apci.packet, serviceBits, following, Option.getD]
    rw [show (0 : Nat) = (0 : U8).toNat % 64 from rfl, this]; simp

theorem serviceBits_lt (a : Apdu) : serviceBits a < 1024 := by
  have h1 : a.apci.code.toNat % 16 < 16 := Nat.mod_lt _ (by decide)
  have h2 : ((a.apci.extendedCode.getD 0).toNat % 64 |||
    match a.data with
    | .small d => d.toNat % 64
    | .big _ => 0) < 2 ^ 6 := by
    refine Nat.or_lt_two_pow (n := 6) (Nat.mod_lt _ (by decide)) ?_
    split
    · exact Nat.mod_lt _ (by decide)
    · decide
  unfold serviceBits
  omega

/-- C136: two application layer messages have the same octets exactly if they agree in the ten bits of the service and in the octets
that follow. -/
theorem C136_apdu_iff {a b : Apdu} : a.packet = b.packet ↔ serviceBits a = serviceBits b ∧ following a = following b := by
  rw [apdu_octets, apdu_octets]
  constructor
  · intro h
    obtain ⟨h1, h2⟩ := List.append_inj h (by simp)
    have h1 := congrArg BitVec.toNat (be16_inj.1 h1)
    simp only [BitVec.toNat_ofNat] at h1
    rw [Nat.mod_eq_of_lt (Nat.lt_trans (serviceBits_lt a) (by decide)),
      Nat.mod_eq_of_lt (Nat.lt_trans (serviceBits_lt b) (by decide))] at h1
    exact ⟨h1, h2⟩
  · rintro ⟨h1, h2⟩; rw [h1, h2]

/-- The frame of a request: the length octet is the only part that depends on the build. -/
theorem request_octets {m : Mode} {r : LDataReq} {p : Bytes} (h : r.packet m = .ok p) :
    p = ([0x11, 0, 0xb0#8 ||| ((r.priority &&& 0x3#8) <<< 2), 0xe0, 0, 0] : Bytes) ++ be16 r.dest.toU16 ++
      [BitVec.ofNat 8 r.tpdu.apdu.packet.length - 1] ++ r.tpdu.apdu.packet := by
  have hl : ∀ {a l : U8}, subU m a 1 = .ok l → l = a - 1 := by
    intro a l h
    unfold subU at h
    split at h
    · cases h; rfl
    · cases m <;> cases h
      rfl
  unfold LDataReq.packet at h
  simp only [Tpdu.packet] at h
  split at h
  · rename_i l e
    cases h
    rw [hl e]
    rfl
  · cases h
  · cases h

theorem priority_alike {a b : U8} : 0xb0#8 ||| ((a &&& 0x3#8) <<< 2) = 0xb0#8 ||| ((b &&& 0x3#8) <<< 2) ↔
    a.toNat % 4 = b.toNat % 4 := by
  have hc : ∀ c : U8, c.toNat % 4 = (c &&& 0x3#8).toNat := fun c => by
    rw [BitVec.toNat_and]; exact (Nat.and_two_pow_sub_one_eq_mod _ 2).symm
  rw [hc, hc]
  constructor
  · intro h
    have h2 : ∀ c : U8, ((0xb0#8 ||| ((c &&& 0x3#8) <<< 2)) >>> 2) &&& 3#8 = c &&& 3#8 := by
      intro c; bits8
    rw [← h2 a, ← h2 b, h]
  · intro h; rw [BitVec.eq_of_toNat_eq h]

/-- C136, exactly: two requests that are encoded, in builds of the same kind or not, are encoded to the same frame exactly if the low two bits of
their priorities, the numbers of their destinations, the ten bits of their services and the octets that follow are the same. -/
theorem C136_request_iff {m n : Mode} {r s : LDataReq} {p q : Bytes} (hr : r.packet m = .ok p) (hs : s.packet n = .ok q) :
    p = q ↔ r.priority.toNat % 4 = s.priority.toNat % 4 ∧ destinationNumber r.dest = destinationNumber s.dest ∧
      serviceBits r.tpdu.apdu = serviceBits s.tpdu.apdu ∧ following r.tpdu.apdu = following s.tpdu.apdu := by
  rw [request_octets hr, request_octets hs, ← toU16_destination, ← toU16_destination, ← C136_apdu_iff, ← priority_alike]
  constructor
  · intro h
    simp only [List.append_assoc] at h
    obtain ⟨h1, h⟩ := List.append_inj h (by simp)
    obtain ⟨h2, h⟩ := List.append_inj h (by simp)
    obtain ⟨-, h3⟩ := List.append_inj h (by simp)
    simp only [List.cons.injEq, and_true, true_and] at h1
    exact ⟨h1, by rw [be16_inj.1 h2], h3⟩
  · rintro ⟨h1, h2, h3⟩
    rw [h1, BitVec.eq_of_toNat_eq h2, h3]

/-! ## Different requests, the same frame -/

/-- The kind of the transport layer message, its number and whether it is numbered are not written. -/
theorem C136_violated_transport (m : Mode) (p : U8) (d : KnxAddress) (a : Apdu) (s : U8) :
    LDataReq.packet m ⟨p, d, Tpdu.dataConnected a s⟩ = LDataReq.packet m ⟨p, d, Tpdu.dataGroup a⟩ ∧
    LDataReq.packet m ⟨p, d, Tpdu.disconnect a⟩ = LDataReq.packet m ⟨p, d, Tpdu.dataGroup a⟩ := ⟨rfl, rfl⟩

/-- A request to a device is the frame of the request to the group with the number of the device. -/
theorem C136_violated_device (m : Mode) (p : U8) (a : IndAddr) (t : Tpdu) :
    LDataReq.packet m ⟨p, .individual a, t⟩ = LDataReq.packet m ⟨p, .group1 ⟨a.toU16⟩, t⟩ := rfl

/-- Groups whose middle part is out of range: `1/8/0` is written as `1/0/0`. -/
theorem C136_violated_group (m : Mode) (p : U8) (t : Tpdu) :
    LDataReq.packet m ⟨p, .group3 ⟨1, 8, 0⟩, t⟩ = LDataReq.packet m ⟨p, .group3 ⟨1, 0, 0⟩, t⟩ := rfl

/-- A small value that does not fit is the frame of another value. -/
theorem C136_violated_value (m : Mode) (p : U8) (d : KnxAddress) :
    LDataReq.packet m ⟨p, d, Tpdu.dataGroup ⟨Apci.groupValueWrite, .small 64⟩⟩ =
      LDataReq.packet m ⟨p, d, Tpdu.dataGroup ⟨Apci.groupValueWrite, .small 0⟩⟩ := rfl

/-! ## Requests that the library makes -/

/-- C136, the part that holds: of requests of the same priority to groups of three levels in range, with messages for a group and values
of at most six bits or of any number of octets but none, no two have the same frame. -/
theorem C136_partial {m n : Mode} {g h : Group3} {a b : ApduData} {p : Bytes}
    (hg : g.main.toNat < 32 ∧ g.middle.toNat < 8) (hh : h.main.toNat < 32 ∧ h.middle.toNat < 8)
    (ha : match a with | .small d => d.toNat < 64 | .big d => d ≠ [])
    (hb : match b with | .small d => d.toNat < 64 | .big d => d ≠ [])
    (hp : (LDataReq.new (.group3 g) (Tpdu.dataGroup ⟨Apci.groupValueWrite, a⟩)).packet m = .ok p)
    (hq : (LDataReq.new (.group3 h) (Tpdu.dataGroup ⟨Apci.groupValueWrite, b⟩)).packet n = .ok p) : g = h ∧ a = b := by
  obtain ⟨-, h2, h3, h4⟩ := (C136_request_iff hp hq).1 rfl
  constructor
  · have h2 : g.toU16 = h.toU16 := by
      apply BitVec.eq_of_toNat_eq
      exact (toU16_destination (.group3 g)).trans (h2.trans (toU16_destination (.group3 h)).symm)
    rw [← (C02_group3_u16_roundtrip.2 g).2 hg, ← (C02_group3_u16_roundtrip.2 h).2 hh, h2]
  · cases a <;> cases b <;> simp only [following, LDataReq.new, Tpdu.dataGroup] at h4
    · rename_i x y
      simp only [serviceBits, LDataReq.new, Tpdu.dataGroup, Apci.groupValueWrite, Option.getD] at h3
      simp only [show (0 : U8).toNat = 0 from rfl, Nat.zero_mod, Nat.zero_or] at h3
      simp only at ha hb
      rw [Nat.mod_eq_of_lt ha, Nat.mod_eq_of_lt hb] at h3
      rw [BitVec.eq_of_toNat_eq (Nat.add_left_cancel h3)]
    · exact absurd h4.symm hb
    · exact absurd h4 ha
    · rw [h4]

example : ∃ p q, (LDataReq.new (.group3 ⟨1, 2, 3⟩) (Tpdu.dataGroup ⟨Apci.groupValueWrite, .small 1⟩)).packet .debug = .ok p ∧
    (LDataReq.new (.group3 ⟨1, 2, 3⟩) (Tpdu.dataGroup ⟨Apci.groupValueWrite, .big [1]⟩)).packet .release = .ok q ∧ p ≠ q :=
  ⟨_, _, rfl, rfl, by decide⟩

/-- C136: the frame of a read is never that of a write, whatever the destinations, the value and the priorities are. -/
theorem C136_read_write {m n : Mode} {r s : LDataReq} {p : Bytes} {a : ApduData} (hr : r.packet m = .ok p) (hs : s.packet n = .ok p)
    (h : r.tpdu.apdu = Apdu.groupValueRead) : s.tpdu.apdu ≠ ⟨Apci.groupValueWrite, a⟩ := by
  intro h'
  have h3 := ((C136_request_iff hr hs).1 rfl).2.2.1
  rw [h, h'] at h3
  have h0 : serviceBits Apdu.groupValueRead = 0 := by decide
  have h1 : 128 ≤ serviceBits ⟨Apci.groupValueWrite, a⟩ := Nat.le_add_right 128 _
  omega

/-- C136, as datagrams: the tunneling requests of two writes to groups in range are the same datagram only if they are on the same channel,
with the same number, to the same group and of the same value. -/
theorem C136_datagram_partial {m n m' n' : Mode} {g h : Group3} {a b : ApduData} {p q d : Bytes} {c i c' i' : U8}
    (hg : g.main.toNat < 32 ∧ g.middle.toNat < 8) (hh : h.main.toNat < 32 ∧ h.middle.toNat < 8)
    (ha : match a with | .small d => d.toNat < 64 | .big d => d ≠ [])
    (hb : match b with | .small d => d.toNat < 64 | .big d => d ≠ [])
    (hp : (LDataReq.new (.group3 g) (Tpdu.dataGroup ⟨Apci.groupValueWrite, a⟩)).packet m = .ok p)
    (hq : (LDataReq.new (.group3 h) (Tpdu.dataGroup ⟨Apci.groupValueWrite, b⟩)).packet n = .ok q)
    (hd : TunnelingRequest.packet m' ⟨c, i, p⟩ = .ok d) (he : TunnelingRequest.packet n' ⟨c', i', q⟩ = .ok d) :
    c = c' ∧ i = i' ∧ g = h ∧ a = b := by
  have ht := tunnel_alike hd he
  simp only [TunnelingRequest.mk.injEq] at ht
  obtain ⟨hc, hi, rfl⟩ := ht
  exact ⟨hc, hi, C136_partial hg hh ha hb hp hq⟩

/-! ## Description blocks -/

/-- Which two description blocks cannot be told apart: those that differ in nothing but the length and kind they say of themselves, and
in device addresses out of range with the same number. -/
def SameBlock : Dib → Dib → Prop
  | .deviceInformation c, .deviceInformation d => addressNumber c.address = addressNumber d.address ∧
    d = { c with structureLength := d.structureLength, descriptionType := d.descriptionType, address := d.address }
  | .supportedServiceFamilies c, .supportedServiceFamilies d =>
    d = { c with structureLength := d.structureLength, descriptionType := d.descriptionType }
  | .ipConfig c, .ipConfig d => d = { c with structureLength := d.structureLength, descriptionType := d.descriptionType }
  | .ipCurrentConfig c, .ipCurrentConfig d =>
    d = { c with structureLength := d.structureLength, descriptionType := d.descriptionType }
  | .knxAddresses c, .knxAddresses d => d = { c with structureLength := d.structureLength, descriptionType := d.descriptionType }
  | .manufacturerData c, .manufacturerData d =>
    d = { c with structureLength := d.structureLength, descriptionType := d.descriptionType }
  | _, _ => False

/-- The padding of a block can be told from its content by the parity of the length. -/
theorem parts_alike {d e : Dib} (h : d.packet = e.packet) : d.parts = e.parts := by
  unfold Dib.packet at h
  generalize d.parts = x at h
  generalize e.parts = y at h
  obtain ⟨t, a⟩ := x
  obtain ⟨t', b⟩ := y
  simp only [List.cons_append, List.nil_append, List.cons.injEq] at h
  obtain ⟨h1, h2, h3⟩ := h
  have ht : t = t' := by revert h2; cases t <;> cases t' <;> decide
  have h1 := congrArg BitVec.toNat h1
  simp only [BitVec.toNat_ofNat] at h1
  have hp : (2 + a.length) % 2 = (2 + b.length) % 2 := by omega
  rw [hp] at h3
  rw [ht, (List.append_inj' h3 rfl).1]

theorem ips_alike : ∀ {a b : List Ipv4}, a.flatMap Ipv4.octets = b.flatMap Ipv4.octets → a = b
  | [], [], _ => rfl
  | [], y :: b, h => by simp [Ipv4.octets] at h
  | x :: a, [], h => by simp [Ipv4.octets] at h
  | x :: a, y :: b, h => by
    simp only [List.flatMap_cons] at h
    obtain ⟨h1, h2⟩ := List.append_inj h rfl
    rw [octets_alike.1 h1, ips_alike h2]

/-- C136: two description blocks, of any kinds and with lists of any length, are encoded to the same octets exactly if they differ in
nothing but what is not written. -/
theorem C136_blocks_iff {d e : Dib} : d.packet = e.packet ↔ SameBlock d e := by
  constructor
  · intro h
    replace h := parts_alike h
    cases d <;> cases e <;> simp only [Dib.parts, Prod.mk.injEq, true_and, reduceCtorEq, false_and] at h
    · exact device_alike.1 h
    · rename_i c d
      replace h := families_alike.1 h
      obtain ⟨l, t, f⟩ := c
      obtain ⟨l', t', f'⟩ := d
      have h : f = f' := h
      subst h
      rfl
    · rename_i c d
      obtain ⟨l, t, a1, a2, a3, a4, a5⟩ := c
      obtain ⟨l', t', b1, b2, b3, b4, b5⟩ := d
      simp only [IpConfig.packet] at h
      obtain ⟨h, h5⟩ := List.append_inj' h rfl
      obtain ⟨h, h4⟩ := List.append_inj' h rfl
      obtain ⟨h, h3⟩ := List.append_inj' h rfl
      obtain ⟨h1, h2⟩ := List.append_inj' h rfl
      simp only [SameBlock]
      rw [octets_alike.1 h1, octets_alike.1 h2, octets_alike.1 h3, (List.cons.inj h4).1, (List.cons.inj h5).1]
    · rename_i c d
      obtain ⟨l, t, a1, a2, a3, a4, a5, a6⟩ := c
      obtain ⟨l', t', b1, b2, b3, b4, b5, b6⟩ := d
      simp only [IpCurrentConfig.packet] at h
      obtain ⟨h, h6⟩ := List.append_inj' h rfl
      obtain ⟨h, h5⟩ := List.append_inj' h rfl
      obtain ⟨h, h4⟩ := List.append_inj' h rfl
      obtain ⟨h, h3⟩ := List.append_inj' h rfl
      obtain ⟨h1, h2⟩ := List.append_inj' h rfl
      simp only [SameBlock]
      rw [octets_alike.1 h1, octets_alike.1 h2, octets_alike.1 h3, octets_alike.1 h4, (List.cons.inj h5).1, (List.cons.inj h6).1]
    · rename_i c d
      obtain ⟨l, t, a1, a2⟩ := c
      obtain ⟨l', t', b1, b2⟩ := d
      simp only [KnxAddresses.packet] at h
      obtain ⟨h1, h2⟩ := List.append_inj h rfl
      simp only [SameBlock]
      rw [octets_alike.1 h1, ips_alike h2]
    · rename_i c d
      obtain ⟨l, t, a1, a2⟩ := c
      obtain ⟨l', t', b1, b2⟩ := d
      simp only [ManufacturerData.packet] at h
      obtain ⟨h1, h2⟩ := List.append_inj h rfl
      simp only [SameBlock]
      rw [be16_inj.1 h1, h2]
  · intro h
    have hp : d.parts = e.parts := by
      cases d <;> cases e <;> simp only [SameBlock] at h
      · exact congrArg (Prod.mk DescType.deviceInfo) (device_alike.2 h)
      all_goals (rw [h]; rfl)
    unfold Dib.packet
    rw [hp]

/-- What a block says of itself is not written: it is calculated. -/
theorem C136_violated_block (c : ManufacturerData) (l : U8) :
    (Dib.manufacturerData c).packet = (Dib.manufacturerData { c with structureLength := l }).packet := rfl

example : (Dib.manufacturerData ⟨0, .manufacturerData, 1, [7]⟩).packet ≠ (Dib.manufacturerData ⟨0, .manufacturerData, 1, [7, 0]⟩).packet := by
  decide

end Knx
