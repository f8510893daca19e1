import Verif.Spec.Dib
import Verif.Lemmas.Frames

/-! Helper lemmas for the description information blocks. -/

namespace Knx

open Spec

theorem mediumCode_lt (m : KnxMedium) : mediumCode m < 256 := by cases m <;> decide

theorem medium_code (m : KnxMedium) : m.code = byte (mediumCode m) := by cases m <;> rfl

theorem KnxMedium.ofU8_iff {v : U8} {m : KnxMedium} : KnxMedium.ofU8 v = .ok m ↔ v = byte (mediumCode m) := by
  unfold KnxMedium.ofU8
  constructor
  · intro h
    repeat' split at h
    all_goals first
      | (cases h; subst_vars; rfl)
      | cases h
  · rintro rfl; cases m <;> rfl

theorem KnxMedium.ofU8_no_panic {v : U8} : KnxMedium.ofU8 v ≠ .panic := by
  unfold KnxMedium.ofU8
  repeat' split
  all_goals simp

theorem DescType.ofU8_iff {v : U8} {t : DescType} : DescType.ofU8 v = .ok t ↔ v = t.code := by
  unfold DescType.ofU8
  constructor
  · intro h
    repeat' split at h
    all_goals first
      | (cases h; subst_vars; rfl)
      | cases h
  · rintro rfl; cases t <;> rfl

theorem DescType.ofU8_no_panic {v : U8} : DescType.ofU8 v ≠ .panic := by
  unfold DescType.ofU8
  repeat' split
  all_goals simp

theorem ofVec_eq_iff {v : Vector U8 4} {i : Ipv4} : i = Ipv4.ofVec v ↔ v.toList = ip4 i := by
  constructor
  · rintro rfl
    rw [← Ipv4.ofVec_octets]; rfl
  · intro h
    have : v = i.toVec := by
      apply Vector.toList_inj.1
      rw [h]; rfl
    rw [this]; rfl

theorem exact4_iff {r r' : Bytes} {v : Vector U8 4} :
    Rd.exact 4 r = .ok (v, r') ↔ r = ip4 (Ipv4.ofVec v) ++ r' := by
  rw [Rd.exact_ok_iff, ← ofVec_eq_iff.1 rfl]

theorem ip4_toVec (i : Ipv4) : Ipv4.ofVec i.toVec = i := rfl

theorem DeviceInfo.fromPacket_iff {l : U8} {r r' : Bytes} {d : DeviceInfo} :
    DeviceInfo.fromPacket l r = .ok (d, r') ↔
      d.structureLength = l ∧ d.descriptionType = .deviceInfo ∧ IndInRange d.address ∧
      ∃ st : U8, d.status.bits = st &&& 1 ∧ r = deviceInfoBody { d with status := ⟨st⟩ } ++ r' := by
  simp only [DeviceInfo.fromPacket, Rd.bind_ok_iff, Rd.u8_ok_iff, Rd.lift_ok_iff, u16_iff, Rd.exact_ok_iff,
    Rd.pure_ok_iff, KnxMedium.ofU8_iff]
  constructor
  · rintro ⟨mb, _, rfl, med, _, ⟨rfl, rfl⟩, st, _, rfl, ad, _, rfl, pid, _, rfl, ser, _, rfl, mul, _, rfl,
      mac, _, rfl, fn, _, rfl, rfl, rfl⟩
    have := (ind_ofU16_iff (w := ad)).1 rfl
    refine ⟨rfl, rfl, this.1, st, rfl, ?_⟩
    have h2 := ofVec_eq_iff.1 (rfl : Ipv4.ofVec mul = Ipv4.ofVec mul)
    simp only [deviceInfoBody, this.2]
    rw [h2]
    simp [ip4]
  · rintro ⟨rfl, h1, h2, st, h3, rfl⟩
    obtain ⟨sl, dt, med, ⟨sb⟩, ad, pid, ser, mul, mac, fn⟩ := d
    simp only at h1 h2 h3 ⊢
    subst h1 h3
    refine ⟨byte (mediumCode med), _, rfl, med, _, ⟨rfl, rfl⟩, st, _, rfl, ad.toU16, _, ?_, pid, _, rfl,
      ser, _, rfl, mul.toVec, _, rfl, mac, _, rfl, fn, _, rfl, ?_, rfl⟩
    · simp [deviceInfoBody, toU16_indCode h2, Ipv4.octets]
    · have := (ind_ofU16_iff (w := ad.toU16) (a := ad)).2 ⟨h2, (toU16_indCode h2).symm⟩
      rw [← this]; rfl

theorem DeviceInfo.fromPacket_no_panic {l : U8} {r : Bytes} : DeviceInfo.fromPacket l r ≠ .panic := by
  simp [DeviceInfo.fromPacket, Rd.bind_panic_iff, Rd.u8_panic_iff, Rd.lift_panic_iff, Rd.u16_panic_iff,
    Rd.exact_panic_iff, KnxMedium.ofU8_no_panic]

theorem deviceInfoBody_length (d : DeviceInfo) : (deviceInfoBody d).length = 52 := by
  simp [deviceInfoBody]

theorem familiesBody_length (fs : List ServiceFamily) : (familiesBody fs).length = 2 * fs.length := by
  induction fs with
  | nil => rfl
  | cons f fs ih => simp only [familiesBody, List.map_cons, List.flatten_cons, List.length_append] at ih ⊢
                    rw [ih]; simp; omega

theorem readFamilies_iff {n : Nat} {r r' : Bytes} {fs : List ServiceFamily} :
    readFamilies n r = .ok (fs, r') ↔ fs.length = n ∧ r = familiesBody fs ++ r' := by
  induction n generalizing r r' fs with
  | zero =>
    simp only [readFamilies, Rd.pure_ok_iff, List.length_eq_zero_iff]
    constructor
    · rintro ⟨rfl, rfl⟩; exact ⟨rfl, rfl⟩
    · rintro ⟨rfl, rfl⟩; exact ⟨rfl, rfl⟩
  | succ n ih =>
    simp only [readFamilies, Rd.bind_ok_iff, Rd.u8_ok_iff, ih, Rd.pure_ok_iff]
    constructor
    · rintro ⟨f, _, rfl, v, _, rfl, fs', _, ⟨rfl, rfl⟩, rfl, rfl⟩
      exact ⟨rfl, by simp [familiesBody]⟩
    · rintro ⟨h, rfl⟩
      cases fs with
      | nil => cases h
      | cons f fs =>
        refine ⟨f.family, _, ?_, f.version, _, rfl, fs, _, ⟨by simpa using h, rfl⟩, rfl, rfl⟩
        simp [familiesBody]

theorem readFamilies_no_panic {n : Nat} {r : Bytes} : readFamilies n r ≠ .panic := by
  induction n generalizing r with
  | zero => simp [readFamilies]
  | succ n ih =>
    simp only [readFamilies, ne_eq, Rd.bind_panic_iff, Rd.u8_panic_iff, Rd.pure_panic_iff, ih,
      and_false, exists_const, or_self, not_false_eq_true]

theorem readIps_iff {n : Nat} {r r' : Bytes} {fs : List Ipv4} :
    readIps n r = .ok (fs, r') ↔ fs.length = n ∧ r = (fs.map ip4).flatten ++ r' := by
  induction n generalizing r r' fs with
  | zero =>
    simp only [readIps, Rd.pure_ok_iff, List.length_eq_zero_iff]
    constructor
    · rintro ⟨rfl, rfl⟩; exact ⟨rfl, rfl⟩
    · rintro ⟨rfl, rfl⟩; exact ⟨rfl, rfl⟩
  | succ n ih =>
    simp only [readIps, Rd.bind_ok_iff, exact4_iff, ih, Rd.pure_ok_iff]
    constructor
    · rintro ⟨f, _, rfl, fs', _, ⟨rfl, rfl⟩, rfl, rfl⟩
      exact ⟨rfl, by simp⟩
    · rintro ⟨h, rfl⟩
      cases fs with
      | nil => cases h
      | cons f fs =>
        refine ⟨f.toVec, _, ?_, fs, _, ⟨by simpa using h, rfl⟩, rfl, rfl⟩
        simp

theorem readIps_no_panic {n : Nat} {r : Bytes} : readIps n r ≠ .panic := by
  induction n generalizing r with
  | zero => simp [readIps]
  | succ n ih =>
    simp only [readIps, ne_eq, Rd.bind_panic_iff, Rd.exact_panic_iff, Rd.pure_panic_iff, ih,
      and_false, exists_const, or_self, not_false_eq_true]

theorem ServiceFamilies.fromPacket_iff {m : Mode} {l : U8} {r r' : Bytes} {s : ServiceFamilies} :
    ServiceFamilies.fromPacket m l r = .ok (s, r') ↔
      s.structureLength = l ∧ s.descriptionType = .supportedServiceFamilies ∧ (m = .debug → 2 ≤ l.toNat) ∧
      s.families.length = (l - 2).toNat / 2 ∧ r = familiesBody s.families ++ r' := by
  simp only [ServiceFamilies.fromPacket, Rd.bind_ok_iff, Rd.lift_ok_iff, Rd.pure_ok_iff, readFamilies_iff]
  obtain ⟨sl, dt, fs⟩ := s
  have hs : ∀ x, subU m l 2 = .ok x ↔ (m = .debug → 2 ≤ l.toNat) ∧ x = l - 2 := by
    intro x
    cases m with
    | release => simp [subU_release, eq_comm]
    | debug =>
      by_cases h : 2 ≤ l.toNat
      · rw [subU_of_le _ _ _ (by simpa using h)]; simp [h, eq_comm]
      · have : subU .debug l 2 = .panic := by
          rw [subU_panic_iff]; exact ⟨rfl, by simpa using h⟩
        rw [this]; simp [h]
  simp only [hs]
  constructor
  · rintro ⟨x, _, ⟨⟨h, rfl⟩, rfl⟩, fs', _, ⟨h1, rfl⟩, h2, rfl⟩
    cases h2
    exact ⟨rfl, rfl, h, h1, rfl⟩
  · rintro ⟨rfl, rfl, h, h1, rfl⟩
    exact ⟨_, _, ⟨⟨h, rfl⟩, rfl⟩, fs, _, ⟨h1, rfl⟩, rfl, rfl⟩

theorem ServiceFamilies.fromPacket_panic_iff {m : Mode} {l : U8} {r : Bytes} :
    ServiceFamilies.fromPacket m l r = .panic ↔ m = .debug ∧ l.toNat < 2 := by
  simp only [ServiceFamilies.fromPacket, Rd.bind_panic_iff, Rd.lift_panic_iff, Rd.pure_panic_iff,
    readFamilies_no_panic, subU_panic_iff, and_false, exists_const, or_false]
  simp

theorem IpConfig.fromPacket_iff {l : U8} {r r' : Bytes} {c : IpConfig} :
    IpConfig.fromPacket l r = .ok (c, r') ↔
      c.structureLength = l ∧ c.descriptionType = .ipConfig ∧ r = dibBody (.ipConfig c) ++ r' := by
  simp only [IpConfig.fromPacket, Rd.bind_ok_iff, exact4_iff, Rd.u8_ok_iff, Rd.pure_ok_iff, dibBody]
  constructor
  · rintro ⟨a, _, rfl, b, _, rfl, g, _, rfl, x, _, rfl, y, _, rfl, rfl, rfl⟩
    exact ⟨rfl, rfl, by simp⟩
  · obtain ⟨sl, dt, i, s, g, x, y⟩ := c
    rintro ⟨rfl, h, rfl⟩
    simp only at h; subst h
    exact ⟨i.toVec, _, by simp, s.toVec, _, rfl, g.toVec, _, rfl, x, _, rfl, y, _, rfl, rfl, rfl⟩

theorem IpConfig.fromPacket_no_panic {l : U8} {r : Bytes} : IpConfig.fromPacket l r ≠ .panic := by
  simp [IpConfig.fromPacket, Rd.bind_panic_iff, Rd.u8_panic_iff, Rd.exact_panic_iff]

theorem IpCurrentConfig.fromPacket_iff {l : U8} {r r' : Bytes} {c : IpCurrentConfig} :
    IpCurrentConfig.fromPacket l r = .ok (c, r') ↔
      c.structureLength = l ∧ c.descriptionType = .ipCurrentConfig ∧ r = dibBody (.ipCurrentConfig c) ++ r' := by
  simp only [IpCurrentConfig.fromPacket, Rd.bind_ok_iff, exact4_iff, Rd.u8_ok_iff, Rd.pure_ok_iff, dibBody]
  constructor
  · rintro ⟨a, _, rfl, b, _, rfl, g, _, rfl, d, _, rfl, x, _, rfl, y, _, rfl, rfl, rfl⟩
    exact ⟨rfl, rfl, by simp⟩
  · obtain ⟨sl, dt, i, s, g, d, x, y⟩ := c
    rintro ⟨rfl, h, rfl⟩
    simp only at h; subst h
    exact ⟨i.toVec, _, by simp, s.toVec, _, rfl, g.toVec, _, rfl, d.toVec, _, rfl,
      x, _, rfl, y, _, rfl, rfl, rfl⟩

theorem IpCurrentConfig.fromPacket_no_panic {l : U8} {r : Bytes} : IpCurrentConfig.fromPacket l r ≠ .panic := by
  simp [IpCurrentConfig.fromPacket, Rd.bind_panic_iff, Rd.u8_panic_iff, Rd.exact_panic_iff]

theorem KnxAddresses.fromPacket_imp {m : Mode} {l : U8} {r r' : Bytes} {k : KnxAddresses}
    (h : KnxAddresses.fromPacket m l r = .ok (k, r')) :
    k.structureLength = l ∧ k.additional.length = (l - 4).toNat / 2 ∧ r = dibBody (.knxAddresses k) ++ r' := by
  simp only [KnxAddresses.fromPacket, Rd.bind_ok_iff, exact4_iff, Rd.lift_ok_iff, Rd.pure_ok_iff, readIps_iff] at h
  obtain ⟨i, _, rfl, x, _, ⟨hx, rfl⟩, as, _, ⟨hl, rfl⟩, rfl, rfl⟩ := h
  have : x = l - 4 := by
    cases hm : subU m l 4 with
    | ok y =>
      rw [hm] at hx; cases hx
      unfold subU at hm
      split at hm
      · cases hm; rfl
      · split at hm <;> cases hm <;> rfl
    | err => rw [hm] at hx; cases hx
    | panic => rw [hm] at hx; cases hx
  subst this
  exact ⟨rfl, hl, by simp [dibBody]⟩

theorem exact_ok_of_le {n : Nat} {r : Bytes} (h : n ≤ r.length) : ∃ v r', Rd.exact n r = .ok (v, r') := by
  refine ⟨⟨(r.take n).toArray, by simp [h]⟩, r.drop n, ?_⟩
  rw [Rd.exact_ok_iff]; simp

theorem KnxAddresses.fromPacket_panic_iff {m : Mode} {l : U8} {r : Bytes} :
    KnxAddresses.fromPacket m l r = .panic ↔ m = .debug ∧ l.toNat < 4 ∧ 4 ≤ r.length := by
  simp only [KnxAddresses.fromPacket, Rd.bind_panic_iff, Rd.lift_panic_iff, Rd.pure_panic_iff,
    readIps_no_panic, subU_panic_iff, and_false, exists_const, or_false, Rd.exact_panic_iff, false_or]
  constructor
  · rintro ⟨v, r', h, h1, h2⟩
    rw [Rd.exact_ok_iff] at h
    exact ⟨h1, by simpa using h2, by simp [h]⟩
  · rintro ⟨h1, h2, h3⟩
    obtain ⟨v, r', h⟩ := exact_ok_of_le h3
    exact ⟨v, r', h, h1, by simpa using h2⟩

theorem ManufacturerData.fromPacket_imp {l : U8} {r r' : Bytes} {d : ManufacturerData}
    (h : ManufacturerData.fromPacket l r = .ok (d, r')) :
    d.structureLength = l ∧ d.data.length = l.toNat ∧ r = dibBody (.manufacturerData d) ++ r' := by
  simp only [ManufacturerData.fromPacket, Rd.bind_ok_iff, u16_iff, Rd.exactVec_ok_iff, Rd.pure_ok_iff] at h
  obtain ⟨w, _, rfl, v, _, h, rfl, rfl⟩ := h
  refine ⟨rfl, h.1, ?_⟩
  simp [dibBody, h.2]

theorem ManufacturerData.fromPacket_no_panic {l : U8} {r : Bytes} : ManufacturerData.fromPacket l r ≠ .panic := by
  simp [ManufacturerData.fromPacket, Rd.bind_panic_iff, Rd.u16_panic_iff, Rd.exactVec_panic_iff]

end Knx
