import Verif.Lemmas.Texts
import Verif.Lemmas.Dib
import Verif.Spec.SearchFlaws
import Verif.Props.Messages

/-!
# What the error of a failed search says (C127)
-/

namespace Knx

open Spec

/-! ## Blocks -/

/-- What the library says of a flaw of a block. -/
def blockText : BlockFlaw → Text
  | .type n => "Unknown DescriptionTypeCode ".toList ++ decimal n
  | .medium n => "Unknown KnxMedium ".toList ++ decimal n
  | .cut n => (if n = 1 then "Unable to read friendly name" else if n = 2 then "Unable to read service family"
      else if n = 5 then "Unable to read additional individual address" else "Unable to read manufacturer specific data").toList

theorem exact_fits {n : Nat} (t : Text) {r : Bytes} (h : n ≤ r.length) : ∃ v, TRd.exact n t r = .ok (v, r.drop n) := by
  unfold TRd.exact Rd.exact
  rw [dif_pos h]
  exact ⟨_, rfl⟩

theorem exact_short {n : Nat} (t : Text) {r : Bytes} (h : r.length < n) : TRd.exact n t r = .err t := by
  unfold TRd.exact Rd.exact
  rw [dif_neg (by omega)]

theorem exactVec_fits {n : Nat} (t : Text) {r : Bytes} (h : n ≤ r.length) : ∃ v, TRd.exactVec n t r = .ok (v, r.drop n) := by
  unfold TRd.exactVec Rd.exactVec
  rw [if_pos h]
  exact ⟨_, rfl⟩

theorem exactVec_short {n : Nat} (t : Text) {r : Bytes} (h : r.length < n) : TRd.exactVec n t r = .err t := by
  unfold TRd.exactVec Rd.exactVec
  rw [if_neg (by omega)]

theorem uncons {b : Bytes} {n : Nat} (h : n + 1 ≤ b.length) : ∃ a r, b = a :: r ∧ r.length = b.length - 1 := by
  cases b with
  | nil => simp at h
  | cons a r => exact ⟨a, r, rfl, rfl⟩

theorem readFamiliesT_fits (n : Nat) {r : Bytes} (h : n * 2 ≤ r.length) : ∃ v, readFamiliesT n r = .ok (v, r.drop (n * 2)) := by
  induction n generalizing r with
  | zero => exact ⟨[], rfl⟩
  | succ n ih =>
    obtain ⟨a, r1, rfl, h1⟩ := uncons (n := 1) (b := r) (by omega)
    obtain ⟨b, r2, rfl, h2⟩ := uncons (n := 0) (b := r1) (by simp at *; omega)
    obtain ⟨v, hv⟩ := ih (r := r2) (by simp at h; omega)
    refine ⟨⟨a, b⟩ :: v, ?_⟩
    simp only [readFamiliesT, bind, TRd.u8, hv, pure]
    congr 2
    rw [show (n + 1) * 2 = n * 2 + 1 + 1 by omega, List.drop_succ_cons, List.drop_succ_cons]

theorem readFamiliesT_short (n : Nat) {r : Bytes} (h : r.length < n * 2) (he : r.length % 2 = 0) :
    readFamiliesT n r = .err "Unable to read service family".toList := by
  induction n generalizing r with
  | zero => omega
  | succ n ih =>
    match r with
    | [] => simp only [readFamiliesT, bind, TRd.u8]
    | [a] => simp at he
    | a :: b :: r2 =>
      have := ih (r := r2) (by simp at h; omega) (by simp at he; omega)
      simp only [readFamiliesT, bind, TRd.u8, this]

theorem readIpsT_fits (n : Nat) {r : Bytes} (h : n * 4 ≤ r.length) : ∃ v, readIpsT n r = .ok (v, r.drop (n * 4)) := by
  induction n generalizing r with
  | zero => exact ⟨[], rfl⟩
  | succ n ih =>
    obtain ⟨a, ha⟩ := exact_fits (n := 4) "Unable to read additional individual address".toList (r := r) (by omega)
    obtain ⟨v, hv⟩ := ih (r := r.drop 4) (by simp; omega)
    refine ⟨Ipv4.ofVec a :: v, ?_⟩
    simp only [readIpsT, bind, ha, hv, pure, List.drop_drop]
    congr 3
    omega

theorem readIpsT_short (n : Nat) {r : Bytes} (h : r.length < n * 4) :
    readIpsT n r = .err "Unable to read additional individual address".toList := by
  induction n generalizing r with
  | zero => omega
  | succ n ih =>
    by_cases h4 : r.length < 4
    · simp only [readIpsT, bind, exact_short _ h4]
    · obtain ⟨a, ha⟩ := exact_fits (n := 4) "Unable to read additional individual address".toList (r := r) (by omega)
      simp only [readIpsT, bind, ha, ih (r := r.drop 4) (by simp; omega)]

/-- The number of the type of a block. -/
def Dib.number : Dib → Nat
  | .deviceInformation _ => 1
  | .supportedServiceFamilies _ => 2
  | .ipConfig _ => 3
  | .ipCurrentConfig _ => 4
  | .knxAddresses _ => 5
  | .manufacturerData _ => 254

theorem subU_ok {m : Mode} {a b : U8} (h : ¬ (m = .debug ∧ a.toNat < b.toNat)) : subU m a b = .ok (a - b) := by
  unfold subU
  split
  · rfl
  · cases m with
    | debug => exact absurd ⟨rfl, by omega⟩ h
    | release => rfl

theorem subU_panic {m : Mode} {a b : U8} (h : m = .debug ∧ a.toNat < b.toNat) : subU m a b = .panic := by
  unfold subU
  rw [if_neg (by omega), h.1]

/-- What reading a block gives. -/
def BlockRead (m : Mode) (b : Bytes) (x : TRes (Dib × Bytes)) : Prop :=
  if blockOverflows m b then x = .panic
  else match blockFlaw b with
    | some f => x = .err (blockText f)
    | none => ∃ d, x = .ok (d, b.drop (2 + blockNeeds (octetAt b 0) (octetAt b 1))) ∧ d.number = octetAt b 1

theorem toNat_ne {a b : U8} (h : a ≠ b) : a.toNat ≠ b.toNat := fun e => h (BitVec.eq_of_toNat_eq e)

theorem octet0 (a : U8) (r : Bytes) : octetAt (a :: r) 0 = a.toNat := rfl
theorem octet1 (a b : U8) (r : Bytes) : octetAt (a :: b :: r) 1 = b.toNat := rfl
theorem octet2 (a b c : U8) (r : Bytes) : octetAt (a :: b :: c :: r) 2 = c.toNat := rfl

/-- Reading a block whose type is known goes on to what the type demands. -/
theorem dib_start {m : Mode} {len ty : U8} {r : Bytes} {t : DescType} (h : DescType.ofU8 ty = .ok t) :
    Dib.read m (len :: ty :: r) = (match t with
      | .deviceInfo => do return .deviceInformation (← DeviceInfo.read len)
      | .supportedServiceFamilies => do return .supportedServiceFamilies (← ServiceFamilies.read m len)
      | .ipConfig => do return .ipConfig (← IpConfig.read len)
      | .ipCurrentConfig => do return .ipCurrentConfig (← IpCurrentConfig.read len)
      | .knxAddresses => do return .knxAddresses (← KnxAddresses.read m len)
      | .manufacturerData => do return .manufacturerData (← ManufacturerData.read len) : TRd Dib) r := by
  simp only [Dib.read, bind, TRd.u8, TRd.lift, h]
  cases t <;> rfl

theorem dib_device (m : Mode) (len : U8) (r : Bytes) (hr : 22 ≤ r.length) : BlockRead m (len :: 1 :: r) (Dib.read m (len :: 1 :: r)) := by
  obtain ⟨md, r1, rfl, h1⟩ := uncons (n := 1) (b := r) (by omega)
  obtain ⟨st, r2, rfl, h2⟩ := uncons (n := 0) (b := r1) (by simp at *; omega)
  obtain ⟨a1, r3, rfl, h3⟩ := uncons (n := 0) (b := r2) (by simp at *; omega)
  obtain ⟨a2, r4, rfl, h4⟩ := uncons (n := 0) (b := r3) (by simp at *; omega)
  obtain ⟨p1, r5, rfl, h5⟩ := uncons (n := 0) (b := r4) (by simp at *; omega)
  obtain ⟨p2, r6, rfl, h6⟩ := uncons (n := 0) (b := r5) (by simp at *; omega)
  simp only [List.length_cons] at hr
  obtain ⟨se, hse⟩ := exact_fits (n := 6) "Unable to read serial number".toList (r := r6) (by omega)
  obtain ⟨mu, hmu⟩ := exact_fits (n := 4) "Unable to read routing multicast address".toList (r := r6.drop 6) (by simp; omega)
  obtain ⟨ma, hma⟩ := exact_fits (n := 6) "Unable to read mac address".toList (r := (r6.drop 6).drop 4) (by simp; omega)
  have ho : ¬ blockOverflows m (len :: 1 :: md :: st :: a1 :: a2 :: p1 :: p2 :: r6) := by
    simp [blockOverflows, octet1]
  unfold BlockRead
  rw [if_neg ho, dib_start (t := .deviceInfo) rfl]
  unfold blockFlaw
  rw [octet0, octet1, octet2, if_neg (by decide)]
  by_cases hm : md.toNat ∈ [2, 3, 16, 32]
  · obtain ⟨k, hk⟩ : ∃ k, KnxMedium.ofU8 md = .ok k := by
      simp only [List.mem_cons, List.not_mem_nil, or_false] at hm
      rcases hm with h | h | h | h
      · exact ⟨_, by rw [BitVec.eq_of_toNat_eq (y := 2#8) h]; rfl⟩
      · exact ⟨_, by rw [BitVec.eq_of_toNat_eq (y := 3#8) h]; rfl⟩
      · exact ⟨_, by rw [BitVec.eq_of_toNat_eq (y := 16#8) h]; rfl⟩
      · exact ⟨_, by rw [BitVec.eq_of_toNat_eq (y := 32#8) h]; rfl⟩
    rw [if_neg (fun h => h.2 hm)]
    by_cases hf : 30 ≤ (((r6.drop 6).drop 4).drop 6).length
    · obtain ⟨fn, hfn⟩ := exact_fits (n := 30) "Unable to read friendly name".toList hf
      simp only [List.length_drop] at hf
      rw [if_neg (by simp only [List.length_cons, blockNeeds]; simp; omega)]
      refine ⟨.deviceInformation ⟨len, .deviceInfo, k, DeviceStatus.ofBitsTruncate st, IndAddr.ofU16 (ofBe16 a1 a2), ofBe16 p1 p2, se,
        Ipv4.ofVec mu, ma, fn⟩, ?_, rfl⟩
      simp only [DeviceInfo.read, bind, TRd.u8, TRd.u16, TRd.lift, hk, hse, hmu, hma, hfn, pure]
      congr 2
      simp [blockNeeds]
    · have hfn := exact_short (n := 30) "Unable to read friendly name".toList (r := ((r6.drop 6).drop 4).drop 6) (by omega)
      simp only [List.length_drop] at hf
      rw [if_pos (by simp only [List.length_cons, blockNeeds]; simp; omega)]
      simp only [DeviceInfo.read, bind, TRd.u8, TRd.u16, TRd.lift, hk, hse, hmu, hma, hfn, pure]
      rfl
  · have hk : KnxMedium.ofU8 md = .err := by
      simp only [List.mem_cons, List.not_mem_nil, or_false, not_or] at hm
      unfold KnxMedium.ofU8
      rw [if_neg (fun h => hm.1 (by rw [h]; rfl)), if_neg (fun h => hm.2.1 (by rw [h]; rfl)),
        if_neg (fun h => hm.2.2.1 (by rw [h]; rfl)), if_neg (fun h => hm.2.2.2 (by rw [h]; rfl))]
    rw [if_pos ⟨rfl, hm⟩]
    simp only [DeviceInfo.read, bind, TRd.u8, TRd.lift, hk, showU_decimal]
    rfl

theorem dib_families (m : Mode) (len : U8) (r : Bytes) (hr : r.length % 2 = 0) : BlockRead m (len :: 2 :: r) (Dib.read m (len :: 2 :: r)) := by
  unfold BlockRead
  rw [dib_start (t := .supportedServiceFamilies) rfl]
  by_cases ho : blockOverflows m (len :: 2 :: r)
  · rw [if_pos ho]
    simp only [blockOverflows, octet0, octet1] at ho
    have : m = .debug ∧ len.toNat < (2 : U8).toNat := ⟨ho.1, by have := ho.2; simp at this ⊢; omega⟩
    simp only [ServiceFamilies.read, bind, TRd.lift, subU_panic this]
  · rw [if_neg ho]
    simp only [blockOverflows, octet0, octet1] at ho
    have h2 : subU m len 2 = .ok (len - 2) := subU_ok (fun h => ho ⟨h.1, by have := h.2; simp at this ⊢; omega⟩)
    have hn : (len - 2).toNat = (len.toNat + 254) % 256 := by
      rw [BitVec.toNat_sub]; simp; omega
    unfold blockFlaw
    rw [octet0, octet1, if_neg (by decide), if_neg (by simp)]
    have hb : blockNeeds len.toNat (2 : U8).toNat = (len.toNat + 254) % 256 / 2 * 2 := rfl
    rw [hb]
    by_cases hl : (len.toNat + 254) % 256 / 2 * 2 ≤ r.length
    · obtain ⟨v, hv⟩ := readFamiliesT_fits _ hl
      rw [if_neg (by simp only [List.length_cons]; omega)]
      refine ⟨.supportedServiceFamilies ⟨len, .supportedServiceFamilies, v⟩, ?_, rfl⟩
      simp only [ServiceFamilies.read, bind, TRd.lift, h2, hn, hv, pure]
      congr 2
      rw [Nat.add_comm 2, List.drop_succ_cons, List.drop_succ_cons]
    · have hv := readFamiliesT_short _ (Nat.lt_of_not_le hl) hr
      rw [if_pos (by simp only [List.length_cons]; omega)]
      simp only [ServiceFamilies.read, bind, TRd.lift, h2, hn, hv, pure]
      rfl

theorem dib_config (m : Mode) (len : U8) (r : Bytes) (hr : 14 ≤ r.length) : BlockRead m (len :: 3 :: r) (Dib.read m (len :: 3 :: r)) := by
  obtain ⟨v1, h1⟩ := exact_fits (n := 4) "Unable to read ip address".toList (r := r) (by omega)
  obtain ⟨v2, h2⟩ := exact_fits (n := 4) "Unable to read subnet_mask".toList (r := r.drop 4) (by simp; omega)
  obtain ⟨v3, h3⟩ := exact_fits (n := 4) "Unable to read default gateway".toList (r := (r.drop 4).drop 4) (by simp; omega)
  obtain ⟨c, r1, e1, h4⟩ := uncons (n := 1) (b := ((r.drop 4).drop 4).drop 4) (by simp; omega)
  obtain ⟨a, r2, rfl, h5⟩ := uncons (n := 0) (b := r1) (by simp at *; omega)
  unfold BlockRead
  rw [if_neg (by simp [blockOverflows, octet1]), dib_start (t := .ipConfig) rfl]
  unfold blockFlaw
  rw [octet0, octet1, if_neg (by decide), if_neg (by simp), if_neg (by simp [blockNeeds]; omega)]
  refine ⟨.ipConfig ⟨len, .ipConfig, Ipv4.ofVec v1, Ipv4.ofVec v2, Ipv4.ofVec v3, c, a⟩, ?_, rfl⟩
  simp only [IpConfig.read, bind, h1, h2, h3, e1, TRd.u8, pure]
  congr 2
  show r2 = r.drop 14
  rw [show r.drop 14 = (((r.drop 4).drop 4).drop 4).drop 2 by simp, e1]
  rfl

theorem dib_current (m : Mode) (len : U8) (r : Bytes) (hr : 18 ≤ r.length) : BlockRead m (len :: 4 :: r) (Dib.read m (len :: 4 :: r)) := by
  obtain ⟨v1, h1⟩ := exact_fits (n := 4) "Unable to read current ip address".toList (r := r) (by omega)
  obtain ⟨v2, h2⟩ := exact_fits (n := 4) "Unable to read current subnet_mask".toList (r := r.drop 4) (by simp; omega)
  obtain ⟨v3, h3⟩ := exact_fits (n := 4) "Unable to read current default gateway".toList (r := (r.drop 4).drop 4) (by simp; omega)
  obtain ⟨v4, h6⟩ := exact_fits (n := 4) "Unable to read dhcp server".toList (r := ((r.drop 4).drop 4).drop 4) (by simp; omega)
  obtain ⟨c, r1, e1, h4⟩ := uncons (n := 1) (b := (((r.drop 4).drop 4).drop 4).drop 4) (by simp; omega)
  obtain ⟨a, r2, rfl, h5⟩ := uncons (n := 0) (b := r1) (by simp at *; omega)
  unfold BlockRead
  rw [if_neg (by simp [blockOverflows, octet1]), dib_start (t := .ipCurrentConfig) rfl]
  unfold blockFlaw
  rw [octet0, octet1, if_neg (by decide), if_neg (by simp), if_neg (by simp [blockNeeds]; omega)]
  refine ⟨.ipCurrentConfig ⟨len, .ipCurrentConfig, Ipv4.ofVec v1, Ipv4.ofVec v2, Ipv4.ofVec v3, Ipv4.ofVec v4, c, a⟩, ?_, rfl⟩
  simp only [IpCurrentConfig.read, bind, h1, h2, h3, h6, e1, TRd.u8, pure]
  congr 2
  show r2 = r.drop 18
  rw [show r.drop 18 = ((((r.drop 4).drop 4).drop 4).drop 4).drop 2 by simp, e1]
  rfl

theorem dib_addresses (m : Mode) (len : U8) (r : Bytes) (hr : 4 ≤ r.length) : BlockRead m (len :: 5 :: r) (Dib.read m (len :: 5 :: r)) := by
  obtain ⟨v1, h1⟩ := exact_fits (n := 4) "Unable to read knx individual address".toList (r := r) (by omega)
  unfold BlockRead
  rw [dib_start (t := .knxAddresses) rfl]
  by_cases ho : blockOverflows m (len :: 5 :: r)
  · rw [if_pos ho]
    simp only [blockOverflows, octet0, octet1] at ho
    have : m = .debug ∧ len.toNat < (4 : U8).toNat := ⟨ho.1, by have := ho.2; simp at this ⊢; omega⟩
    simp only [KnxAddresses.read, bind, h1, TRd.lift, subU_panic this]
  · rw [if_neg ho]
    simp only [blockOverflows, octet0, octet1] at ho
    have h2 : subU m len 4 = .ok (len - 4) := subU_ok (fun h => ho ⟨h.1, by have := h.2; simp at this ⊢; omega⟩)
    have hn : (len - 4).toNat = (len.toNat + 252) % 256 := by
      rw [BitVec.toNat_sub]; simp; omega
    unfold blockFlaw
    rw [octet0, octet1, if_neg (by decide), if_neg (by simp)]
    have hb : blockNeeds len.toNat (5 : U8).toNat = 4 + (len.toNat + 252) % 256 / 2 * 4 := rfl
    rw [hb]
    by_cases hl : (len.toNat + 252) % 256 / 2 * 4 ≤ (r.drop 4).length
    · obtain ⟨v, hv⟩ := readIpsT_fits _ hl
      simp only [List.length_drop] at hl
      rw [if_neg (by simp only [List.length_cons]; omega)]
      refine ⟨.knxAddresses ⟨len, .knxAddresses, Ipv4.ofVec v1, v⟩, ?_, rfl⟩
      simp only [KnxAddresses.read, bind, h1, TRd.lift, h2, hn, hv, pure]
      congr 2
      rw [Nat.add_comm 2, List.drop_succ_cons, List.drop_succ_cons, List.drop_drop]
    · have hv := readIpsT_short _ (Nat.lt_of_not_le hl)
      simp only [List.length_drop] at hl
      rw [if_pos (by simp only [List.length_cons]; omega)]
      simp only [KnxAddresses.read, bind, h1, TRd.lift, h2, hn, hv, pure]
      rfl

theorem dib_manufacturer (m : Mode) (len : U8) (r : Bytes) (hr : 2 ≤ r.length) :
    BlockRead m (len :: 254 :: r) (Dib.read m (len :: 254 :: r)) := by
  obtain ⟨i1, r1, rfl, h1⟩ := uncons (n := 1) (b := r) (by omega)
  obtain ⟨i2, r2, rfl, h2⟩ := uncons (n := 0) (b := r1) (by simp at *; omega)
  unfold BlockRead
  rw [if_neg (by simp [blockOverflows, octet1]), dib_start (t := .manufacturerData) rfl]
  unfold blockFlaw
  rw [octet0, octet1, if_neg (by decide), if_neg (by simp)]
  have hb : blockNeeds len.toNat (254 : U8).toNat = 2 + len.toNat := rfl
  rw [hb]
  by_cases hl : len.toNat ≤ r2.length
  · obtain ⟨v, hv⟩ := exactVec_fits "Unable to read manufacturer specific data".toList hl
    rw [if_neg (by simp only [List.length_cons]; omega)]
    refine ⟨.manufacturerData ⟨len, .manufacturerData, ofBe16 i1 i2, v⟩, ?_, rfl⟩
    simp only [ManufacturerData.read, bind, TRd.u16, hv, pure]
    congr 2
    rw [show 2 + (2 + len.toNat) = len.toNat + 1 + 1 + 1 + 1 by omega]
    simp only [List.drop_succ_cons]
  · have hv := exactVec_short "Unable to read manufacturer specific data".toList (Nat.lt_of_not_le hl)
    rw [if_pos (by simp only [List.length_cons]; omega)]
    simp only [ManufacturerData.read, bind, TRd.u16, hv, pure]
    rfl

theorem dib_unknown (m : Mode) (len ty : U8) (r : Bytes) (h : ty ≠ 1 ∧ ty ≠ 2 ∧ ty ≠ 3 ∧ ty ≠ 4 ∧ ty ≠ 5 ∧ ty ≠ 254) :
    BlockRead m (len :: ty :: r) (Dib.read m (len :: ty :: r)) := by
  have hk : DescType.ofU8 ty = .err := by
    unfold DescType.ofU8
    rw [if_neg h.1, if_neg h.2.1, if_neg h.2.2.1, if_neg h.2.2.2.1, if_neg h.2.2.2.2.1, if_neg h.2.2.2.2.2]
  have h1 : ty.toNat ≠ 1 := toNat_ne h.1
  have h2 : ty.toNat ≠ 2 := toNat_ne h.2.1
  have h3 : ty.toNat ≠ 3 := toNat_ne h.2.2.1
  have h4 : ty.toNat ≠ 4 := toNat_ne h.2.2.2.1
  have h5 : ty.toNat ≠ 5 := toNat_ne h.2.2.2.2.1
  have h6 : ty.toNat ≠ 254 := toNat_ne h.2.2.2.2.2
  unfold BlockRead
  rw [if_neg (by simp [blockOverflows, octet1, h2, h5])]
  unfold blockFlaw
  rw [octet1, if_pos (by simp [h1, h2, h3, h4, h5, h6])]
  simp only [Dib.read, bind, TRd.u8, TRd.lift, hk, showU_decimal]
  rfl

theorem dib_read (m : Mode) (b : Bytes) (h : 24 ≤ b.length) (he : b.length % 2 = 0) : BlockRead m b (Dib.read m b) := by
  obtain ⟨len, r1, rfl, h1⟩ := uncons (n := 1) (b := b) (by omega)
  obtain ⟨ty, r, rfl, h2⟩ := uncons (n := 0) (b := r1) (by simp at *; omega)
  simp only [List.length_cons] at h he
  by_cases e1 : ty = 1
  · subst e1; exact dib_device m len r (by omega)
  by_cases e2 : ty = 2
  · subst e2; exact dib_families m len r (by omega)
  by_cases e3 : ty = 3
  · subst e3; exact dib_config m len r (by omega)
  by_cases e4 : ty = 4
  · subst e4; exact dib_current m len r (by omega)
  by_cases e5 : ty = 5
  · subst e5; exact dib_addresses m len r (by omega)
  by_cases e6 : ty = 254
  · subst e6; exact dib_manufacturer m len r (by omega)
  exact dib_unknown m len ty r ⟨e1, e2, e3, e4, e5, e6⟩


/-! ## Responses -/

/-- `SearchSays x m f t`: of the flaw `f` the library says `t`. -/
def SearchSays (x : StdText) (m : Mode) : SearchFlaw → Text → Prop
  | .size n, t => t = "Header length should be 6 instead of ".toList ++ decimal n
  | .version _, t => t = "KNXIP protocol version should be 0x10 instead of 10".toList
  | .service n, t => t = "Search response should be 0x0202 instead of ".toList ++ hexadecimal n
  | .endpoint n, t => t = "HPAI size must be 8 instead of ".toList ++ decimal n
  | .block f, t => t = blockText f
  | .notDevice b, t => ∃ d, runRd (Dib.fromPacket m) id b = .ok d ∧ t = "Expected device information dib instead of ".toList ++ x.dib d
  | .notFamilies b, t =>
    ∃ d, runRd (Dib.fromPacket m) id b = .ok d ∧ t = "Expected supported service families dib instead of ".toList ++ x.dib d

theorem searchVersion_text : "KNXIP protocol version should be 0x10 instead of ".toList ++ hex2 0x10 =
    "KNXIP protocol version should be 0x10 instead of 10".toList := by decide +kernel

theorem ofBe16_eq (a b : U8) : (ofBe16 a b).toNat = 256 * a.toNat + b.toNat := by
  rw [ofBe16_toNat]

theorem dib_fromPacket {m : Mode} {b r : Bytes} {d : Dib} (h : Dib.read m b = .ok (d, r)) : runRd (Dib.fromPacket m) id b = .ok d := by
  have := runTRd_erase (Dib.read m) b
  rw [Dib.read_erase] at this
  rw [← this]
  unfold runTRd
  rw [h]
  rfl

/-- The two blocks of a search response as they are read. -/
def readBlocks (x : StdText) (m : Mode) (ep : Hpai) : TRd SearchResponse := do
  let dib1 ← Dib.read m
  let deviceHardware ← match dib1 with
    | .deviceInformation d => pure d
    | other => TRd.fail ("Expected device information dib instead of ".toList ++ x.dib other)
  let dib2 ← Dib.read m
  let serviceFamilies ← match dib2 with
    | .supportedServiceFamilies s => pure s
    | other => TRd.fail ("Expected supported service families dib instead of ".toList ++ x.dib other)
  return ⟨ep, deviceHardware, serviceFamilies⟩

/-- The result of reading fits the flaw there is. -/
def ReadFits (x : StdText) (m : Mode) (f : Option SearchFlaw) {α : Type} (r : TRes α) : Prop :=
  match r with
  | .err t => ∃ f', f = some f' ∧ SearchSays x m f' t
  | _ => f = none

theorem is_device {d : Dib} (h : d.number = 1) : ∃ e, d = .deviceInformation e := by
  cases d <;> first | exact ⟨_, rfl⟩ | simp [Dib.number] at h

theorem is_families {d : Dib} (h : d.number = 2) : ∃ e, d = .supportedServiceFamilies e := by
  cases d <;> first | exact ⟨_, rfl⟩ | simp [Dib.number] at h

theorem blocks_read (x : StdText) (m : Mode) (ep : Hpai) (b : Bytes) (hl : b.length = 86) :
    ReadFits x m (blocksFlaw m b) (readBlocks x m ep b) := by
  have h1 := dib_read m b (by omega) (by omega)
  have h2 := dib_read m (b.drop 54) (by simp [hl]) (by simp [hl])
  unfold BlockRead at h1 h2
  unfold blocksFlaw
  by_cases o1 : blockOverflows m b
  · rw [if_pos o1] at h1 ⊢
    simp only [readBlocks, bind, h1, ReadFits]
  rw [if_neg o1] at h1 ⊢
  cases f1 : blockFlaw b with
  | some f =>
    rw [f1] at h1
    simp only [readBlocks, bind, h1, ReadFits]
    exact ⟨_, rfl, rfl⟩
  | none =>
    rw [f1] at h1
    obtain ⟨d, hd, hn⟩ := h1
    by_cases n1 : octetAt b 1 = 1
    · obtain ⟨e, rfl⟩ := is_device (hn.trans n1)
      have hb : b.drop (2 + blockNeeds (octetAt b 0) (octetAt b 1)) = b.drop 54 := by rw [n1]; rfl
      rw [hb] at hd
      simp only [n1, ne_eq, not_true_eq_false, if_false]
      by_cases o2 : blockOverflows m (b.drop 54)
      · rw [if_pos o2] at h2 ⊢
        simp only [readBlocks, bind, hd, pure, h2, ReadFits]
      rw [if_neg o2] at h2 ⊢
      cases f2 : blockFlaw (b.drop 54) with
      | some f =>
        rw [f2] at h2
        simp only [readBlocks, bind, hd, pure, h2, ReadFits]
        exact ⟨_, rfl, rfl⟩
      | none =>
        rw [f2] at h2
        obtain ⟨d', hd', hn'⟩ := h2
        by_cases n2 : octetAt (b.drop 54) 1 = 2
        · obtain ⟨e', rfl⟩ := is_families (hn'.trans n2)
          simp only [readBlocks, bind, hd, pure, hd', ReadFits, n2, ne_eq, not_true_eq_false, if_false]
        · have hf : d'.number ≠ 2 := fun h => n2 (hn'.symm.trans h)
          have hp := dib_fromPacket hd'
          simp only [readBlocks, bind, hd, pure, hd', TRd.fail, ReadFits, ne_eq, n2, not_false_eq_true, if_true]
          cases d' <;> first | exact absurd rfl hf | exact ⟨_, rfl, _, hp, rfl⟩
    · have hf : d.number ≠ 1 := fun h => n1 (hn.symm.trans h)
      have hp := dib_fromPacket hd
      simp only [readBlocks, bind, hd, pure, TRd.fail, ReadFits, ne_eq, n1, not_false_eq_true, if_true]
      cases d <;> first | exact absurd rfl hf | exact ⟨_, rfl, _, hp, rfl⟩

theorem search_read (x : StdText) (m : Mode) (b : Bytes) (hl : b.length = 100) :
    ReadFits x m (searchFlaw m b) (SearchResponse.read x m b) := by
  obtain ⟨a0, b1, rfl, h1⟩ := uncons (n := 13) (b := b) (by omega)
  obtain ⟨a1, b2, rfl, h2⟩ := uncons (n := 12) (b := b1) (by simp at *; omega)
  obtain ⟨a2, b3, rfl, h3⟩ := uncons (n := 11) (b := b2) (by simp at *; omega)
  obtain ⟨a3, b4, rfl, h4⟩ := uncons (n := 10) (b := b3) (by simp at *; omega)
  obtain ⟨a4, b5, rfl, h5⟩ := uncons (n := 9) (b := b4) (by simp at *; omega)
  obtain ⟨a5, b6, rfl, h6⟩ := uncons (n := 8) (b := b5) (by simp at *; omega)
  obtain ⟨a6, b7, rfl, h7⟩ := uncons (n := 7) (b := b6) (by simp at *; omega)
  obtain ⟨a7, b8, rfl, h8⟩ := uncons (n := 6) (b := b7) (by simp at *; omega)
  obtain ⟨a8, b9, rfl, h9⟩ := uncons (n := 5) (b := b8) (by simp at *; omega)
  obtain ⟨a9, b10, rfl, h10⟩ := uncons (n := 4) (b := b9) (by simp at *; omega)
  obtain ⟨a10, b11, rfl, h11⟩ := uncons (n := 3) (b := b10) (by simp at *; omega)
  obtain ⟨a11, b12, rfl, h12⟩ := uncons (n := 2) (b := b11) (by simp at *; omega)
  obtain ⟨a12, b13, rfl, h13⟩ := uncons (n := 1) (b := b12) (by simp at *; omega)
  obtain ⟨a13, r, rfl, h14⟩ := uncons (n := 0) (b := b13) (by simp at *; omega)
  clear h1 h2 h3 h4 h5 h6 h7 h8 h9 h10 h11 h12 h13 h14
  have hr : r.length = 86 := by simpa using hl
  have hs : searchFlaw m (a0 :: a1 :: a2 :: a3 :: a4 :: a5 :: a6 :: a7 :: a8 :: a9 :: a10 :: a11 :: a12 :: a13 :: r) =
      if a0.toNat ≠ 6 then some (.size a0.toNat)
      else if a1.toNat ≠ 16 then some (.version a1.toNat)
      else if (ofBe16 a2 a3).toNat ≠ 0x0202 then some (.service (ofBe16 a2 a3).toNat)
      else if a6.toNat ≠ 8 then some (.endpoint a6.toNat)
      else blocksFlaw m r := by
    rw [ofBe16_eq]; rfl
  rw [hs]
  clear hs hl
  by_cases e0 : a0 = 6
  · subst e0
    rw [if_neg (by decide)]
    by_cases e1 : a1 = 0x10
    · subst e1
      rw [if_neg (by decide)]
      have hh : Header.read x (6 :: 0x10 :: a2 :: a3 :: a4 :: a5 :: a6 :: a7 :: a8 :: a9 :: a10 :: a11 :: a12 :: a13 :: r) =
          .ok (⟨ofBe16 a2 a3, ofBe16 a4 a5⟩, a6 :: a7 :: a8 :: a9 :: a10 :: a11 :: a12 :: a13 :: r) := by
        simp only [Header.read, bind, TRd.u8, TRd.u16, TRd.ensure, pure]
        rfl
      by_cases e2 : ofBe16 a2 a3 = 0x0202
      · rw [if_neg (by rw [e2]; decide)]
        by_cases e6 : a6 = 8
        · subst e6
          rw [if_neg (by decide)]
          have hp : Hpai.read x (8 :: a7 :: a8 :: a9 :: a10 :: a11 :: a12 :: a13 :: r) =
              .ok (⟨a7, ⟨⟨a8, a9, a10, a11⟩, ofBe16 a12 a13⟩⟩, r) := by
            simp only [Hpai.read, bind, TRd.u8, TRd.u16, TRd.ensure, pure]
            rfl
          have he : SearchResponse.read x m (6 :: 0x10 :: a2 :: a3 :: a4 :: a5 :: 8 :: a7 :: a8 :: a9 :: a10 :: a11 :: a12 :: a13 :: r) =
              readBlocks x m ⟨a7, ⟨⟨a8, a9, a10, a11⟩, ofBe16 a12 a13⟩⟩ r := by
            unfold SearchResponse.read
            simp only [bind]
            rw [hh]
            simp only [e2, TRd.ensure, hp]
            rfl
          rw [he]
          exact blocks_read x m _ r hr
        · rw [if_pos (show a6.toNat ≠ 8 from toNat_ne e6)]
          have hp : Hpai.read x (a6 :: a7 :: a8 :: a9 :: a10 :: a11 :: a12 :: a13 :: r) =
              .err ("HPAI size must be 8 instead of ".toList ++ showU a6) := by
            simp only [Hpai.read, bind, TRd.u8, TRd.ensure, beq_eq_false_iff_ne.2 e6]
            rfl
          unfold SearchResponse.read
          simp only [bind]
          rw [hh]
          simp only [e2, TRd.ensure, beq_self_eq_true, if_true, hp]
          exact ⟨_, rfl, by rw [showU_decimal]; rfl⟩
      · have hn : (ofBe16 a2 a3).toNat ≠ 0x0202 := fun h => e2 (BitVec.eq_of_toNat_eq h)
        rw [if_pos hn]
        unfold SearchResponse.read
        simp only [bind]
        rw [hh]
        simp only [TRd.ensure, beq_eq_false_iff_ne.2 e2]
        exact ⟨_, rfl, by rw [hex2_hexadecimal]; rfl⟩
    · rw [if_pos (show a1.toNat ≠ 16 from toNat_ne e1)]
      have hh : Header.read x (6 :: a1 :: a2 :: a3 :: a4 :: a5 :: a6 :: a7 :: a8 :: a9 :: a10 :: a11 :: a12 :: a13 :: r) =
          .err ("KNXIP protocol version should be 0x10 instead of ".toList ++ hex2 0x10) := by
        simp only [Header.read, bind, TRd.u8, TRd.ensure, beq_self_eq_true, if_true, beq_eq_false_iff_ne.2 e1]
        rfl
      unfold SearchResponse.read
      simp only [bind]
      rw [hh]
      exact ⟨_, rfl, searchVersion_text⟩
  · rw [if_pos (show a0.toNat ≠ 6 from toNat_ne e0)]
    have hh : Header.read x (a0 :: a1 :: a2 :: a3 :: a4 :: a5 :: a6 :: a7 :: a8 :: a9 :: a10 :: a11 :: a12 :: a13 :: r) =
        .err ("Header length should be 6 instead of ".toList ++ showU a0) := by
      simp only [Header.read, bind, TRd.u8, TRd.ensure, beq_eq_false_iff_ne.2 e0]
      rfl
    unfold SearchResponse.read
    simp only [bind]
    rw [hh]
    exact ⟨_, rfl, by rw [showU_decimal]; rfl⟩

/-- 100 octets are rejected with a text exactly if there is a flaw of which that is said. -/
theorem searchText_iff (x : StdText) (m : Mode) {b : Bytes} (hl : b.length = 100) :
    (runRd (SearchResponse.fromPacket m) id b = .err ↔ ∃ f, searchFlaw m b = some f) ∧
      ∀ f, searchFlaw m b = some f → ∃ t, searchText x m b = some t ∧ SearchSays x m f t := by
  have h := search_read x m b hl
  have hx := runTRd_erase (SearchResponse.read x m) b
  rw [SearchResponse.read_erase] at hx
  unfold runTRd at hx
  unfold searchText runTRd
  rw [← hx]
  cases hr : SearchResponse.read x m b with
  | ok y =>
    rw [hr] at h
    have h : searchFlaw m b = none := h
    simp [h, TRes.erase]
  | err t =>
    rw [hr] at h
    obtain ⟨f, hf, hs⟩ := h
    refine ⟨⟨fun _ => ⟨f, hf⟩, fun _ => rfl⟩, fun f' hf' => ?_⟩
    rw [hf] at hf'
    cases hf'
    exact ⟨t, rfl, hs⟩
  | panic =>
    rw [hr] at h
    have h : searchFlaw m b = none := h
    simp [h, TRes.erase]

/-! ## C127 -/

/-- The search stops at its end. -/
theorem finished_stuck {m : Mode} {T t : Nat} {r : Res (List SearchResponse)} {evs : List (Nat × SearchEv)} {st : SearchSt}
    (h : searchRun m T t (.finished r) evs = some st) : evs = [] ∧ st = .finished r := by
  cases evs with
  | nil => simp [searchRun] at h; exact ⟨rfl, h.symm⟩
  | cons y evs =>
    obtain ⟨t', e'⟩ := y
    simp only [searchRun, searchStep] at h
    split at h <;> cases h

/-- None of the datagrams gives, with what is left of the earlier ones, a flawed response. -/
def Clean (m : Mode) (ds : List Bytes) : Prop := ∀ i < ds.length, searchFlaw m (visible (ds.take (i + 1))) = none

theorem err_inv (x : StdText) {m : Mode} {T : Nat} {evs : List (Nat × SearchEv)} {now : Nat} {ds : List Bytes}
    {found : List SearchResponse} {dl : Nat} (hc : Clean m ds)
    (h : searchRun m T now (.waiting (visible ds) found dl) evs = some (.finished .err)) :
    ∃ new, Clean m (ds ++ new.map (·.2)) ∧
      ((∃ t', evs = arrivals new ++ [(t', .recvErr)]) ∨
        ∃ t' d f u, evs = arrivals new ++ [(t', .dgram d)] ∧ searchFlaw m (visible (ds ++ new.map (·.2) ++ [d])) = some f ∧
          searchText x m (visible (ds ++ new.map (·.2) ++ [d])) = some u ∧ SearchSays x m f u) := by
  induction evs generalizing now ds found dl with
  | nil => simp [searchRun] at h
  | cons y evs ih =>
    obtain ⟨t, e⟩ := y
    simp only [searchRun] at h
    split at h
    · split at h
      · rename_i s' hs
        cases e <;> simp only [searchStep, reduceCtorEq] at hs
        case dgram d =>
          rw [visible_snoc] at hs
          have ht := searchText_iff x m (visible_length (ds ++ [d]))
          split at hs
          · rename_i r hr
            cases hs
            have hn : searchFlaw m (visible (ds ++ [d])) = none := by
              cases hq : searchFlaw m (visible (ds ++ [d])) with
              | none => rfl
              | some f => have := ht.1.2 ⟨f, hq⟩; rw [hr] at this; cases this
            have hc' : Clean m (ds ++ [d]) := by
              intro i hi
              by_cases hid : i < ds.length
              · rw [List.take_append_of_le_length (by omega)]
                exact hc i hid
              · have : i + 1 = (ds ++ [d]).length := by simp at hi ⊢; omega
                rw [this, List.take_length]
                exact hn
            obtain ⟨new, h1, h2⟩ := ih hc' h
            refine ⟨(t, d) :: new, by simpa using h1, ?_⟩
            rcases h2 with ⟨t', rfl⟩ | ⟨t', d', f, u, rfl, h3, h4, h5⟩
            · exact .inl ⟨t', rfl⟩
            · exact .inr ⟨t', d', f, u, rfl, by simpa using h3, by simpa using h4, h5⟩
          · rename_i hr
            cases hs
            obtain ⟨rfl, _⟩ := finished_stuck h
            obtain ⟨f, hf⟩ := ht.1.1 hr
            obtain ⟨u, h1, h2⟩ := ht.2 f hf
            exact ⟨[], by simpa using hc, .inr ⟨t, d, f, u, rfl, by simpa using hf, by simpa using h1, h2⟩⟩
          · cases hs
            exact absurd (finished_stuck h).2 (by simp)
        case recvErr =>
          cases hs
          obtain ⟨rfl, _⟩ := finished_stuck h
          exact ⟨[], by simpa using hc, .inl ⟨t, rfl⟩⟩
        case timer =>
          split at hs
          · cases hs
            exact absurd (finished_stuck h).2 (by simp)
          · cases hs
      · cases h
    · cases h

/-- C127: whenever a search that could send its request ends in an error, either the socket failed, or the last datagram, with what is
left of the earlier ones, has a flaw, none had one before, and the text of the error is what is said of that flaw. -/
theorem C127_exact (x : StdText) {m : Mode} {T t0 : Nat} {evs : List (Nat × SearchEv)}
    (h : searchRun m T t0 .start evs = some (.finished .err)) :
    ∃ t ds, Clean m (ds.map (·.2)) ∧
      ((∃ t', evs = (t, .sendOk) :: arrivals ds ++ [(t', .recvErr)]) ∨
        ∃ t' d f u, evs = (t, .sendOk) :: arrivals ds ++ [(t', .dgram d)] ∧
          searchFlaw m (visible (ds.map (·.2) ++ [d])) = some f ∧ searchText x m (visible (ds.map (·.2) ++ [d])) = some u ∧
          SearchSays x m f u) := by
  cases evs with
  | nil => simp [searchRun] at h
  | cons y evs =>
    obtain ⟨t, e⟩ := y
    simp only [searchRun] at h
    split at h
    · cases e <;> simp only [searchStep, reduceCtorEq] at h
      case sendOk =>
        rw [← visible_nil] at h
        obtain ⟨new, h1, h2⟩ := err_inv x (ds := []) (fun i hi => absurd hi (by simp)) h
        refine ⟨t, new, by simpa using h1, ?_⟩
        rcases h2 with ⟨t', rfl⟩ | ⟨t', d', f, u, rfl, h3, h4, h5⟩
        · exact .inl ⟨t', rfl⟩
        · exact .inr ⟨t', d', f, u, rfl, by simpa using h3, by simpa using h4, h5⟩
      case sendFail => exact absurd (finished_stuck h).2 (by simp)
    · cases h

theorem iff_inv {m : Mode} {T : Nat} {new : List (Nat × Bytes)} {now t' : Nat} {d : Bytes} {ds : List Bytes}
    {found : List SearchResponse} {dl : Nat} {st : SearchSt}
    (h : searchRun m T now (.waiting (visible ds) found dl) (arrivals new ++ [(t', .dgram d)]) = some st) :
    st = .finished .err ↔ ∃ f, searchFlaw m (visible (ds ++ new.map (·.2) ++ [d])) = some f := by
  induction new generalizing now ds found dl with
  | nil =>
    simp only [arrivals, List.map_nil, List.nil_append, List.append_nil, searchRun, searchStep] at h ⊢
    rw [visible_snoc] at h
    rw [← (searchText_iff ⟨[], [], id, fun _ => [], id⟩ m (visible_length (ds ++ [d]))).1]
    split at h
    · cases hr : runRd (SearchResponse.fromPacket m) id (visible (ds ++ [d])) <;> rw [hr] at h <;> cases h <;> simp
    · cases h
  | cons y new ih =>
    obtain ⟨t, e⟩ := y
    simp only [arrivals, List.map_cons, List.cons_append, searchRun, searchStep] at h
    rw [visible_snoc] at h
    split at h
    · cases hr : runRd (SearchResponse.fromPacket m) id (visible (ds ++ [e])) with
      | ok r =>
        rw [hr] at h
        have := ih h
        simpa using this
      | err =>
        rw [hr] at h
        exact absurd (finished_stuck h).1 (by simp)
      | panic =>
        rw [hr] at h
        exact absurd (finished_stuck h).1 (by simp)
    · cases h

/-- C127: a search ends in an error at a datagram exactly if that, with what is left of the earlier ones, has a flaw. -/
theorem C127_iff {m : Mode} {T t0 t t' : Nat} {ds : List (Nat × Bytes)} {d : Bytes} {st : SearchSt}
    (h : searchRun m T t0 .start ((t, .sendOk) :: arrivals ds ++ [(t', .dgram d)]) = some st) :
    st = .finished .err ↔ ∃ f, searchFlaw m (visible (ds.map (·.2) ++ [d])) = some f := by
  simp only [List.cons_append, searchRun, searchStep] at h
  split at h
  · rw [← visible_nil] at h
    simpa using iff_inv (ds := []) h
  · cases h

theorem take_text {l r : Text} (h : 16 ≤ l.length) : (l ++ r).take 16 = l.take 16 := by
  rw [List.take_append_of_le_length h]

/-- A response whose device description names the medium 9, or that has a block of type 7 in its place. -/
def flawedResponse (type medium : U8) : Bytes := [6, 16, 2, 2, 0, 70, 8, 1, 10, 0, 0, 1, 14, 87, 54, type, medium, 0, 17, 1]

/-- A search that gets one ends with these texts. -/
example (x : StdText) (m : Mode) :
    searchRun m 1000 0 .start [(0, .sendOk), (5, .dgram (flawedResponse 1 9))] = some (.finished .err) ∧
    searchText x m (visible [flawedResponse 1 9]) = some "Unknown KnxMedium 9".toList ∧
    searchRun m 1000 0 .start [(0, .sendOk), (5, .dgram (flawedResponse 7 2))] = some (.finished .err) ∧
    searchText x m (visible [flawedResponse 7 2]) = some "Unknown DescriptionTypeCode 7".toList := by
  have key : ∀ d f, searchFlaw m (visible [d]) = some f → searchRun m 1000 0 .start [(0, .sendOk), (5, .dgram d)] = some (.finished .err) ∧
      ∃ t, searchText x m (visible [d]) = some t ∧ SearchSays x m f t := by
    intro d f hf
    have ht := searchText_iff x m (visible_length [d])
    have he := ht.1.2 ⟨f, hf⟩
    refine ⟨?_, ht.2 f hf⟩
    have hv : overwrite (List.replicate 100 0) d = visible [d] := by rw [← visible_nil, visible_snoc]; rfl
    simp only [searchRun, searchStep, Nat.zero_le, if_true, hv, he]
  have e1 : searchFlaw m (visible [flawedResponse 1 9]) = some (.block (.medium 9)) := by cases m <;> decide +kernel
  have e2 : searchFlaw m (visible [flawedResponse 7 2]) = some (.block (.type 7)) := by cases m <;> decide +kernel
  obtain ⟨h1, t1, h2, h3⟩ := key _ _ e1
  obtain ⟨h4, t2, h5, h6⟩ := key _ _ e2
  refine ⟨h1, ?_, h4, ?_⟩
  · rw [h2, show t1 = _ from h3]; decide +kernel
  · rw [h5, show t2 = _ from h6]; decide +kernel

/-- Which kind of flaw it is. -/
def flawKind : SearchFlaw → Nat
  | .size _ => 0
  | .version _ => 1
  | .service _ => 2
  | .endpoint _ => 3
  | .block (.type _) => 4
  | .block (.medium _) => 5
  | .block (.cut n) => if n = 1 then 6 else if n = 2 then 7 else if n = 5 then 8 else 9
  | .notDevice _ => 10
  | .notFamilies _ => 11

/-- The first characters of what is said of a flaw of a kind. -/
def flawStart (k : Nat) : Text :=
  (["Header length sh", "KNXIP protocol v", "Search response ", "HPAI size must b", "Unknown Descript", "Unknown KnxMediu",
    "Unable to read f", "Unable to read s", "Unable to read a", "Unable to read m", "Expected device ", "Expected support"].getD k "").toList

theorem flawStart_inj : ∀ i < 12, ∀ j < 12, flawStart i = flawStart j → i = j := by decide +kernel

theorem flawKind_lt (f : SearchFlaw) : flawKind f < 12 := by
  unfold flawKind
  split <;> (try split) <;> (try split) <;> (try split) <;> omega

theorem says_start {x : StdText} {m : Mode} {f : SearchFlaw} {t : Text} (h : SearchSays x m f t) : t.take 16 = flawStart (flawKind f) := by
  cases f with
  | size n => rw [show t = _ from h, take_text (by decide +kernel), show flawKind (.size n) = 0 from rfl]; decide +kernel
  | version n => rw [show t = _ from h, show flawKind (.version n) = 1 from rfl]; decide +kernel
  | service n => rw [show t = _ from h, take_text (by decide +kernel), show flawKind (.service n) = 2 from rfl]; decide +kernel
  | endpoint n => rw [show t = _ from h, take_text (by decide +kernel), show flawKind (.endpoint n) = 3 from rfl]; decide +kernel
  | block f =>
    rw [show t = _ from h]
    cases f with
    | type n => unfold blockText; rw [take_text (by decide +kernel), show flawKind (.block (.type n)) = 4 from rfl]; decide +kernel
    | medium n => unfold blockText; rw [take_text (by decide +kernel), show flawKind (.block (.medium n)) = 5 from rfl]; decide +kernel
    | cut n =>
      unfold blockText flawKind
      by_cases h1 : n = 1
      · simp only [h1, if_true]; decide +kernel
      by_cases h2 : n = 2
      · simp only [h2, if_true]; decide +kernel
      by_cases h5 : n = 5
      · simp only [h5, if_true]; decide +kernel
      simp only [h1, h2, h5, if_false]; decide +kernel
  | notDevice b =>
    obtain ⟨d, _, rfl⟩ := h
    rw [take_text (by decide +kernel), show flawKind (.notDevice b) = 10 from rfl]; decide +kernel
  | notFamilies b =>
    obtain ⟨d, _, rfl⟩ := h
    rw [take_text (by decide +kernel), show flawKind (.notFamilies b) = 11 from rfl]; decide +kernel

/-- Only blocks of these types can be cut. -/
theorem cut_types {b : Bytes} {n : Nat} (hl : 24 ≤ b.length) (h : blockFlaw b = some (.cut n)) : n = 1 ∨ n = 2 ∨ n = 5 ∨ n = 254 := by
  unfold blockFlaw at h
  split at h
  · cases h
  · rename_i h1
    split at h
    · cases h
    · split at h
      · rename_i h3
        simp only [Option.some.injEq, BlockFlaw.cut.injEq] at h
        subst h
        simp only [List.mem_cons, List.not_mem_nil, or_false, Classical.not_not] at h1
        rcases h1 with h1 | h1 | h1 | h1 | h1 | h1
        · exact .inl h1
        · exact .inr (.inl h1)
        · rw [h1] at h3; simp [blockNeeds] at h3; omega
        · rw [h1] at h3; simp [blockNeeds] at h3; omega
        · exact .inr (.inr (.inl h1))
        · exact .inr (.inr (.inr h1))
      · cases h

theorem search_cut {m : Mode} {b : Bytes} {n : Nat} (hl : b.length = 100) (h : searchFlaw m b = some (.block (.cut n))) :
    n = 1 ∨ n = 2 ∨ n = 5 ∨ n = 254 := by
  unfold searchFlaw blocksFlaw at h
  repeat (split at h; · cases h)
  split at h
  · rename_i hf
    simp only [Option.some.injEq, SearchFlaw.block.injEq] at h
    subst h
    exact cut_types (by simp [hl]) hf
  · repeat (split at h; · cases h)
    split at h
    · rename_i hf
      simp only [Option.some.injEq, SearchFlaw.block.injEq] at h
      subst h
      exact cut_types (by simp [hl]) hf
    · split at h <;> cases h

/-- C127: the texts of two flaws that are not blocks of the wrong type are the same exactly if the flaws are the same or both wrong
versions: which field is wrong, and its value, can be read off the text, except the value of the version. -/
theorem C127_says {x : StdText} {m : Mode} {b b' : Bytes} {f f' : SearchFlaw} {t t' : Text} (hl : b.length = 100) (hl' : b'.length = 100)
    (h : searchFlaw m b = some f) (h' : searchFlaw m b' = some f') (hs : SearchSays x m f t) (hs' : SearchSays x m f' t')
    (ho : ¬ f.other) (ho' : ¬ f'.other) : t = t' ↔ f = f' ∨ f.versions f' := by
  constructor
  · rintro rfl
    have e := flawStart_inj _ (flawKind_lt f) _ (flawKind_lt f') ((says_start hs).symm.trans (says_start hs'))
    cases f with
    | size n =>
      cases f' <;> try (simp [flawKind] at e; done)
      case size n' => exact .inl (congrArg _ (decimal_inj (List.append_cancel_left ((show t = _ from hs).symm.trans hs'))))
      case block g => cases g <;> simp [flawKind] at e; split at e <;> (try split at e) <;> (try split at e) <;> omega
    | version n =>
      cases f' <;> try (simp [flawKind] at e; done)
      case version n' => exact .inr trivial
      case block g => cases g <;> simp [flawKind] at e; split at e <;> (try split at e) <;> (try split at e) <;> omega
    | service n =>
      cases f' <;> try (simp [flawKind] at e; done)
      case service n' => exact .inl (congrArg _ (hexadecimal_inj (List.append_cancel_left ((show t = _ from hs).symm.trans hs'))))
      case block g => cases g <;> simp [flawKind] at e; split at e <;> (try split at e) <;> (try split at e) <;> omega
    | endpoint n =>
      cases f' <;> try (simp [flawKind] at e; done)
      case endpoint n' => exact .inl (congrArg _ (decimal_inj (List.append_cancel_left ((show t = _ from hs).symm.trans hs'))))
      case block g => cases g <;> simp [flawKind] at e; split at e <;> (try split at e) <;> (try split at e) <;> omega
    | notDevice b => exact absurd trivial ho
    | notFamilies b => exact absurd trivial ho
    | block g =>
      cases f' with
      | notDevice b => exact absurd trivial ho'
      | notFamilies b => exact absurd trivial ho'
      | block g' =>
        have ht : blockText g = blockText g' := (show t = _ from hs).symm.trans hs'
        cases g with
        | type n =>
          cases g' with
          | type n' => exact .inl (by rw [decimal_inj (List.append_cancel_left ht)])
          | medium n' => simp [flawKind] at e
          | cut n' => simp only [flawKind] at e; split at e <;> (try split at e) <;> (try split at e) <;> omega
        | medium n =>
          cases g' with
          | type n' => simp [flawKind] at e
          | medium n' => exact .inl (by rw [decimal_inj (List.append_cancel_left ht)])
          | cut n' => simp only [flawKind] at e; split at e <;> (try split at e) <;> (try split at e) <;> omega
        | cut n =>
          cases g' with
          | type n' => simp only [flawKind] at e; split at e <;> (try split at e) <;> (try split at e) <;> omega
          | medium n' => simp only [flawKind] at e; split at e <;> (try split at e) <;> (try split at e) <;> omega
          | cut n' =>
            left
            rcases search_cut hl h with rfl | rfl | rfl | rfl <;> rcases search_cut hl' h' with rfl | rfl | rfl | rfl <;>
              first | rfl | simp [flawKind] at e
      | _ => cases g <;> simp [flawKind] at e; split at e <;> (try split at e) <;> (try split at e) <;> omega
  · rintro (rfl | hv)
    · cases f <;> first | exact absurd trivial ho | exact (show t = _ from hs).trans (show t' = _ from hs').symm
    · cases f <;> cases f' <;> first | exact hv.elim | skip
      exact (show t = _ from hs).trans (show t' = _ from hs').symm

/-- C127: of a block of the wrong type it is said that it is one, and in which of the two places. -/
theorem C127_other {x : StdText} {m : Mode} {f f' : SearchFlaw} {t : Text} (hs : SearchSays x m f t) (hs' : SearchSays x m f' t) :
    ((∃ b, f = .notDevice b) ↔ ∃ b, f' = .notDevice b) ∧ ((∃ b, f = .notFamilies b) ↔ ∃ b, f' = .notFamilies b) := by
  have e := flawStart_inj _ (flawKind_lt f) _ (flawKind_lt f') ((says_start hs).symm.trans (says_start hs'))
  have k1 : ∀ g, flawKind g = 10 ↔ ∃ b, g = .notDevice b := by
    intro g
    constructor
    · intro h
      cases g with
      | notDevice b => exact ⟨b, rfl⟩
      | block g =>
        cases g with
        | cut n => simp only [flawKind] at h; split at h <;> (try split at h) <;> (try split at h) <;> omega
        | _ => simp [flawKind] at h
      | _ => simp [flawKind] at h
    · rintro ⟨b, rfl⟩; rfl
  have k2 : ∀ g, flawKind g = 11 ↔ ∃ b, g = .notFamilies b := by
    intro g
    constructor
    · intro h
      cases g with
      | notFamilies b => exact ⟨b, rfl⟩
      | block g =>
        cases g with
        | cut n => simp only [flawKind] at h; split at h <;> (try split at h) <;> (try split at h) <;> omega
        | _ => simp [flawKind] at h
      | _ => simp [flawKind] at h
    · rintro ⟨b, rfl⟩; rfl
  exact ⟨by rw [← k1, ← k1, e], by rw [← k2, ← k2, e]⟩

end Knx
