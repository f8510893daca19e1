import Verif.Props.Dib
import Verif.Props.DpFloat
import Verif.Props.DpInt

/-!
# Exact forms of C28, C34 and C37
-/

namespace Knx
open Spec

theorem ips_length (l : List Ipv4) : ((l.map ip4).flatten).length = 4 * l.length := by
  induction l with
  | nil => rfl
  | cons x l ih => simp only [List.map_cons, List.flatten_cons, List.length_append, ih]; simp [ip4]; omega

theorem ip4_inj {a b : Ipv4} (h : ip4 a = ip4 b) : a = b := by
  cases a; cases b
  simp only [ip4, List.cons.injEq, and_true] at h
  simp [h]

theorem ips_inj {a b : List Ipv4} (hl : a.length = b.length) (h : (a.map ip4).flatten = (b.map ip4).flatten) : a = b := by
  induction a generalizing b with
  | nil => cases b <;> simp at hl; rfl
  | cons x a ih =>
    cases b with
    | nil => simp at hl
    | cons y b =>
      simp only [List.map_cons, List.flatten_cons] at h
      obtain ⟨h1, h2⟩ := List.append_inj h (by simp [ip4])
      rw [ip4_inj h1, ih (by simpa using hl) h2]

/-- C28, what decoding does with an encoded block of KNX addresses: it takes one address more than the block has, twice over, so that the
block of `n` additional addresses swallows the `n + 1` addresses that the following `4 (n + 1)` bytes make up. -/
theorem C28_exact_addresses (m : Mode) (k : KnxAddresses) (hc : DibConsistent (.knxAddresses k)) (rest rest' : Bytes) (d : Dib) :
    Dib.fromPacket m ((Dib.knxAddresses k).packet ++ rest) = .ok (d, rest') ↔
      ∃ more : List Ipv4, more.length = k.additional.length + 1 ∧ rest = (more.map ip4).flatten ++ rest' ∧
        d = .knxAddresses { k with additional := k.additional ++ more } := by
  obtain ⟨ht, hl, hi⟩ := hc
  rw [dib_packet _ fun i e => (hi i e).1]
  have h4 : (dibBody (.knxAddresses k)).length = 4 + 4 * k.additional.length := by
    simp only [dibBody, List.length_append, ips_length]; simp [ip4]
  have hb : byte (2 + (dibBody (.knxAddresses k)).length) = k.structureLength := by
    rw [← hl, byte_self]; rfl
  have hlt := k.structureLength.isLt
  simp only [Dib.structureLength, h4] at hl
  have hn : (k.structureLength - 4).toNat / 2 = 1 + 2 * k.additional.length := by
    rw [BitVec.toNat_sub, hl]; simp; omega
  have hsub : subU m k.structureLength 4 = .ok (k.structureLength - 4) := by
    unfold subU
    rw [if_pos (by simp; omega)]
  have hd : (dib (2 + (dibBody (.knxAddresses k)).length) (dibCode (.knxAddresses k)) (dibBody (.knxAddresses k)) ++
      if (dibBody (.knxAddresses k)).length % 2 = 0 then [] else [0]) ++ rest =
      k.structureLength :: 5 :: (ip4 k.individual ++ ((k.additional.map ip4).flatten ++ rest)) := by
    rw [if_pos (by rw [h4]; omega)]
    simp only [dib, hb]
    simp [dibCode, dibBody, byte]
  rw [hd]
  simp only [Dib.fromPacket, KnxAddresses.fromPacket, Rd.bind_ok_iff, Rd.u8_ok_iff, Rd.lift_ok_iff, DescType.ofU8_iff, List.cons.injEq]
  constructor
  · rintro ⟨l, _, ⟨rfl, rfl⟩, t, _, ⟨rfl, rfl⟩, ty, _, ⟨h, rfl⟩, h'⟩
    obtain rfl : ty = .knxAddresses := by cases ty <;> first | rfl | cases h
    simp only [Rd.bind_ok_iff, exact4_iff, Rd.lift_ok_iff, Rd.pure_ok_iff, readIps_iff, hsub, Res.ok.injEq] at h'
    obtain ⟨a, _, ⟨i, _, h1, x, _, ⟨rfl, rfl⟩, as, _, ⟨h2, h3⟩, rfl, rfl⟩, rfl, rfl⟩ := h'
    rw [hn] at h2
    obtain ⟨h4', h5⟩ := List.append_inj h1 (by simp [ip4])
    subst h5
    have hi' : Ipv4.ofVec i = k.individual := by
      exact ip4_inj h4'.symm
    rw [← List.take_append_drop k.additional.length as, List.map_append, List.flatten_append, List.append_assoc] at h3
    obtain ⟨h6, h7⟩ := List.append_inj h3 (by rw [ips_length, ips_length, List.length_take]; omega)
    have h8 := ips_inj (by rw [List.length_take]; omega) h6
    refine ⟨as.drop k.additional.length, by rw [List.length_drop]; omega, h7, ?_⟩
    have hty : k.descriptionType = .knxAddresses := by simpa [dibTag, dibKindTag] using ht
    have hz : as = k.additional ++ as.drop k.additional.length := by
      conv_lhs => rw [← List.take_append_drop k.additional.length as, ← h8]
    rw [hi', ← hty, ← hz]
  · rintro ⟨more, h1, rfl, rfl⟩
    refine ⟨_, _, ⟨rfl, rfl⟩, _, _, rfl, .knxAddresses, _, ⟨rfl, rfl⟩, ?_⟩
    simp only [Rd.bind_ok_iff, exact4_iff, Rd.lift_ok_iff, Rd.pure_ok_iff, readIps_iff, hsub, Res.ok.injEq]
    refine ⟨_, _, ⟨k.individual.toVec, _, by rw [ip4_toVec], _, _, ⟨rfl, rfl⟩, k.additional ++ more, rest', ⟨?_, by simp⟩, rfl, rfl⟩, ?_, rfl⟩
    · rw [hn, List.length_append, h1]; omega
    · have : k.descriptionType = .knxAddresses := by simpa [dibTag, dibKindTag] using ht
      rw [ip4_toVec, ← this]

/-- C28, what decoding does with an encoded block of manufacturer data: it takes four bytes too many, the padding byte of an odd block
included. -/
theorem C28_exact_manufacturer (m : Mode) (x : ManufacturerData) (hc : DibConsistent (.manufacturerData x)) (rest rest' : Bytes) (d : Dib) :
    Dib.fromPacket m ((Dib.manufacturerData x).packet ++ rest) = .ok (d, rest') ↔
      ∃ more : Bytes, more.length = 4 ∧ (if x.data.length % 2 = 0 then [] else [0]) ++ rest = more ++ rest' ∧
        d = .manufacturerData { x with data := x.data ++ more } := by
  obtain ⟨ht, hl, hi⟩ := hc
  rw [dib_packet _ fun i e => (hi i e).1]
  have h4 : (dibBody (.manufacturerData x)).length = 2 + x.data.length := by
    simp only [dibBody, List.length_append, word_length]
  have hb : byte (2 + (dibBody (.manufacturerData x)).length) = x.structureLength := by
    rw [← hl, byte_self]; rfl
  have hlt := x.structureLength.isLt
  simp only [Dib.structureLength, h4] at hl
  have hp : (if (dibBody (.manufacturerData x)).length % 2 = 0 then [] else [0] : Bytes) = if x.data.length % 2 = 0 then [] else [0] := by
    rw [h4]; simp
  have hd : (dib (2 + (dibBody (.manufacturerData x)).length) (dibCode (.manufacturerData x)) (dibBody (.manufacturerData x)) ++
      if (dibBody (.manufacturerData x)).length % 2 = 0 then [] else [0]) ++ rest =
      x.structureLength :: 0xfe :: (word x.manufacturerId.toNat ++ (x.data ++ ((if x.data.length % 2 = 0 then [] else [0]) ++ rest))) := by
    rw [hp]
    simp only [dib, hb]
    simp [dibCode, dibBody, byte]
  rw [hd]
  generalize (if x.data.length % 2 = 0 then [] else [0] : Bytes) ++ rest = rest0
  simp only [Dib.fromPacket, ManufacturerData.fromPacket, Rd.bind_ok_iff, Rd.u8_ok_iff, Rd.lift_ok_iff, DescType.ofU8_iff, List.cons.injEq]
  constructor
  · rintro ⟨l, _, ⟨rfl, rfl⟩, t, _, ⟨rfl, rfl⟩, ty, _, ⟨h, rfl⟩, h'⟩
    obtain rfl : ty = .manufacturerData := by cases ty <;> first | rfl | cases h
    simp only [Rd.bind_ok_iff, u16_iff, Rd.exactVec_ok_iff, Rd.pure_ok_iff] at h'
    obtain ⟨a, _, ⟨w, _, h1, v, _, ⟨h2, h3⟩, rfl, rfl⟩, rfl, rfl⟩ := h'
    obtain ⟨h5, h6⟩ := List.append_inj h1 (by simp [word_length])
    have hw : w = x.manufacturerId :=
      (BitVec.eq_of_toNat_eq ((word_inj x.manufacturerId.isLt w.isLt).1 h5)).symm
    subst h6
    rw [← List.take_append_drop x.data.length v, List.append_assoc] at h3
    obtain ⟨h6, h7⟩ := List.append_inj h3 (by rw [List.length_take]; omega)
    refine ⟨v.drop x.data.length, by rw [List.length_drop]; omega, h7, ?_⟩
    have hty : x.descriptionType = .manufacturerData := by simpa [dibTag, dibKindTag] using ht
    have hz : v = x.data ++ v.drop x.data.length := by
      conv_lhs => rw [← List.take_append_drop x.data.length v, ← h6]
    rw [hw, ← hty, ← hz]
  · rintro ⟨more, h1, rfl, rfl⟩
    refine ⟨_, _, ⟨rfl, rfl⟩, _, _, rfl, .manufacturerData, _, ⟨rfl, rfl⟩, ?_⟩
    simp only [Rd.bind_ok_iff, u16_iff, Rd.exactVec_ok_iff, Rd.pure_ok_iff]
    refine ⟨_, _, ⟨x.manufacturerId, _, rfl, x.data ++ more, rest', ⟨?_, ?_⟩, rfl, rfl⟩, ?_, rfl⟩
    · rw [List.length_append, h1]; omega
    · simp
    · have : x.descriptionType = .manufacturerData := by simpa [dibTag, dibKindTag] using ht
      rw [← this]

example (m : Mode) : Dib.fromPacket m ((Dib.knxAddresses ⟨6, .knxAddresses, ⟨0, 0, 1, 2⟩, []⟩).packet ++ [4, 2, 2, 1, 9]) =
    .ok (.knxAddresses ⟨6, .knxAddresses, ⟨0, 0, 1, 2⟩, [⟨4, 2, 2, 1⟩]⟩, [9]) := by cases m <;> rfl
example (m : Mode) : Dib.fromPacket m ((Dib.manufacturerData ⟨7, .manufacturerData, 5, [1, 2, 3]⟩).packet ++ [4, 2, 2, 1]) =
    .ok (.manufacturerData ⟨7, .manufacturerData, 5, [1, 2, 3, 0, 4, 2, 2]⟩, [1]) := by cases m <;> rfl

/-- C34, exactly: the product wraps around in a release build, and panics outside -327 … 327 in a debug build. -/
theorem C34_exact (v : I16) :
    PdtInt.percentV16 .release v = .ok ⟨"8.010", "%", BitVec.ofInt 16 (100 * v.toInt)⟩ ∧
    PdtInt.percentV16 .debug v =
      if -327 ≤ v.toInt ∧ v.toInt ≤ 327 then .ok ⟨"8.010", "%", BitVec.ofInt 16 (100 * v.toInt)⟩ else .panic := by
  have h100 : (100 : I16).toInt = 100 := by decide
  have he : v * 100 = BitVec.ofInt 16 (100 * v.toInt) := by
    apply BitVec.eq_of_toInt_eq
    rw [BitVec.toInt_mul, h100, BitVec.toInt_ofInt, mul_comm]
  rw [← he]
  constructor
  · simp only [PdtInt.percentV16, mulS]; split <;> rename_i h <;> (split at h <;> cases h <;> rfl)
  · have hw : (-(2 ^ (16 - 1) : Int) ≤ v.toInt * (100 : I16).toInt ∧ v.toInt * (100 : I16).toInt < 2 ^ (16 - 1)) ↔
        (-327 ≤ v.toInt ∧ v.toInt ≤ 327) := by
      rw [h100]; norm_num; omega
    by_cases h : -327 ≤ v.toInt ∧ v.toInt ≤ 327
    · simp only [PdtInt.percentV16, mulS, if_pos (hw.2 h), if_pos h]
    · simp only [PdtInt.percentV16, mulS, if_neg (mt hw.1 h), if_neg h]

theorem halveWhile_mono {m : Mode} {c : F32 → Bool} {f f' : ℕ} {v : F32} {e : I16} {r : Res (F32 × I16)}
    (h : halveWhile m c f v e = some r) (hf : f ≤ f') : halveWhile m c f' v e = some r := by
  induction f' generalizing f v e with
  | zero => obtain rfl : f = 0 := by omega
            exact h
  | succ n ih =>
    cases f with
    | zero =>
      simp only [halveWhile] at h
      by_cases hc : c v = true
      · simp [hc] at h
      · simp only [halveWhile, hc] at h ⊢; exact h
    | succ f =>
      simp only [halveWhile] at h ⊢
      by_cases hc : c v = true
      · simp only [hc, if_true] at h ⊢
        cases ha : addS m e 1 <;> simp only [ha] at h ⊢
        · exact ih h (by omega)
        · exact h
        · exact h
      · simp only [hc] at h ⊢; exact h

theorem floatToBytes_mono {m : Mode} {f f' : ℕ} {v : F32} {r : Res Bytes}
    (h : floatToBytes m f v = some r) (hf : f ≤ f') : floatToBytes m f' v = some r := by
  simp only [floatToBytes] at h ⊢
  cases h1 : halveWhile m (fun x => x.lt (.fin (-2048))) f (v.mul (.fin 100)) 0 with
  | none => rw [h1] at h; cases h
  | some a =>
    rw [halveWhile_mono h1 hf]
    simp only [h1] at h
    cases a with
    | err => exact h
    | panic => exact h
    | ok p =>
      obtain ⟨w, e⟩ := p
      simp only at h ⊢
      cases h2 : halveWhile m (fun x => F32.lt (.fin 2048) x) f w e with
      | none => rw [h2] at h; cases h
      | some b => rw [halveWhile_mono h2 hf]; simp only [h2] at h; exact h

/-- C37, exactly: encoding ends in a release build precisely for NaN and for the finite values whose hundredfold, rounded, is finite; and
then it gives the same two bytes in a debug build. In a debug build it always ends, with a panic for all other values. -/
theorem C37_iff (v : F32) :
    ((∃ fuel r, floatToBytes .release fuel v = some r) ↔ v = .nan ∨ ∃ q, v = .fin q ∧ |roundQ (q * 100)| < 2 ^ 128) ∧
    ((∃ fuel, floatToBytes .debug fuel v = some .panic) ↔ ¬ (v = .nan ∨ ∃ q, v = .fin q ∧ |roundQ (q * 100)| < 2 ^ 128)) := by
  by_cases hv : v = .nan ∨ ∃ q, v = .fin q ∧ |roundQ (q * 100)| < 2 ^ 128
  · refine ⟨⟨fun _ => hv, fun _ => ?_⟩, ⟨?_, fun h => absurd hv h⟩⟩
    · rcases hv with rfl | ⟨q, rfl, hq⟩
      · exact ⟨0, _, C37_nan .release 0⟩
      · obtain ⟨a, b, h⟩ := C37_terminates_partial .release q hq
        exact ⟨117, _, h 117 le_rfl⟩
    · rintro ⟨fuel, h⟩
      exfalso
      rcases hv with rfl | ⟨q, rfl, hq⟩
      · rw [C37_nan] at h; cases h
      · obtain ⟨a, b, h'⟩ := C37_terminates_partial .debug q hq
        have := floatToBytes_mono h (le_max_left fuel 117)
        rw [h' _ (le_max_right fuel 117)] at this; cases this
  · have hv' : v = .inf true ∨ v = .inf false ∨ ∃ q, v = .fin q ∧ 2 ^ 128 ≤ |roundQ (q * 100)| := by
      rcases v with _ | s | q
      · exact absurd (.inl rfl) hv
      · cases s
        · exact .inr (.inl rfl)
        · exact .inl rfl
      · exact .inr (.inr ⟨q, rfl, not_lt.1 fun h => hv (.inr ⟨q, rfl, h⟩)⟩)
    obtain ⟨h1, h2⟩ := C37_violated v hv'
    refine ⟨⟨?_, fun h => absurd h hv⟩, ⟨fun _ => hv, fun _ => ⟨32768, by rw [h2]; rfl⟩⟩⟩
    rintro ⟨fuel, r, h⟩
    rw [h1] at h; cases h
end Knx
