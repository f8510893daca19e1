import Verif.Model.DpTypes
import Verif.Lemmas.Prim
import Verif.Props.Emi

/-!
# Properties C32-C34 and C40: integer data point types
-/

namespace Knx

open Spec

/-! ## C32 -/

theorem value_be16 (w : U16) : value (be16 w) = w.toNat := by
  have h := ofBe16_toNat ((w >>> 8).setWidth 8) (w.setWidth 8)
  rw [ofBe16_be16] at h
  simp only [be16, value, List.foldl_cons, List.foldl_nil]; omega

theorem value_be32 (w : U32) : value (be32 w) = w.toNat := by
  have h1 : ((w >>> 24).setWidth 8 : U8).toNat = w.toNat / 2 ^ 24 % 2 ^ 8 := by
    simp [BitVec.toNat_setWidth, Nat.shiftRight_eq_div_pow]
  have h2 : ((w >>> 16).setWidth 8 : U8).toNat = w.toNat / 2 ^ 16 % 2 ^ 8 := by
    simp [BitVec.toNat_setWidth, Nat.shiftRight_eq_div_pow]
  have h3 : ((w >>> 8).setWidth 8 : U8).toNat = w.toNat / 2 ^ 8 % 2 ^ 8 := by
    simp [BitVec.toNat_setWidth, Nat.shiftRight_eq_div_pow]
  have h4 : (w.setWidth 8 : U8).toNat = w.toNat % 2 ^ 8 := by simp
  have := w.isLt
  simp only [be32, value, List.foldl_cons, List.foldl_nil, h1, h2, h3, h4]
  omega

/-- C32, one byte: scaled and byte values. -/
theorem C32_byte_types :
    (∀ v, (PdtScaled.general v).getBytes = [v] ∧ ∃ p, PdtScaled.fromBytes (PdtScaled.general v).getBytes = .ok p ∧ p.getRaw = v) ∧
    (∀ v, (PdtByte.general v).getBytes = [v] ∧ ∃ p, PdtByte.fromBytes (PdtByte.general v).getBytes = .ok p ∧ p.getValue = v) ∧
    (∀ b, (PdtScaled.fromBytes b = .err ↔ b.length < 1) ∧ PdtScaled.fromBytes b ≠ .panic) ∧
    (∀ b, (PdtByte.fromBytes b = .err ↔ b.length < 1) ∧ PdtByte.fromBytes b ≠ .panic) := by
  refine ⟨fun v => ⟨rfl, _, rfl, rfl⟩, fun v => ⟨rfl, _, rfl, rfl⟩, ?_, ?_⟩ <;>
    (intro b; cases b <;> simp [PdtScaled.fromBytes, PdtByte.fromBytes])

/-- C32, one bit. -/
theorem C32_bit :
    (∀ v, (PdtBit.general v).getBytes.length = 1 ∧ value (PdtBit.general v).getBytes = v.toNat ∧
      ∃ p, PdtBit.fromBytes (PdtBit.general v).getBytes = .ok p ∧ p.getValue = v) ∧
    (∀ v, (PdtBit.switch v).getBytes = (PdtBit.general v).getBytes) ∧
    (∀ b, (PdtBit.fromBytes b = .err ↔ b.length < 1) ∧ PdtBit.fromBytes b ≠ .panic) := by
  refine ⟨?_, fun _ => rfl, ?_⟩
  · intro v; cases v <;> exact ⟨rfl, by decide, _, rfl, by decide⟩
  · intro b; cases b <;> simp [PdtBit.fromBytes]

theorem u16_append (w : U16) (r : Bytes) : Rd.u16 (be16 w ++ r) = .ok (w, r) := by
  simp [be16, Rd.u16, ofBe16_be16]

theorem u32_append (w : U32) (r : Bytes) : Rd.u32 (be32 w ++ r) = .ok (w, r) := by
  simp [be32, Rd.u32, ofBe32_be32]

/-- C32, two bytes: unsigned word and signed integer (two's complement, most significant byte first);
bytes after the first two are ignored. -/
theorem C32_word_int :
    (∀ v r, (PdtWord.general v).getBytes.length = 2 ∧ value (PdtWord.general v).getBytes = v.toNat ∧
      ∃ p, PdtWord.fromBytes ((PdtWord.general v).getBytes ++ r) = .ok p ∧ p.getValue = v) ∧
    (∀ v r, (PdtInt.general v).getBytes.length = 2 ∧
      (value (PdtInt.general v).getBytes : Int) % 65536 = v.toInt % 65536 ∧
      ∃ p, PdtInt.fromBytes ((PdtInt.general v).getBytes ++ r) = .ok p ∧ p.getValue = v) ∧
    (∀ v, (PdtInt.value2Count v).getBytes = (PdtInt.general v).getBytes) ∧
    (∀ b, (PdtWord.fromBytes b = .err ↔ b.length < 2) ∧ PdtWord.fromBytes b ≠ .panic) ∧
    (∀ b, (PdtInt.fromBytes b = .err ↔ b.length < 2) ∧ PdtInt.fromBytes b ≠ .panic) := by
  refine ⟨?_, ?_, fun _ => rfl, ?_, ?_⟩
  · intro v r
    refine ⟨rfl, value_be16 v, ⟨"7.x", v⟩, ?_, rfl⟩
    simp [PdtWord.fromBytes, PdtWord.getBytes, PdtWord.general, u16_append]
  · intro v r
    refine ⟨rfl, ?_, ⟨"8.x", "", v⟩, ?_, rfl⟩
    · simp only [PdtInt.general, PdtInt.getBytes, value_be16]
      rw [BitVec.toInt_eq_toNat_cond]; split <;> omega
    · simp [PdtInt.fromBytes, PdtInt.getBytes, PdtInt.general, u16_append]
  · intro b
    rcases b with _ | ⟨x, _ | ⟨y, b⟩⟩ <;> simp [PdtWord.fromBytes, Rd.u16]
  · intro b
    rcases b with _ | ⟨x, _ | ⟨y, b⟩⟩ <;> simp [PdtInt.fromBytes, Rd.u16]

/-- C32, four bytes. -/
theorem C32_ulong :
    (∀ v r, (PdtULong.general v).getBytes.length = 4 ∧ value (PdtULong.general v).getBytes = v.toNat ∧
      ∃ p, PdtULong.fromBytes ((PdtULong.general v).getBytes ++ r) = .ok p ∧ p.getValue = v) ∧
    (∀ b, (PdtULong.fromBytes b = .err ↔ b.length < 4) ∧ PdtULong.fromBytes b ≠ .panic) := by
  constructor
  · intro v r
    refine ⟨rfl, value_be32 v, ⟨"8.x", v⟩, ?_, rfl⟩
    simp [PdtULong.fromBytes, PdtULong.getBytes, PdtULong.general, u32_append]
  · intro b
    rcases b with _ | ⟨x, _ | ⟨y, _ | ⟨z, _ | ⟨w, b⟩⟩⟩⟩ <;> simp [PdtULong.fromBytes, Rd.u32]

example : (PdtInt.general (-2)).getBytes = [0xff, 0xfe] ∧ (PdtULong.general 0x01020304).getBytes = [1, 2, 3, 4] := by
  decide

/-! ## C33 -/

/-- The encoding of a direction and a step (standard DPT 3): direction bit 3, step code bits 0-2. -/
def b1u3Byte (dir : Bool) (step : Nat) : Nat := (if dir then 8 else 0) + step % 8

theorem b1u3_byte (dir : Bool) (step : U8) (c : String) :
    (PdtB1U3.mk c dir (step &&& 0b111#8)).getBytes = [byte (b1u3Byte dir step.toNat)] := by
  have : ∀ step : U8, [(if dir then 8#8 else 0#8) ||| (step &&& 0b111#8)] = [byte (b1u3Byte dir step.toNat)] := by
    cases dir <;> decide +kernel
  exact this step

/-- C33: dimming and blinds commands are encoded as one byte below 16 with the direction in bit 3
and the step (modulo 8) below, and every byte decodes to the direction and step in its low four
bits; encode then decode gives the same direction and step; never panics, fails only on no byte. -/
theorem C33_b1u3 :
    (∀ dir step, (PdtB1U3.dimming dir step).getBytes = [byte (b1u3Byte dir step.toNat)] ∧
      (PdtB1U3.blinds dir step).getBytes = [byte (b1u3Byte dir step.toNat)] ∧ b1u3Byte dir step.toNat < 16) ∧
    (∀ (v : U8) r, ∃ p, PdtB1U3.fromBytes (v :: r) = .ok p ∧ p.bit = decide (v.toNat / 8 % 2 = 1) ∧
      p.step.toNat = v.toNat % 8 ∧ p.getValue.toNat = v.toNat % 16) ∧
    (∀ v : U8, (PdtB1U3.general v).bit = decide (v.toNat / 8 % 2 = 1) ∧ (PdtB1U3.general v).step.toNat = v.toNat % 8 ∧
      (PdtB1U3.general v).getBytes = [byte (v.toNat % 16)]) ∧
    (∀ dir step, ∃ p, PdtB1U3.fromBytes (PdtB1U3.dimming dir step).getBytes = .ok p ∧
      p.bit = dir ∧ p.step.toNat = step.toNat % 8) ∧
    PdtB1U3.fromBytes [] = .err := by
  have hv : ∀ v : U8, decide (v &&& 8#8 > 0) = decide (v.toNat / 8 % 2 = 1) ∧ (v &&& 0b111#8).toNat = v.toNat % 8 ∧
      ((if decide (v &&& 8#8 > 0) then 8#8 else 0#8) ||| (v &&& 0b111#8)).toNat = v.toNat % 16 := by decide +kernel
  have hg : ∀ v : U8, ((if decide (v &&& 8#8 > 0) then 8#8 else 0#8) ||| (v &&& 0b111#8)) = byte (v.toNat % 16) := by
    decide +kernel
  refine ⟨?_, ?_, ?_, ?_, rfl⟩
  · intro dir step
    refine ⟨b1u3_byte .., b1u3_byte .., ?_⟩
    simp only [b1u3Byte]; split <;> omega
  · intro v r
    exact ⟨_, rfl, (hv v).1, (hv v).2.1, (hv v).2.2⟩
  · intro v
    exact ⟨(hv v).1, (hv v).2.1, congrArg (fun x => [x]) (hg v)⟩
  · intro dir step
    rw [show (PdtB1U3.dimming dir step).getBytes = _ from b1u3_byte ..]
    refine ⟨_, rfl, ?_, ?_⟩
    · rw [(hv _).1]
      rw [byte_toNat (by simp only [b1u3Byte]; split <;> omega)]
      cases dir <;> simp [b1u3Byte]
    · rw [(hv _).2.1]
      rw [byte_toNat (by simp only [b1u3Byte]; split <;> omega)]
      cases dir <;> simp [b1u3Byte]

example : (PdtB1U3.dimming true 11).getBytes = [0x0b] := by decide

/-! ## C34 -/

/-- C34, the part that holds: percentages between -327 and 327 are stored as hundredths. -/
theorem C34_percent_partial (m : Mode) (v : I16) (h : -327 ≤ v.toInt ∧ v.toInt ≤ 327) :
    ∃ p, PdtInt.percentV16 m v = .ok p ∧ p.getValue.toInt = 100 * v.toInt := by
  refine ⟨⟨"8.010", "%", v * 100⟩, ?_, ?_⟩
  · have h100 : (100 : I16).toInt = 100 := by decide
    have : mulS m v 100 = .ok (v * 100) := by
      unfold mulS
      rw [if_pos]; rw [h100]; constructor <;> norm_num <;> omega
    simp only [PdtInt.percentV16, this]
  · have h100 : (100 : I16).toInt = 100 := by decide
    simp only [PdtInt.getValue]
    rw [BitVec.toInt_mul, h100, Int.bmod_eq_of_le] <;> norm_num <;> omega

/-- C34 refuted beyond: a debug build panics, a release build stores a number that is not 100 v. -/
theorem C34_violated (v : I16) (h : v.toInt < -327 ∨ 327 < v.toInt) :
    PdtInt.percentV16 .debug v = .panic ∧
    ∃ p, PdtInt.percentV16 .release v = .ok p ∧ p.getValue.toInt ≠ 100 * v.toInt ∧
      (p.getValue.toInt - 100 * v.toInt) % 65536 = 0 := by
  have h100 : (100 : I16).toInt = 100 := by decide
  have hn : ¬ (-(2 ^ (16 - 1) : Int) ≤ v.toInt * (100 : I16).toInt ∧ v.toInt * (100 : I16).toInt < 2 ^ (16 - 1)) := by
    rw [h100]; norm_num; omega
  refine ⟨?_, ⟨"8.010", "%", v * 100⟩, ?_, ?_, ?_⟩
  · simp only [PdtInt.percentV16, mulS, if_neg hn]
  · simp only [PdtInt.percentV16, mulS, if_neg hn]
  · simp only [PdtInt.getValue]
    have h1 := (v * 100).toInt_lt
    have h2 := (v * 100).le_toInt
    generalize (v * 100).toInt = x at h1 h2 ⊢
    norm_num at h1 h2
    omega
  · simp only [PdtInt.getValue]
    rw [BitVec.toInt_mul, h100]
    have h1 := Int.bmod_emod (x := v.toInt * 100) (m := 2 ^ 16)
    norm_num at h1 ⊢
    omega

example : PdtInt.percentV16 .debug 328 = .panic ∧ PdtInt.percentV16 .release 328 = .ok ⟨"8.010", "%", -32736⟩ := by decide

/-! ## C40 -/

/-- A data point with the given `is_small()` and bytes, written with `group_value_write_pd` to
`dest`, arrives: the telegram decodes to an indication-shaped message for `dest` with value `v`. -/
def Arrives (m m' : Mode) (dest : KnxAddress) (isSmall : Res Bool) (bytes v : Bytes) : Prop :=
  ∃ apdu frame cemi ind, Apdu.groupValueWritePd isSmall bytes = .ok apdu ∧
    (LDataReq.new dest (Tpdu.dataGroup apdu)).packet m = .ok frame ∧
    Cemi.fromPacket m' frame = .ok (cemi, []) ∧ LDataInd.fromCemi cemi = .ok ind ∧
    ind.lData.dest = dest.toU16 ∧ ind.value = v

theorem arrives_big (m m' : Mode) (dest : KnxAddress) (v : Bytes) (h : 1 ≤ v.length) (h' : v.length ≤ 253) :
    Arrives m m' dest (.ok false) v v := by
  obtain ⟨apdu, frame, cemi, ind, h1, h2, h3, h4, h5, _, h6, _⟩ := C11_write_decodes_big m m' dest v h h'
  refine ⟨apdu, frame, cemi, ind, ?_, h2, h3, h4, h5, h6⟩
  simpa [Apdu.groupValueWritePd, Apdu.groupValueWrite] using h1

theorem arrives_small (m m' : Mode) (dest : KnxAddress) (d : U8) (v : Bytes) (h : d.toNat < 64) :
    Arrives m m' dest (.ok true) (d :: v) [d] := by
  obtain ⟨apdu, frame, cemi, ind, h1, h2, h3, h4, h5, _, h6, _⟩ := C11_write_decodes_small m m' dest d v
  refine ⟨apdu, frame, cemi, ind, ?_, h2, h3, h4, h5, ?_⟩
  · simpa [Apdu.groupValueWritePd, Apdu.groupValueWrite] using h1
  · rw [h6, Nat.mod_eq_of_lt h, byte_self]

/-- C40: a written value of each of these types is received as the same value. -/
theorem C40_typed_value_arrives (m m' : Mode) (dest : KnxAddress) :
    (∀ b, ∃ v p, Arrives m m' dest (PdtBit.general b).isSmall (PdtBit.general b).getBytes v ∧
      PdtBit.fromBytes v = .ok p ∧ p.getValue = b) ∧
    (∀ dir step, ∃ v p, Arrives m m' dest (PdtB1U3.dimming dir step).isSmall (PdtB1U3.dimming dir step).getBytes v ∧
      PdtB1U3.fromBytes v = .ok p ∧ p.bit = dir ∧ p.step.toNat = step.toNat % 8) ∧
    (∀ x, ∃ v p, Arrives m m' dest (PdtInt.general x).isSmall (PdtInt.general x).getBytes v ∧
      PdtInt.fromBytes v = .ok p ∧ p.getValue = x) ∧
    (∀ x, ∃ v p, Arrives m m' dest (PdtWord.general x).isSmall (PdtWord.general x).getBytes v ∧
      PdtWord.fromBytes v = .ok p ∧ p.getValue = x) ∧
    (∀ x, ∃ v p, Arrives m m' dest (PdtULong.general x).isSmall (PdtULong.general x).getBytes v ∧
      PdtULong.fromBytes v = .ok p ∧ p.getValue = x) ∧
    (∀ x, ∃ v p, Arrives m m' dest (PdtScaled.general x).isSmall (PdtScaled.general x).getBytes v ∧
      PdtScaled.fromBytes v = .ok p ∧ p.getRaw = x) := by
  refine ⟨?_, ?_, ?_, ?_, ?_, ?_⟩
  · intro b
    obtain ⟨_, _, p, hp, hv⟩ := C32_bit.1 b
    refine ⟨_, p, ?_, hp, hv⟩
    cases b <;> exact arrives_small m m' dest _ [] (by decide)
  · intro dir step
    obtain ⟨p, hp, hv⟩ := C33_b1u3.2.2.2.1 dir step
    refine ⟨_, p, ?_, hp, hv⟩
    have := C33_b1u3.1 dir step
    rw [this.1]
    exact arrives_small m m' dest _ [] (by rw [byte_toNat (by omega)]; omega)
  · intro x
    obtain ⟨_, _, p, hp, hv⟩ := C32_word_int.2.1 x []
    rw [List.append_nil] at hp
    exact ⟨_, p, arrives_big m m' dest _ (by simp [PdtInt.getBytes]) (by simp [PdtInt.getBytes]), hp, hv⟩
  · intro x
    obtain ⟨_, _, p, hp, hv⟩ := C32_word_int.1 x []
    rw [List.append_nil] at hp
    exact ⟨_, p, arrives_big m m' dest _ (by simp [PdtWord.getBytes]) (by simp [PdtWord.getBytes]), hp, hv⟩
  · intro x
    obtain ⟨_, _, p, hp, hv⟩ := C32_ulong.1 x []
    rw [List.append_nil] at hp
    exact ⟨_, p, arrives_big m m' dest _ (by simp [PdtULong.getBytes, be32]) (by simp [PdtULong.getBytes, be32]), hp, hv⟩
  · intro x
    obtain ⟨_, p, hp, hv⟩ := C32_byte_types.1 x
    exact ⟨_, p, arrives_big m m' dest _ (by simp [PdtScaled.getBytes]) (by simp [PdtScaled.getBytes]), hp, hv⟩

/-- C40: sending a `PdtKnxByte` always panics. -/
theorem C40_byte_panics (p : PdtByte) : Apdu.groupValueWritePd p.isSmall p.getBytes = .panic := rfl

end Knx
