import Verif.Props.DpFloat
import Verif.Props.DpInt

/-!
# C79-C81: labels and sizes of data point types, percentages by the standard
-/

namespace Knx
open Spec

/-! ## C79: labels -/

/-- `code` is a data point type with main number `main`. -/
def Spec.OfType (main code : String) : Prop := ∃ sub, code = main ++ "." ++ sub

theorem of_one : OfType "1" "1.x" := ⟨"x", by decide⟩
theorem of_three : OfType "3" "3.x" := ⟨"x", by decide⟩
theorem of_five : OfType "5" "5.x" := ⟨"x", by decide⟩
theorem of_seven : OfType "7" "7.x" := ⟨"x", by decide⟩
theorem of_eight : OfType "8" "8.x" := ⟨"x", by decide⟩
theorem of_nine : OfType "9" "9.x" := ⟨"x", by decide⟩
theorem of_twelve : OfType "12" "12.x" := ⟨"x", by decide⟩
theorem of_twenty : OfType "20" "20.x" := ⟨"x", by decide⟩
theorem of_zero : OfType "0" "0.x" := ⟨"x", by decide⟩

/-- C79, what does hold: every constructor and every decoder except two labels the value with the main number of its type (1 switch,
3 control, 5 8-bit unsigned, 7 16-bit unsigned, 8 16-bit signed, 9 float, 20 enumeration), the special constructors with the full
number and the unit of the standard. -/
theorem C79_labels_partial (m : Mode) :
    (∀ v, OfType "1" (PdtBit.general v).code ∧ (PdtBit.switch v).code = "1.001") ∧
    (∀ b p, PdtBit.fromBytes b = .ok p → OfType "1" p.code) ∧
    (∀ v, OfType "3" (PdtB1U3.general v).code) ∧
    (∀ d s, (PdtB1U3.dimming d s).code = "3.007" ∧ (PdtB1U3.blinds d s).code = "3.008") ∧
    (∀ v, OfType "5" (PdtScaled.general v).code) ∧
    (∀ v, (PdtScaled.scaling v).code = "5.001" ∧ (PdtScaled.scaling v).unit = "%") ∧
    (∀ b p, PdtScaled.fromBytes b = .ok p → p.code = "5.001" ∧ p.unit = "%") ∧
    (∀ v, OfType "7" (PdtWord.general v).code) ∧
    (∀ b p, PdtWord.fromBytes b = .ok p → OfType "7" p.code) ∧
    (∀ v, OfType "8" (PdtInt.general v).code ∧ (PdtInt.value2Count v).code = "8.001" ∧ (PdtInt.value2Count v).unit = "pulses") ∧
    (∀ v p, PdtInt.percentV16 m v = .ok p → p.code = "8.010" ∧ p.unit = "%") ∧
    (∀ b p, PdtInt.fromBytes b = .ok p → OfType "8" p.code) ∧
    (∀ v, OfType "9" (PdtFloat.general v).code ∧ (PdtFloat.temp v).code = "9.001" ∧ (PdtFloat.temp v).unit = "°C") ∧
    (∀ b p, PdtFloat.fromBytes m b = .ok p → OfType "9" p.code) ∧
    (∀ b p, PdtFloat.tempFromBytes m b = .ok p → p.code = "9.001" ∧ p.unit = "°C") ∧
    (∀ v, OfType "12" (PdtULong.general v).code) ∧
    (∀ v, OfType "20" (PdtByte.general v).code) ∧
    (∀ b p, PdtByte.fromBytes b = .ok p → OfType "20" p.code) := by
  refine ⟨fun v => ⟨of_one, rfl⟩, ?_, fun v => of_three, fun _ _ => ⟨rfl, rfl⟩, fun v => of_five, fun _ => ⟨rfl, rfl⟩, ?_, fun v => of_seven, ?_,
    fun v => ⟨of_eight, rfl, rfl⟩, ?_, ?_, fun v => ⟨of_nine, rfl, rfl⟩, ?_, ?_, fun v => of_twelve, fun v => of_twenty, ?_⟩
  · intro b p h
    cases b <;> cases h
    exact of_one
  · intro b p h
    cases b <;> cases h
    exact ⟨rfl, rfl⟩
  · intro b p h
    simp only [PdtWord.fromBytes] at h
    split at h <;> cases h
    exact of_seven
  · intro v p h
    simp only [PdtInt.percentV16] at h
    split at h <;> cases h
    exact ⟨rfl, rfl⟩
  · intro b p h
    simp only [PdtInt.fromBytes] at h
    split at h <;> cases h
    exact of_eight
  · intro b p h
    simp only [PdtFloat.fromBytes] at h
    split at h <;> cases h
    exact of_nine
  · intro b p h
    simp only [PdtFloat.tempFromBytes] at h
    split at h <;> cases h
    exact ⟨rfl, rfl⟩
  · intro b p h
    cases b <;> cases h
    exact of_twenty

/-- C79 is refuted for 32-bit values: every decoded one is labelled as a 16-bit signed integer (main number 8), not 12. -/
theorem C79_violated_ulong (b : Bytes) (p : PdtULong) (h : PdtULong.fromBytes b = .ok p) : OfType "8" p.code ∧ ¬ OfType "12" p.code := by
  simp only [PdtULong.fromBytes] at h
  split at h <;> cases h
  refine ⟨of_eight, ?_⟩
  rintro ⟨sub, hs⟩
  have := congrArg String.toList hs
  simp [String.toList_append] at this

/-- C79 is refuted for dimming and blinds: every decoded one has main number 0, which does not exist. -/
theorem C79_violated_b1u3 (b : Bytes) (p : PdtB1U3) (h : PdtB1U3.fromBytes b = .ok p) : OfType "0" p.code ∧ ¬ OfType "3" p.code := by
  cases b <;> cases h
  refine ⟨of_zero, ?_⟩
  rintro ⟨sub, hs⟩
  have := congrArg String.toList hs
  simp [String.toList_append] at this

example : ∃ p, PdtULong.fromBytes [0, 0, 1, 2] = .ok p ∧ p.getValue = 258 := ⟨⟨"8.x", 258⟩, by decide, rfl⟩
example : ∃ p, PdtB1U3.fromBytes [11] = .ok p ∧ p.bit = true ∧ p.step = 3 := ⟨⟨"0.x", true, 3⟩, by decide, rfl, rfl⟩

/-! ## C80: sizes -/

theorem short2 {b : Bytes} (h : b.length < 2) : Rd.u16 b = .err := by
  match b with
  | [] => rfl
  | [a] => rfl
  | a :: c :: r => simp at h; omega

theorem short4 {b : Bytes} (h : b.length < 4) : Rd.u32 b = .err := by
  match b with
  | [] => rfl
  | [_] => rfl
  | [_, _] => rfl
  | [_, _, _] => rfl
  | _ :: _ :: _ :: _ :: _ => simp at h; omega

/-- C80, what does hold: data shorter than the type's size is rejected, and floats need exactly two bytes. -/
theorem C80_short_partial (m : Mode) (b : Bytes) :
    (b.length < 1 → PdtBit.fromBytes b = .err ∧ PdtB1U3.fromBytes b = .err ∧ PdtScaled.fromBytes b = .err ∧ PdtByte.fromBytes b = .err) ∧
    (b.length < 2 → PdtWord.fromBytes b = .err ∧ PdtInt.fromBytes b = .err) ∧
    (b.length < 4 → PdtULong.fromBytes b = .err) ∧
    (b.length ≠ 2 → PdtFloat.fromBytes m b = .err ∧ PdtFloat.tempFromBytes m b = .err) := by
  refine ⟨fun h => ?_, fun h => ?_, fun h => ?_, fun h => ?_⟩
  · have : b = [] := List.eq_nil_of_length_eq_zero (by omega)
    subst this; exact ⟨rfl, rfl, rfl, rfl⟩
  · simp [PdtWord.fromBytes, PdtInt.fromBytes, short2 h]
  · simp [PdtULong.fromBytes, short4 h]
  · have : bytesToFloat m b = .err := by
      match b with
      | [] => rfl
      | [_] => rfl
      | [_, _] => simp at h
      | _ :: _ :: _ :: _ => rfl
    simp [PdtFloat.fromBytes, PdtFloat.tempFromBytes, this]

/-- C80 is refuted for every other type: whatever follows the bytes of the type is ignored, the longer data is decoded to the same value. -/
theorem C80_violated (r : Bytes) :
    (∀ a, (∃ p, PdtBit.fromBytes [a] = .ok p ∧ PdtBit.fromBytes (a :: r) = .ok p) ∧
      (∃ p, PdtB1U3.fromBytes [a] = .ok p ∧ PdtB1U3.fromBytes (a :: r) = .ok p) ∧
      (∃ p, PdtScaled.fromBytes [a] = .ok p ∧ PdtScaled.fromBytes (a :: r) = .ok p) ∧
      ∃ p, PdtByte.fromBytes [a] = .ok p ∧ PdtByte.fromBytes (a :: r) = .ok p) ∧
    (∀ a b, (∃ p, PdtWord.fromBytes [a, b] = .ok p ∧ PdtWord.fromBytes (a :: b :: r) = .ok p) ∧
      ∃ p, PdtInt.fromBytes [a, b] = .ok p ∧ PdtInt.fromBytes (a :: b :: r) = .ok p) ∧
    (∀ a b c d, ∃ p, PdtULong.fromBytes [a, b, c, d] = .ok p ∧ PdtULong.fromBytes (a :: b :: c :: d :: r) = .ok p) :=
  ⟨fun _ => ⟨⟨_, rfl, rfl⟩, ⟨_, rfl, rfl⟩, ⟨_, rfl, rfl⟩, ⟨_, rfl, rfl⟩⟩, fun _ _ => ⟨⟨_, rfl, rfl⟩, ⟨_, rfl, rfl⟩⟩, fun _ _ _ _ => ⟨_, rfl, rfl⟩⟩

/-- C80 is refuted for the range, too: a bit is read from any byte (not only 0 and 1), dimming and blinds from any byte, the upper
four bits being ignored. -/
theorem C80_violated_range (a : U8) (r : Bytes) :
    (∃ p, PdtBit.fromBytes (a :: r) = .ok p ∧ (p.getValue = false ↔ a.toNat = 0)) ∧
    ∃ p, PdtB1U3.fromBytes (a :: r) = .ok p ∧ p.getValue.toNat = a.toNat % 16 := by
  refine ⟨⟨_, rfl, ?_⟩, ⟨_, rfl, ?_⟩⟩
  · simp only [PdtBit.getValue, decide_eq_false_iff_not, gt_iff_lt, BitVec.lt_def]
    change ¬ 0 < _ ↔ _
    omega
  · obtain ⟨p, h1, _, _, h2⟩ := C33_b1u3.2.1 a r
    cases h1
    exact h2

example : ([1, 2, 3] : Bytes).length ≠ 2 ∧ ([1, 2, 3] : Bytes).length < 4 := by decide

/-! ## C81: percentages by the standard -/

theorem scaling_round (p : ℚ) (h0 : 0 ≤ p) (h1 : p ≤ 100) :
    ∃ y : ℚ, ((PdtScaled.scaling (.fin p)).value.toNat : ℤ) = F32.awayInt y ∧ |y - (2.54 * p + 1)| ≤ 1 / 10000 := by
  obtain ⟨hv, he⟩ := scaling_fin p (by rw [abs_of_nonneg h0]; linarith)
  have he' := abs_le.1 he
  have hc1 : F32.c254 ≤ 2.54 := by norm_num [F32.c254]
  have hc2 : 2.54 - 1 / 10000000 ≤ F32.c254 := by norm_num [F32.c254]
  have hpc1 : p * F32.c254 ≤ p * 2.54 := by gcongr
  have hpc2 : p * (2.54 - 1 / 10000000) ≤ p * F32.c254 := by gcongr
  refine ⟨roundQ (roundQ (p * F32.c254) + 1), ?_, ?_⟩
  rotate_left
  · generalize roundQ (roundQ (p * F32.c254) + 1) = y at *
    norm_num at hpc1 hpc2 ⊢
    rw [abs_le]; constructor <;> linarith
  · generalize roundQ (roundQ (p * F32.c254) + 1) = y at *
    norm_num at hpc1 hpc2
    have e0 : F32.awayInt ((0 : ℤ) : ℚ) = 0 := awayInt_eq (by norm_num)
    have e255 : F32.awayInt (255.1 : ℚ) = 255 := awayInt_eq (by norm_num)
    have : 0 ≤ F32.awayInt y := by rw [← e0]; apply awayInt_mono; push_cast; linarith
    have : F32.awayInt y ≤ 255 := by rw [← e255]; apply awayInt_mono; norm_num; linarith
    omega

/-- C81, what does hold (encoding): a percentage between 0 and 100 becomes the raw value nearest to 255 p / 100, or the one above it. -/
theorem C81_encode_partial (p : ℚ) (h0 : 0 ≤ p) (h1 : p ≤ 100) :
    ∃ n : ℕ, |(n : ℚ) - 255 * p / 100| ≤ 1 / 2 ∧
      ((PdtScaled.scaling (.fin p)).value.toNat = n ∨ (PdtScaled.scaling (.fin p)).value.toNat = n + 1) := by
  obtain ⟨y, hv, hy⟩ := scaling_round p h0 h1
  have ha := abs_le.1 (awayInt_err y)
  have hy := abs_le.1 hy
  generalize hb : (PdtScaled.scaling (.fin p)).value.toNat = b at *
  have hbq : (b : ℚ) = (F32.awayInt y : ℚ) := by exact_mod_cast hv
  rw [← hbq] at ha
  norm_num at hy
  by_cases hlow : (b : ℚ) - 255 * p / 100 < -1 / 2
  · -- only possible close to 100 percent
    exfalso
    have : F32.awayInt y = 255 := by apply awayInt_eq; rw [abs_lt]; push_cast; constructor <;> linarith
    rw [this] at hbq
    push_cast at hbq
    linarith
  · by_cases hmid : (b : ℚ) - 255 * p / 100 ≤ 1 / 2
    · exact ⟨b, by rw [abs_le]; constructor <;> linarith, Or.inl rfl⟩
    · have hb1 : 1 ≤ b := by
        by_contra hb0
        have : b = 0 := by omega
        subst this
        push_cast at hmid; linarith
      by_cases hhigh : (b : ℚ) - 255 * p / 100 ≤ 3 / 2
      · refine ⟨b - 1, ?_, Or.inr (by omega)⟩
        push_cast [hb1]
        rw [abs_le]; constructor <;> linarith
      · exfalso
        have : F32.awayInt y = 1 := by apply awayInt_eq; rw [abs_lt]; push_cast; constructor <;> linarith
        rw [this] at hbq
        push_cast at hbq
        linarith

/-- C81 is refuted (encoding): every percentage from 0 to 0.19, whose raw value is 0 by the standard, becomes 1; raw value 0 (off) cannot be
written as a percentage that is not negative. -/
theorem C81_violated_encode (p : ℚ) (h0 : 0 ≤ p) (h1 : p ≤ 100) :
    1 ≤ (PdtScaled.scaling (.fin p)).value.toNat ∧ (p ≤ 19 / 100 → (PdtScaled.scaling (.fin p)).value = 1) := by
  obtain ⟨y, hv, hy⟩ := scaling_round p h0 h1
  have hy := abs_le.1 hy
  norm_num at hy
  constructor
  · have e1 : F32.awayInt (0.9 : ℚ) = 1 := awayInt_eq (by norm_num)
    have : F32.awayInt (0.9 : ℚ) ≤ F32.awayInt y := by apply awayInt_mono; norm_num; linarith
    omega
  · intro h
    have : F32.awayInt y = 1 := by apply awayInt_eq; rw [abs_lt]; push_cast; constructor <;> linarith
    rw [this] at hv
    apply BitVec.eq_of_toNat_eq
    change _ = 1
    omega

theorem scaled_getValue (s : PdtScaled) (h : s.value ≠ 0) :
    ∃ x : ℚ, s.getValue = .fin x ∧ |x - ((s.value.toNat : ℚ) - 1) / 2.54| ≤ 1 / 10000 := by
  have hlt := s.value.isLt
  have h1 : 1 ≤ s.value.toNat := by
    rcases Nat.eq_zero_or_pos s.value.toNat with h0 | h0
    · exact absurd (BitVec.eq_of_toNat_eq (by simpa using h0)) h
    · exact h0
  have hsub : (s.value - 1).toNat = s.value.toNat - 1 := by
    rw [BitVec.toNat_sub_of_le]
    · rfl
    · rw [BitVec.le_def]; exact h1
  have hr : ((s.value - 1).toNat : ℚ) = s.value.toNat - 1 := by
    rw [hsub]; push_cast [h1]; ring
  have hn1 : (1 : ℚ) ≤ s.value.toNat := by exact_mod_cast h1
  have hn2 : (s.value.toNat : ℚ) ≤ 255 := by exact_mod_cast (show s.value.toNat ≤ 255 by omega)
  have hc : 2.54 - 1 / 10000000 ≤ F32.c254 := by norm_num [F32.c254]
  have hc' : F32.c254 ≤ 2.54 := by norm_num [F32.c254]
  have hcp : 0 < F32.c254 := by norm_num [F32.c254]
  have hx0 : 0 ≤ ((s.value.toNat : ℚ) - 1) / F32.c254 := div_nonneg (by linarith) hcp.le
  have hx1 : ((s.value.toNat : ℚ) - 1) / F32.c254 ≤ 101 := by
    rw [div_le_iff₀ hcp]; norm_num at hc; linarith
  have e1 := abs_le.1 (roundQ_err_small (q := ((s.value.toNat : ℚ) - 1) / F32.c254) (by rw [abs_of_nonneg hx0]; linarith))
  refine ⟨roundQ (((s.value.toNat : ℚ) - 1) / F32.c254), ?_, ?_⟩
  · simp only [PdtScaled.getValue, if_neg h, F32.divFin, hr]
    apply roundF32_fin
    apply roundQ_lt
    rw [abs_of_nonneg hx0]; norm_num; linarith
  · have e2 : ((s.value.toNat : ℚ) - 1) / 2.54 ≤ ((s.value.toNat : ℚ) - 1) / F32.c254 := by
      apply div_le_div_of_nonneg_left (by linarith) hcp hc'
    have e3 : ((s.value.toNat : ℚ) - 1) / F32.c254 ≤ ((s.value.toNat : ℚ) - 1) / 2.54 + 1 / 20000 := by
      rw [div_le_iff₀ hcp]
      have : ((s.value.toNat : ℚ) - 1) / 2.54 * F32.c254 ≥ ((s.value.toNat : ℚ) - 1) / 2.54 * (2.54 - 1 / 10000000) := by
        gcongr
      norm_num at this hc ⊢
      linarith
    rw [abs_le]; constructor <;> linarith

/-- C81, what does hold (decoding): a raw value is decoded to within 0.4 percent of 100 v / 255, 0 exactly. -/
theorem C81_decode_partial (s : PdtScaled) : ∃ x : ℚ, s.getValue = .fin x ∧ |x - 100 * (s.value.toNat : ℚ) / 255| ≤ 4 / 10 ∧
    (s.value = 0 → x = 0) := by
  by_cases h : s.value = 0
  · refine ⟨0, by simp [PdtScaled.getValue, h], ?_⟩
    rw [h, show (0 : U8).toNat = 0 from rfl]; norm_num
  · obtain ⟨x, h1, h2⟩ := scaled_getValue s h
    refine ⟨x, h1, ?_, fun h0 => absurd h0 h⟩
    have hlt := s.value.isLt
    have hn1 : (1 : ℚ) ≤ s.value.toNat := by
      have : s.value.toNat ≠ 0 := fun h0 => h (BitVec.eq_of_toNat_eq (by simpa using h0))
      exact_mod_cast (by omega : 1 ≤ s.value.toNat)
    have hn2 : (s.value.toNat : ℚ) ≤ 255 := by exact_mod_cast (show s.value.toNat ≤ 255 by omega)
    rw [abs_le] at h2 ⊢
    norm_num at h2 ⊢
    constructor <;> linarith

/-- C81 is refuted (decoding): every raw value from 1 to 254 is decoded to less than 100 v / 255 percent. -/
theorem C81_violated_decode (s : PdtScaled) (h1 : 1 ≤ s.value.toNat) (h2 : s.value.toNat ≤ 254) :
    ∃ x : ℚ, s.getValue = .fin x ∧ x < 100 * (s.value.toNat : ℚ) / 255 - 1 / 1000 := by
  have h : s.value ≠ 0 := fun h => by rw [h] at h1; simp at h1
  obtain ⟨x, g1, g2⟩ := scaled_getValue s h
  refine ⟨x, g1, ?_⟩
  have hn2 : (s.value.toNat : ℚ) ≤ 254 := by exact_mod_cast h2
  rw [abs_le] at g2
  norm_num at g2 ⊢
  linarith

example : (1 : ℕ) ≤ (PdtScaled.general 128).value.toNat ∧ (PdtScaled.general 128).value.toNat ≤ 254 := by decide

end Knx
