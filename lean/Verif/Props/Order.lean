import Verif.Props.Temperature
import Verif.Props.DpMore

/-!
# Property C134: of two temperatures the lower one is not shown as the higher one

The full statement: of two pairs of octets, the one that denotes the lower number is decoded to the lower number; and of two temperatures
that are written to groups, the lower one does not arrive as the higher one. It is true of exponents up to seven and outside the limits of
the mantissa.
-/

namespace Knx

open Spec

/-- The number the decoder works with: the mantissa and the exponent it uses. -/
def scaledOf (a b : U8) : ℤ := dptM a b * 2 ^ usedExp a

/-- Single precision 0.01. -/
def hundredth : ℚ := 10737418 / 2 ^ 30

/-- The decoder's result, as a function of that number alone. -/
theorem decode_scaled (m : Mode) {a b : U8} (h : dptM a b ≠ -2048) :
    bytesToFloat m [a, b] = .ok (.fin (roundQ (hundredth * scaledOf a b))) := by
  obtain ⟨x, hx, hxv, hlt⟩ := (floatMant_spec m a b).1 h
  have hsm := sign_mul m a b x (by omega)
  have hM : (if a.toNat / 128 = 1 then -(x.toNat : ℤ) else x.toNat) = dptM a b := by
    have ha := a.isLt
    have hb := b.isLt
    split
    · rename_i h1
      have : dptM a b < 0 := by simp only [dptM, h1]; push_cast; omega
      rw [hxv, abs_of_neg this, neg_neg]
    · rename_i h1
      have : 0 ≤ dptM a b := by simp only [dptM, show a.toNat / 128 = 0 by omega]; push_cast; omega
      rw [hxv, abs_of_nonneg this]
  rw [hM] at hsm
  have hMb : |dptM a b| ≤ 2047 := by
    have ha := a.isLt
    have hb := b.isLt
    rw [abs_le]; simp only [dptM] at *; omega
  have hMq : |(dptM a b : ℚ)| ≤ 2047 := by exact_mod_cast hMb
  simp only [bytesToFloat, hx, hsm, floatExp_toNat]
  have hk := usedExp_le a
  unfold scaledOf
  generalize dptM a b = M at *
  generalize usedExp a = k at *
  have hp : (0 : ℚ) < 2 ^ k := by positivity
  have hp7 : (2 : ℚ) ^ k ≤ 2 ^ 7 := pow_le_pow_right₀ (by norm_num) hk
  have hc : (0 : ℚ) < hundredth := by unfold hundredth; norm_num
  have hc1 : hundredth ≤ 1 := by unfold hundredth; norm_num
  have hsc : roundQ (hundredth * M * 2 ^ k) = roundQ (hundredth * M) * 2 ^ k := by
    by_cases h0 : M = 0
    · subst h0; simp [roundQ_zero]
    · have hM1 : (1 : ℚ) ≤ |(M : ℚ)| := by exact_mod_cast Int.one_le_abs h0
      refine roundQ_scale ?_ k
      rw [abs_mul, abs_of_pos hc]
      calc (1 : ℚ) / 2 ^ 126 ≤ hundredth * 1 := by unfold hundredth; norm_num
        _ ≤ hundredth * |(M : ℚ)| := by gcongr
  have hb0 : |hundredth * M| ≤ 2 ^ 11 := by
    rw [abs_mul, abs_of_pos hc]
    calc hundredth * |(M : ℚ)| ≤ 1 * 2047 := by gcongr
      _ ≤ 2 ^ 11 := by norm_num
  have hb1 : |roundQ (hundredth * M)| < 2 ^ 128 := roundQ_lt (hb0.trans (by norm_num))
  have hb2 : |roundQ (hundredth * M * 2 ^ k)| < 2 ^ 128 := by
    refine roundQ_lt ?_
    rw [abs_mul, abs_of_pos hp]
    calc |hundredth * M| * 2 ^ k ≤ 2 ^ 11 * 2 ^ 7 := by gcongr
      _ ≤ 2 ^ 127 := by norm_num
  have hc' : F32.c001 = .fin hundredth := rfl
  simp only [hc', F32.mul]
  rw [roundF32_fin hb1]
  simp only []
  rw [roundF32_fin (by rw [← hsc, roundQ_idem]; exact hb2), ← hsc, roundQ_idem]
  push_cast
  rw [mul_assoc]

theorem scaledOf_le (a b : U8) : |scaledOf a b| ≤ 2 ^ 18 := by
  have hMb : |dptM a b| ≤ 2048 := by
    have ha := a.isLt
    have hb := b.isLt
    rw [abs_le]; simp only [dptM] at *; omega
  have hp7 : (2 : ℤ) ^ usedExp a ≤ 2 ^ 7 := pow_le_pow_right₀ (by norm_num) (usedExp_le a)
  rw [scaledOf, abs_mul, abs_of_pos (show (0 : ℤ) < 2 ^ usedExp a by positivity)]
  calc |dptM a b| * 2 ^ usedExp a ≤ 2048 * 2 ^ 7 := by gcongr
    _ = 2 ^ 18 := by norm_num

/-- Different numbers are decoded to different numbers, in their order. -/
theorem scaled_lt {x y : ℤ} (hx : |x| ≤ 2 ^ 18) (hy : |y| ≤ 2 ^ 18) (h : x < y) : roundQ (hundredth * x) < roundQ (hundredth * y) := by
  have hc : (0 : ℚ) < hundredth := by unfold hundredth; norm_num
  have key : ∀ z : ℤ, |z| ≤ 2 ^ 18 → |roundQ (hundredth * z) - hundredth * z| ≤ hundredth / 2 ^ 6 := by
    intro z hz
    have hzq : |(z : ℚ)| ≤ 2 ^ 18 := by exact_mod_cast hz
    refine (roundQ_err _).trans (max_le ?_ (by unfold hundredth; norm_num))
    rw [abs_mul, abs_of_pos hc]
    calc hundredth * |(z : ℚ)| / 2 ^ 24 ≤ hundredth * 2 ^ 18 / 2 ^ 24 := by gcongr
      _ = hundredth / 2 ^ 6 := by ring
  have h1 := key x hx
  have h2 := key y hy
  have h3 : (x : ℚ) + 1 ≤ y := by exact_mod_cast h
  have h4 : hundredth * x + hundredth ≤ hundredth * y := by
    calc hundredth * x + hundredth = hundredth * (x + 1) := by ring
      _ ≤ hundredth * y := by gcongr
  rw [abs_le] at h1 h2
  have h5 : hundredth / 2 ^ 6 = hundredth / 64 := by norm_num
  rw [h5] at h1 h2
  linarith [h1.2, h2.1]

/-- C134: exactly in which order pairs of octets are decoded (the exponent counts as the decoder takes it). -/
theorem C134_decode_iff (m m' : Mode) {a b c d : U8} (h : dptM a b ≠ -2048) (h' : dptM c d ≠ -2048) :
    ∃ x y : ℚ, bytesToFloat m [a, b] = .ok (.fin x) ∧ bytesToFloat m' [c, d] = .ok (.fin y) ∧
      (x < y ↔ dptM a b * 2 ^ usedExp a < dptM c d * 2 ^ usedExp c) ∧ (x = y ↔ dptM a b * 2 ^ usedExp a = dptM c d * 2 ^ usedExp c) := by
  refine ⟨_, _, decode_scaled m h, decode_scaled m' h', ?_⟩
  have h1 := scaledOf_le a b
  have h2 := scaledOf_le c d
  change (_ ↔ scaledOf a b < scaledOf c d) ∧ (_ ↔ scaledOf a b = scaledOf c d)
  rcases lt_trichotomy (scaledOf a b) (scaledOf c d) with hlt | heq | hgt
  · have := scaled_lt h1 h2 hlt
    exact ⟨⟨fun _ => hlt, fun _ => this⟩, ⟨fun e => absurd e this.ne, fun e => absurd e hlt.ne⟩⟩
  · rw [heq]
    exact ⟨⟨fun e => absurd e (lt_irrefl _), fun e => absurd e (lt_irrefl _)⟩, by simp⟩
  · have := scaled_lt h2 h1 hgt
    exact ⟨⟨fun e => absurd e this.not_gt, fun e => absurd e hgt.not_gt⟩, ⟨fun e => absurd e this.ne', fun e => absurd e hgt.ne'⟩⟩

theorem dpt9_scaled {a : U8} (b : U8) (h : dptE a ≤ 7) : dpt9 a b = (scaledOf a b : ℚ) / 100 := by
  have : usedExp a = dptE a := if_pos h
  simp only [dpt9, scaledOf, this]; push_cast; ring

/-- C134, the part that holds of the decoder: with exponents up to seven, and mantissas other than -2048, the lower number is decoded to the
lower number, and the same number to the same number. -/
theorem C134_decode_partial (m m' : Mode) {a b c d : U8} (h : dptM a b ≠ -2048) (h' : dptM c d ≠ -2048) (hE : dptE a ≤ 7) (hE' : dptE c ≤ 7) :
    ∃ x y : ℚ, bytesToFloat m [a, b] = .ok (.fin x) ∧ bytesToFloat m' [c, d] = .ok (.fin y) ∧
      (x < y ↔ dpt9 a b < dpt9 c d) ∧ (x = y ↔ dpt9 a b = dpt9 c d) := by
  obtain ⟨x, y, h1, h2, h3, h4⟩ := C134_decode_iff m m' h h'
  refine ⟨x, y, h1, h2, ?_, ?_⟩
  · rw [h3, dpt9_scaled b hE, dpt9_scaled d hE', div_lt_div_iff_of_pos_right (by norm_num), Int.cast_lt]; rfl
  · rw [h4, dpt9_scaled b hE, dpt9_scaled d hE', div_left_inj' (by norm_num), Int.cast_inj]; rfl

/-- 21 degrees, and 21 degrees with another exponent. -/
example : dptM 0x0c 0x1a ≠ -2048 ∧ dptE 0x0c ≤ 7 ∧ dptM 0x0c 0x1a * 2 ^ usedExp 0x0c = dptM 0x12 0x0d * 2 ^ usedExp 0x12 := by decide

/-- C134 refuted for exponents from eight on: a higher number is decoded to a lower one. -/
theorem C134_violated_exponent (m m' : Mode) {a b c d : U8} (hM : dptM a b = dptM c d) (h0 : 0 < dptM a b) (hE : dptE a ≤ 7)
    (hE' : 8 ≤ dptE c) (hs : 15 < dptE a + dptE c) :
    dpt9 a b < dpt9 c d ∧ ∃ x y : ℚ, bytesToFloat m [a, b] = .ok (.fin x) ∧ bytesToFloat m' [c, d] = .ok (.fin y) ∧ y < x := by
  have h1 : usedExp a = dptE a := if_pos hE
  have h2 : usedExp c = 15 - dptE c := if_neg (by omega)
  have h16 : dptE c < 16 := by simp only [dptE]; omega
  refine ⟨?_, ?_⟩
  · have : (0 : ℚ) < dptM c d := by rw [← hM]; exact_mod_cast h0
    simp only [dpt9, hM]
    have h3 : (2 : ℚ) ^ dptE a < 2 ^ dptE c := pow_lt_pow_right₀ (by norm_num) (by omega)
    exact div_lt_div_of_pos_right (mul_lt_mul_of_pos_left h3 this) (by norm_num)
  · obtain ⟨y, x, h3, h4, h5, -⟩ := C134_decode_iff m' m (a := c) (b := d) (c := a) (d := b) (by omega) (by omega)
    refine ⟨x, y, h4, h3, h5.2 ?_⟩
    rw [← hM, h1, h2]
    have h6 : (2 : ℤ) ^ (15 - dptE c) < 2 ^ dptE a := pow_lt_pow_right₀ (by norm_num) (by omega)
    exact Int.mul_lt_mul_of_pos_left h6 h0

/-- 1000 with the exponents seven and ten. -/
example : dptM 0x3b 0xe8 = dptM 0x53 0xe8 ∧ dptM 0x3b 0xe8 = 1000 ∧ dptE 0x3b = 7 ∧ dptE 0x53 = 10 := by decide

/-- C134 refuted for the lowest mantissa, in release builds: -20.48 is decoded to a number below the one that -163.76 is decoded to. -/
theorem C134_violated_minimum {a b c d : U8} (hM : dptM a b = -2048) (hE : dptE a = 0) (hM' : dptM c d = -2047) (hE' : dptE c ≤ 4) (h1 : 1 ≤ dptE c) :
    dpt9 c d < dpt9 a b ∧ ∃ x y : ℚ, bytesToFloat .release [a, b] = .ok (.fin x) ∧ bytesToFloat .release [c, d] = .ok (.fin y) ∧ x < y := by
  have h3 : (2 : ℚ) ^ 1 ≤ 2 ^ dptE c := pow_le_pow_right₀ (by norm_num) h1
  have h4 : (2 : ℚ) ^ dptE c ≤ 2 ^ 4 := pow_le_pow_right₀ (by norm_num) hE'
  refine ⟨?_, ?_⟩
  · simp only [dpt9, hM, hM', hE]; push_cast; norm_num at h3 ⊢; linarith
  · obtain ⟨x, hx, hxe⟩ := decode_min .release hM hE
    obtain ⟨y, hy, hye⟩ := C35_decode_partial .release c d (by omega) (by omega)
    refine ⟨x, y, hx, hy, ?_⟩
    have hv : dpt9 c d = -2047 * 2 ^ dptE c / 100 := by simp only [dpt9, hM']; push_cast; ring
    rw [abs_le] at hxe hye
    have h5 : |dpt9 c d| ≤ 400 := by
      rw [hv, abs_le]; norm_num at h3 h4 ⊢; constructor <;> linarith
    have h6 : -400 ≤ dpt9 c d := (abs_le.1 h5).1
    have h7 : |dpt9 c d| / 2 ^ 23 ≤ 1 := by
      rw [div_le_one (by norm_num)]; exact h5.trans (by norm_num)
    norm_num at hxe
    linarith [hxe.2, hye.1]

example : dptM 0x80 0 = -2048 ∧ dptE 0x80 = 0 ∧ dptM 0x98 1 = -2047 ∧ dptE 0x98 = 3 := by decide

/-! ## Temperatures that are written -/

/-- The encoder keeps the order, whatever exponents it needs. -/
theorem mantissa_mono {q q' : ℚ} {e e' : ℕ} (he : NeedsExp (hundredfold q) e) (he' : NeedsExp (hundredfold q') e') (h : q ≤ q') :
    mantissaOf q e * 2 ^ e ≤ mantissaOf q' e' * 2 ^ e' := by
  have hw : hundredfold q ≤ hundredfold q' := roundQ_mono (by linarith)
  unfold mantissaOf
  generalize hundredfold q = w at *
  generalize hundredfold q' = w' at *
  have aux : ∀ {v v' : ℚ} {i j : ℕ}, |v| ≤ 2048 * 2 ^ i → 2048 * 2 ^ (j - 1) < |v'| → i < j → 0 ≤ v' →
      F32.awayInt (v / 2 ^ i) * 2 ^ i ≤ F32.awayInt (v' / 2 ^ j) * 2 ^ j := by
    intro v v' i j h1 h2 hij h0
    have hpi : (0 : ℚ) < 2 ^ i := by positivity
    have hpj : (0 : ℚ) < 2 ^ j := by positivity
    have h3 : F32.awayInt (v / 2 ^ i) ≤ 2048 := (awayInt_bound (by rw [abs_div, abs_of_pos hpi, div_le_iff₀ hpi]; exact h1)).2
    have h4 : 1024 ≤ F32.awayInt (v' / 2 ^ j) := by
      have h5 : F32.awayInt ((1024 : ℤ) : ℚ) = 1024 := awayInt_eq (by norm_num)
      rw [← h5]
      refine awayInt_mono ?_
      rw [le_div_iff₀ hpj]
      rw [abs_of_nonneg h0] at h2
      have : (2 : ℚ) ^ j = 2 * 2 ^ (j - 1) := by rw [← pow_succ', Nat.sub_add_cancel (by omega)]
      rw [this]; push_cast; linarith
    have h6 : (2 : ℤ) ^ j = 2 ^ (j - 1 - i) * 2 * 2 ^ i := by
      rw [mul_assoc, ← pow_succ', ← pow_add]; congr 1; omega
    have h7 : (1 : ℤ) ≤ 2 ^ (j - 1 - i) := one_le_pow₀ (by norm_num)
    have h8 : (0 : ℤ) < 2 ^ i := by positivity
    calc F32.awayInt (v / 2 ^ i) * 2 ^ i ≤ 2048 * 2 ^ i := by gcongr
      _ ≤ 1024 * (2 ^ (j - 1 - i) * 2 * 2 ^ i) := by nlinarith
      _ = 1024 * 2 ^ j := by rw [h6]
      _ ≤ _ := by gcongr
  have neg : ∀ x : ℚ, F32.awayInt (-x) = -F32.awayInt x := by
    intro x
    rcases lt_trichotomy x 0 with hx | rfl | hx
    · simp only [F32.awayInt]
      rw [if_pos (by linarith), if_neg (by linarith), neg_neg]
    · norm_num [F32.awayInt]
    · simp only [F32.awayInt]
      rw [if_neg (by linarith), if_pos (by linarith), neg_neg]
  rcases lt_trichotomy e e' with hlt | rfl | hgt
  · rcases he'.2 with h2 | h2
    · omega
    · refine aux he.1 h2 hlt ?_
      by_contra hn
      have hn := not_le.1 hn
      have h3 : |w'| ≤ |w| := by rw [abs_of_neg hn, abs_of_neg (by linarith)]; linarith
      have h4 : (2 : ℚ) ^ e ≤ 2 ^ (e' - 1) := pow_le_pow_right₀ (by norm_num) (by omega)
      linarith [he.1]
  · have hp : (0 : ℚ) < 2 ^ e := by positivity
    have := awayInt_mono (x := w / 2 ^ e) (y := w' / 2 ^ e) (by gcongr)
    gcongr
  · rcases he.2 with h2 | h2
    · omega
    · have h5 : 0 ≤ -w := by
        by_contra hn
        have hn := not_le.1 hn
        have h3 : |w| ≤ |w'| := by rw [abs_of_pos (by linarith), abs_of_pos (by linarith)]; linarith
        have h4 : (2 : ℚ) ^ e' ≤ 2 ^ (e - 1) := pow_le_pow_right₀ (by norm_num) (by omega)
        linarith [he'.1]
      have := aux (v := -w') (v' := -w) (i := e') (j := e) (by rw [abs_neg]; exact he'.1) (by rw [abs_neg]; exact h2) hgt h5
      rw [neg_div, neg_div, neg, neg] at this
      linarith

/-- C134, the part that holds of temperatures that are written: with exponents of at most seven and outside the limits of the mantissa,
the lower of two temperatures does not arrive as the higher one. -/
theorem C134_written_partial (m₁ m₂ m' : Mode) (dest dest' : KnxAddress) {q q' : ℚ} {e e' : ℕ} (h : q ≤ q')
    (he : NeedsExp (hundredfold q) e) (h7 : e ≤ 7) (hn : mantissaOf q e ≠ 2048) (hn' : mantissaOf q e ≠ -2048)
    (hz : hundredfold q < 0 → mantissaOf q e ≠ 0)
    (he2 : NeedsExp (hundredfold q') e') (h72 : e' ≤ 7) (hn2 : mantissaOf q' e' ≠ 2048) (hn2' : mantissaOf q' e' ≠ -2048)
    (hz2 : hundredfold q' < 0 → mantissaOf q' e' ≠ 0) :
    ∃ (v v' : Bytes) (x x' : ℚ), Temperature m₁ m' dest (.fin q) v (.ok (.fin x)) ∧ Temperature m₂ m' dest' (.fin q') v' (.ok (.fin x')) ∧
      x ≤ x' := by
  obtain ⟨a, b, h1, hM, hE⟩ := temp_bytes m₁ he (by omega) hn hz
  obtain ⟨c, d, h1', hM', hE'⟩ := temp_bytes m₂ he2 (by omega) hn2 hz2
  obtain ⟨x, y, hx, hy, hlt, -⟩ := C134_decode_iff m' m' (a := c) (b := d) (c := a) (d := b) (by rw [hM']; exact hn2') (by rw [hM]; exact hn')
  refine ⟨_, _, y, x, temperature_of h1 (hundredfold_bound he (by omega)) hy, temperature_of h1' (hundredfold_bound he2 (by omega)) hx, ?_⟩
  rw [← not_lt, hlt, not_lt]
  have u : usedExp a = e := by rw [usedExp, hE, if_pos h7]
  have u' : usedExp c = e' := by rw [usedExp, hE', if_pos h72]
  rw [u, u', hM, hM']
  exact mantissa_mono he he2 h

/-- The exponent and the mantissa of a temperature of a room. -/
theorem room_exponent {q : ℚ} (h0 : 0 ≤ q) (h1 : q ≤ 40.94) (hgap : q ≤ 20.4749 ∨ 20.4801 ≤ q) :
    ∃ e, NeedsExp (hundredfold q) e ∧ e ≤ 7 ∧ mantissaOf q e ≠ 2048 ∧ mantissaOf q e ≠ -2048 ∧ (hundredfold q < 0 → mantissaOf q e ≠ 0) := by
  have hnear := hundredfold_near h0 (by norm_num at h1 ⊢; linarith)
  rw [abs_le] at hnear
  have hw0 : 0 ≤ hundredfold q := by
    have h := roundQ_intCast (n := 0) (by norm_num)
    push_cast at h
    unfold hundredfold
    rw [← h]; apply roundQ_mono; linarith
  have hz : ∀ e, hundredfold q < 0 → mantissaOf q e ≠ 0 := fun e h => absurd h (not_lt.2 hw0)
  rcases hgap with hg | hg
  · have he : NeedsExp (hundredfold q) 0 := ⟨by rw [abs_of_nonneg hw0]; norm_num at hg ⊢; linarith [hnear.2], .inl rfl⟩
    have hb : -1 < mantissaOf q 0 ∧ mantissaOf q 0 < 2048 := by
      have he := awayInt_err (hundredfold q / 2 ^ 0)
      rw [pow_zero, div_one, abs_le] at he
      unfold mantissaOf
      rw [pow_zero, div_one]
      norm_num at hg he
      constructor
      · have : (-1 : ℚ) < F32.awayInt (hundredfold q) := by linarith [he.1]
        exact_mod_cast this
      · have : (F32.awayInt (hundredfold q) : ℚ) < 2048 := by linarith [he.2, hnear.2]
        exact_mod_cast this
    exact ⟨0, he, by omega, by omega, by omega, hz 0⟩
  · have hlow : 2048 < hundredfold q := by norm_num at hg; linarith [hnear.1]
    have he : NeedsExp (hundredfold q) 1 := by
      refine ⟨?_, .inr ?_⟩
      · rw [abs_of_nonneg hw0]; norm_num at h1 ⊢; linarith [hnear.2]
      · rw [abs_of_nonneg hw0]; norm_num; exact hlow
    have hb : -1 < mantissaOf q 1 ∧ mantissaOf q 1 < 2048 := by
      have he := awayInt_err (hundredfold q / 2 ^ 1)
      rw [pow_one, abs_le] at he
      unfold mantissaOf
      rw [pow_one]
      norm_num at h1 he
      constructor
      · have : (-1 : ℚ) < F32.awayInt (hundredfold q / 2) := by linarith [he.1]
        exact_mod_cast this
      · have : (F32.awayInt (hundredfold q / 2) : ℚ) < 2048 := by linarith [he.2, hnear.2]
        exact_mod_cast this
    exact ⟨1, he, by omega, by omega, by omega, hz 1⟩

/-- C134 for the temperatures of a room, from 0 to 40.94 degrees without the gap below 20.48: the lower one does not arrive as the higher one. -/
theorem C134_room_partial (m₁ m₂ m' : Mode) (dest dest' : KnxAddress) {q q' : ℚ} (h : q ≤ q') (h0 : 0 ≤ q) (h1 : q' ≤ 40.94)
    (hgap : q ≤ 20.4749 ∨ 20.4801 ≤ q) (hgap' : q' ≤ 20.4749 ∨ 20.4801 ≤ q') :
    ∃ (v v' : Bytes) (x x' : ℚ), Temperature m₁ m' dest (.fin q) v (.ok (.fin x)) ∧ Temperature m₂ m' dest' (.fin q') v' (.ok (.fin x')) ∧
      x ≤ x' := by
  obtain ⟨e, a1, a2, a3, a4, a5⟩ := room_exponent h0 (h.trans h1) hgap
  obtain ⟨e', b1, b2, b3, b4, b5⟩ := room_exponent (h0.trans h) h1 hgap'
  exact C134_written_partial m₁ m₂ m' dest dest' h a1 a2 a3 a4 a5 b1 b2 b3 b4 b5

example : (19.5 : ℚ) ≤ 21.5 ∧ (0 : ℚ) ≤ 19.5 ∧ (21.5 : ℚ) ≤ 40.94 ∧ (19.5 : ℚ) ≤ 20.4749 ∧ (20.4801 : ℚ) ≤ 21.5 := by norm_num

/-- C134 refuted for temperatures that are written: between 20.476 and 20.48 degrees, zero degrees arrive, less than for every temperature
from one to twenty degrees. -/
theorem C134_violated_written (m₁ m₂ m' : Mode) (dest dest' : KnxAddress) {q q' : ℚ} (h1 : 1 ≤ q) (h2 : q ≤ 20) (h3 : 20.476 ≤ q') (h4 : q' ≤ 20.48) :
    q < q' ∧ ∃ (v v' : Bytes) (x x' : ℚ), Temperature m₁ m' dest (.fin q) v (.ok (.fin x)) ∧
      Temperature m₂ m' dest' (.fin q') v' (.ok (.fin x')) ∧ x' < x := by
  refine ⟨by norm_num at h3; linarith, ?_⟩
  obtain ⟨v, x, hv, hx⟩ := C103_room_partial m₁ m' dest q (by linarith) (by norm_num; linarith) (Or.inl (by norm_num; linarith))
  obtain ⟨v', hv'⟩ := C103_violated_20_48 m₂ m' dest' q' h3 h4
  refine ⟨v, v', x, 0, hv, hv', ?_⟩
  rw [abs_le] at hx
  norm_num at hx
  linarith [hx.1]

/-! ## Percentages -/

theorem scaled_value (s : PdtScaled) : ∃ x : ℚ, s.getValue = .fin x ∧ |x - ((s.value.toNat - 1 : ℕ) : ℚ) / 2.54| ≤ 1 / 10000 ∧
    (s.value.toNat ≤ 1 → x = 0) := by
  by_cases h0 : s.value = 0
  · refine ⟨0, by simp [PdtScaled.getValue, h0], ?_, fun _ => rfl⟩
    rw [h0, show (0 : U8).toNat - 1 = 0 from rfl]; norm_num
  · by_cases h1 : s.value = 1
    · refine ⟨0, ?_, ?_, fun _ => rfl⟩
      · simp [PdtScaled.getValue, h1, F32.divFin, roundF32, roundQ_zero]
      · rw [h1, show (1 : U8).toNat - 1 = 0 from rfl]; norm_num
    · obtain ⟨x, hx, he⟩ := scaled_getValue s h0
      have h2 : 2 ≤ s.value.toNat := by
        have a0 : s.value.toNat ≠ 0 := fun h => h0 (BitVec.eq_of_toNat_eq (by simpa using h))
        have a1 : s.value.toNat ≠ 1 := fun h => h1 (BitVec.eq_of_toNat_eq (by simpa using h))
        omega
      refine ⟨x, hx, ?_, fun h => by omega⟩
      rwa [Nat.cast_sub (by omega), Nat.cast_one]

/-- C134 for percentages: the lower raw value is read as the lower percentage; only 0 and 1 are read as the same. -/
theorem C134_percent (s s' : PdtScaled) : ∃ x x' : ℚ, s.getValue = .fin x ∧ s'.getValue = .fin x' ∧
    (x < x' ↔ s.value.toNat < s'.value.toNat ∧ 2 ≤ s'.value.toNat) := by
  obtain ⟨x, hx, he, hz⟩ := scaled_value s
  obtain ⟨x', hx', he', hz'⟩ := scaled_value s'
  refine ⟨x, x', hx, hx', ?_⟩
  rw [abs_le] at he he'
  have lt : ∀ {i j : ℕ}, i < j → (i : ℚ) / 2.54 + 1 / 3 ≤ (j : ℚ) / 2.54 := by
    intro i j hij
    have : (i : ℚ) + 1 ≤ j := by exact_mod_cast hij
    norm_num
    linarith
  constructor
  · intro hlt
    by_contra hn
    by_cases h2 : 2 ≤ s'.value.toNat
    · rcases Nat.lt_or_ge s'.value.toNat s.value.toNat with h3 | h3
      · have := lt (i := s'.value.toNat - 1) (j := s.value.toNat - 1) (by omega)
        norm_num at this he he'
        linarith [he.1, he'.2]
      · have h4 : s.value = s'.value := BitVec.eq_of_toNat_eq (by omega)
        have h5 : s.getValue = s'.getValue := by simp only [PdtScaled.getValue, h4]
        rw [hx, hx'] at h5
        cases h5
        exact lt_irrefl _ hlt
    · have h3 : x' = 0 := hz' (by omega)
      have h4 : (0 : ℚ) ≤ ((s.value.toNat - 1 : ℕ) : ℚ) / 2.54 := by positivity
      rcases Nat.lt_or_ge 1 s.value.toNat with h5 | h5
      · have := lt (i := 0) (j := s.value.toNat - 1) (by omega)
        norm_num at this he
        linarith [he.1]
      · rw [hz h5, h3] at hlt
        exact lt_irrefl _ hlt
  · rintro ⟨h1, h2⟩
    have := lt (i := s.value.toNat - 1) (j := s'.value.toNat - 1) (by omega)
    norm_num at this he he'
    linarith [he.2, he'.1]

example : (PdtScaled.general 3).value.toNat < (PdtScaled.general 200).value.toNat := by decide

end Knx
