import Mathlib.Tactic.Linarith
import Mathlib.Tactic.NormNum
import Mathlib.Tactic.Positivity
import Mathlib.Tactic.FieldSimp
import Mathlib.Tactic.Ring
import Verif.Model.F32

/-! Helper lemmas about the `f32` model. -/

namespace Knx

theorem rne_err (x : ℚ) : |(rne x : ℚ) - x| ≤ 1 / 2 := by
  have h1 := Int.floor_le x
  have h2 := Int.lt_floor_add_one x
  unfold rne
  split
  · rw [abs_le]; constructor <;> linarith
  · split
    · push_cast; rw [abs_le]; constructor <;> linarith
    · split
      · rw [abs_le]; constructor <;> linarith
      · push_cast; rw [abs_le]; constructor <;> linarith

/-- `rne` is monotone. -/
theorem rne_mono {x y : ℚ} (h : x ≤ y) : rne x ≤ rne y := by
  have hx := rne_err x
  have hy := rne_err y
  have hf : ⌊x⌋ ≤ ⌊y⌋ := Int.floor_le_floor h
  rcases hf.eq_or_lt with he | hl
  · unfold rne
    rw [← he]
    repeat' split
    all_goals first
      | omega
      | (exfalso; linarith)
  · have hx2 : rne x ≤ ⌊x⌋ + 1 := by
      unfold rne
      repeat' split
      all_goals omega
    have hy2 : ⌊y⌋ ≤ rne y := by
      unfold rne
      repeat' split
      all_goals omega
    omega

theorem rne_int (n : ℤ) : rne n = n := by
  unfold rne; simp

theorem rne_neg (x : ℚ) : rne (-x) = - rne x := by
  have h1 := Int.floor_le x
  have h2 := Int.lt_floor_add_one x
  rcases h1.eq_or_lt with h | h
  · rw [← h]
    have : -((⌊x⌋ : ℤ) : ℚ) = ((-⌊x⌋ : ℤ) : ℚ) := by push_cast; rfl
    rw [this, rne_int, rne_int]
  · have hf : ⌊-x⌋ = -⌊x⌋ - 1 := by
      rw [Int.floor_eq_iff]; push_cast; constructor <;> linarith
    unfold rne
    rw [hf]; push_cast
    repeat' split
    all_goals first
      | omega
      | (exfalso; linarith)

theorem two_zpow_pos (e : ℤ) : (0 : ℚ) < 2 ^ e := zpow_pos (by norm_num) e

/-- `rne` does not cross integers. -/
theorem rne_le_of_le {x : ℚ} {n : ℤ} (h : x ≤ n) : rne x ≤ n := by
  have := rne_mono h; rwa [rne_int] at this
theorem le_rne_of_le {x : ℚ} {n : ℤ} (h : (n : ℚ) ≤ x) : n ≤ rne x := by
  have := rne_mono h; rwa [rne_int] at this

theorem roundQ_zero : roundQ 0 = 0 := by
  simp only [roundQ, zero_div]
  have := rne_int 0
  simp only [Int.cast_zero] at this
  rw [this]; simp

theorem ulpExp_neg (q : ℚ) : ulpExp (-q) = ulpExp q := by simp [ulpExp]

theorem roundQ_neg (q : ℚ) : roundQ (-q) = - roundQ q := by
  simp only [roundQ, ulpExp_neg, neg_div, rne_neg]; push_cast; ring

/-- Absolute rounding error. -/
theorem roundQ_err_ulp (q : ℚ) : |roundQ q - q| ≤ 2 ^ ulpExp q / 2 := by
  have hp := two_zpow_pos (ulpExp q)
  have h := rne_err (q / 2 ^ ulpExp q)
  have : roundQ q - q = ((rne (q / 2 ^ ulpExp q) : ℚ) - q / 2 ^ ulpExp q) * 2 ^ ulpExp q := by
    simp only [roundQ]; field_simp
  rw [this, abs_mul, abs_of_pos hp]
  nlinarith

theorem zpow_log_le {q : ℚ} (h : q ≠ 0) : (2 : ℚ) ^ Int.log 2 |q| ≤ |q| := by
  have := Int.zpow_log_le_self (R := ℚ) (b := 2) (by norm_num) (abs_pos.2 h)
  exact_mod_cast this

theorem lt_zpow_log (q : ℚ) : |q| < (2 : ℚ) ^ (Int.log 2 |q| + 1) := by
  have := Int.lt_zpow_succ_log_self (R := ℚ) (b := 2) (by norm_num) |q|
  exact_mod_cast this

/-- Rounding error: relative 2^-24, or absolute 2^-150 for tiny numbers. -/
theorem roundQ_err (q : ℚ) : |roundQ q - q| ≤ max (|q| / 2 ^ 24) (1 / 2 ^ 150) := by
  have h := roundQ_err_ulp q
  by_cases hq : q = 0
  · subst hq; rw [roundQ_zero]; simp
  · have hl := zpow_log_le hq
    rcases max_choice (Int.log 2 |q| - 23) (-149) with hm | hm
    · apply le_max_of_le_left
      have : ulpExp q = Int.log 2 |q| - 23 := hm
      rw [this, zpow_sub₀ (by norm_num)] at h
      have e : (2 : ℚ) ^ Int.log 2 |q| / 2 ^ (23 : ℤ) / 2 = 2 ^ Int.log 2 |q| / 2 ^ 24 := by
        norm_num; ring
      rw [e] at h
      refine h.trans ?_
      gcongr
    · apply le_max_of_le_right
      have : ulpExp q = -149 := hm
      rw [this] at h
      refine h.trans ?_
      norm_num

/-- Rounding error for numbers of at least 2^-126. -/
theorem roundQ_err_rel {q : ℚ} (h : 1 / 2 ^ 126 ≤ |q|) : |roundQ q - q| ≤ |q| / 2 ^ 24 := by
  refine (roundQ_err q).trans (max_le le_rfl ?_)
  have : (1 : ℚ) / 2 ^ 150 = (1 / 2 ^ 126) / 2 ^ 24 := by norm_num
  rw [this]; gcongr

/-- Numbers with at most 24 significant bits and exponent at least -149 are not changed. -/
theorem roundQ_exact {m : ℤ} {e : ℤ} (hm : |m| < 2 ^ 24) (he : -149 ≤ e) :
    roundQ ((m : ℚ) * 2 ^ e) = m * 2 ^ e := by
  by_cases h0 : m = 0
  · subst h0; simp [roundQ_zero]
  set q : ℚ := (m : ℚ) * 2 ^ e with hq
  have hp := two_zpow_pos e
  have hq0 : q ≠ 0 := mul_ne_zero (by exact_mod_cast h0) hp.ne'
  have hlog : Int.log 2 |q| ≤ e + 23 := by
    by_contra hc
    have hc : e + 24 ≤ Int.log 2 |q| := by omega
    have h1 := zpow_log_le hq0
    have h2 : (2 : ℚ) ^ (e + 24) ≤ 2 ^ Int.log 2 |q| := zpow_le_zpow_right₀ (by norm_num) hc
    have h3 : |q| < 2 ^ (e + 24) := by
      rw [hq, abs_mul, abs_of_pos hp, zpow_add₀ (by norm_num)]
      have : |(m : ℚ)| < 2 ^ 24 := by exact_mod_cast hm
      have h24 : (2 : ℚ) ^ (24 : ℤ) = 2 ^ 24 := by norm_num
      rw [h24]; nlinarith
    linarith
  have hu : ulpExp q ≤ e := by
    simp only [ulpExp]; omega
  obtain ⟨k, hk⟩ : ∃ k : ℕ, e = ulpExp q + k := ⟨(e - ulpExp q).toNat, by omega⟩
  have hdiv : q / 2 ^ ulpExp q = ((m * 2 ^ k : ℤ) : ℚ) := by
    have : (2 : ℚ) ^ e = 2 ^ ulpExp q * 2 ^ k := by
      conv_lhs => rw [hk]
      rw [zpow_add₀ (by norm_num)]; norm_num
    rw [div_eq_iff (two_zpow_pos (ulpExp q)).ne']
    push_cast
    calc q = (m : ℚ) * 2 ^ e := hq
      _ = m * 2 ^ k * 2 ^ ulpExp q := by rw [this]; ring
  rw [roundQ, hdiv, rne_int, ← hdiv]
  field_simp

theorem roundQ_nonneg {q : ℚ} (h : 0 ≤ q) : 0 ≤ roundQ q := by
  have hp := two_zpow_pos (ulpExp q)
  have : 0 ≤ rne (q / 2 ^ ulpExp q) := le_rne_of_le (by rw [Int.cast_zero]; exact div_nonneg h hp.le)
  simp only [roundQ]
  have : (0 : ℚ) ≤ rne (q / 2 ^ ulpExp q) := by exact_mod_cast this
  exact mul_nonneg this hp.le

theorem roundQ_mono_pos {x y : ℚ} (hx : 0 < x) (h : x ≤ y) : roundQ x ≤ roundQ y := by
  have hy : 0 < y := hx.trans_le h
  have hlog : Int.log 2 |x| ≤ Int.log 2 |y| := by
    rw [abs_of_pos hx, abs_of_pos hy]; exact Int.log_mono_right hx h
  have hu : ulpExp x ≤ ulpExp y := by simp only [ulpExp]; omega
  rcases hu.eq_or_lt with he | hl
  · simp only [roundQ, he]
    have hp := two_zpow_pos (ulpExp y)
    have : rne (x / 2 ^ ulpExp y) ≤ rne (y / 2 ^ ulpExp y) := rne_mono (by gcongr)
    have : (rne (x / 2 ^ ulpExp y) : ℚ) ≤ rne (y / 2 ^ ulpExp y) := by exact_mod_cast this
    gcongr
  · -- different binades: 2^ulpExp(y)+23 separates them
    have hy' : ulpExp y = Int.log 2 |y| - 23 := by simp only [ulpExp] at hl ⊢; omega
    set b : ℤ := Int.log 2 |y| with hb
    have hxb : x ≤ 2 ^ b := by
      have h1 := lt_zpow_log x
      rw [abs_of_pos hx] at h1
      have : Int.log 2 |x| + 1 ≤ b := by simp only [ulpExp] at hl; omega
      rw [abs_of_pos hx] at this
      exact h1.le.trans (zpow_le_zpow_right₀ (by norm_num) this)
    have hby : (2 : ℚ) ^ b ≤ y := by
      have := zpow_log_le hy.ne'; rwa [abs_of_pos hy, ← abs_of_pos hy, ← hb, abs_of_pos hy] at this
    have hpx := two_zpow_pos (ulpExp x)
    have hpy := two_zpow_pos (ulpExp y)
    have h1 : roundQ x ≤ 2 ^ b := by
      obtain ⟨k, hk⟩ : ∃ k : ℕ, b = ulpExp x + k := ⟨(b - ulpExp x).toNat, by omega⟩
      have e : (2 : ℚ) ^ b = ((2 ^ k : ℤ) : ℚ) * 2 ^ ulpExp x := by
        rw [hk, zpow_add₀ (by norm_num)]; push_cast; rw [mul_comm]; norm_num
      have : rne (x / 2 ^ ulpExp x) ≤ 2 ^ k := rne_le_of_le (by
        rw [div_le_iff₀ hpx, ← e]; exact hxb)
      have : (rne (x / 2 ^ ulpExp x) : ℚ) ≤ ((2 ^ k : ℤ) : ℚ) := by exact_mod_cast this
      rw [e]; simp only [roundQ]
      gcongr
    have h2 : (2 : ℚ) ^ b ≤ roundQ y := by
      have e : (2 : ℚ) ^ b = ((2 ^ 23 : ℤ) : ℚ) * 2 ^ ulpExp y := by
        have : b = ulpExp y + 23 := by omega
        rw [this, zpow_add₀ (by norm_num)]; norm_num; ring
      have : 2 ^ 23 ≤ rne (y / 2 ^ ulpExp y) := le_rne_of_le (by
        rw [le_div_iff₀ hpy, ← e]; exact hby)
      have : ((2 ^ 23 : ℤ) : ℚ) ≤ (rne (y / 2 ^ ulpExp y) : ℚ) := by exact_mod_cast this
      rw [e]; simp only [roundQ]
      gcongr
    linarith

/-- Rounding is monotone. -/
theorem roundQ_mono {x y : ℚ} (h : x ≤ y) : roundQ x ≤ roundQ y := by
  rcases lt_trichotomy 0 x with hx | hx | hx
  · exact roundQ_mono_pos hx h
  · subst hx; rw [roundQ_zero]; exact roundQ_nonneg h
  · rcases lt_trichotomy y 0 with hy | hy | hy
    · have := roundQ_mono_pos (x := -y) (y := -x) (by linarith) (by linarith)
      rw [roundQ_neg, roundQ_neg] at this; linarith
    · subst hy; rw [roundQ_zero]
      have := roundQ_nonneg (q := -x) (by linarith)
      rw [roundQ_neg] at this; linarith
    · have h1 := roundQ_nonneg hy.le
      have := roundQ_nonneg (q := -x) (by linarith)
      rw [roundQ_neg] at this; linarith

/-- Scaling by a power of two commutes with rounding away from the subnormal range. -/
theorem roundQ_scale {q : ℚ} (h : 1 / 2 ^ 126 ≤ |q|) (k : ℕ) : roundQ (q * 2 ^ k) = roundQ q * 2 ^ k := by
  have hq0 : q ≠ 0 := by
    rintro rfl; norm_num at h
  have hpk : (0 : ℚ) < 2 ^ k := by positivity
  have hlog : Int.log 2 |q * 2 ^ k| = Int.log 2 |q| + k := by
    have h1 := zpow_log_le hq0
    have h2 := lt_zpow_log q
    have hle : (2 : ℚ) ^ (Int.log 2 |q| + k) ≤ |q * 2 ^ k| := by
      rw [abs_mul, abs_of_pos hpk, zpow_add₀ (by norm_num), zpow_natCast]; gcongr
    have hlt : |q * 2 ^ k| < (2 : ℚ) ^ (Int.log 2 |q| + k + 1) := by
      rw [abs_mul, abs_of_pos hpk, add_right_comm, zpow_add₀ (by norm_num), zpow_natCast]; gcongr
    apply le_antisymm
    · have := (Int.lt_zpow_iff_log_lt (R := ℚ) (b := 2) (by norm_num) (x := Int.log 2 |q| + k + 1) (r := |q * 2 ^ k|) (by positivity)).1 (by exact_mod_cast hlt)
      omega
    · exact (Int.zpow_le_iff_le_log (R := ℚ) (b := 2) (by norm_num) (by positivity)).1 (by exact_mod_cast hle)
  have hlow : -126 ≤ Int.log 2 |q| := by
    refine (Int.zpow_le_iff_le_log (R := ℚ) (b := 2) (by norm_num) (abs_pos.2 hq0)).1 ?_
    refine le_trans (le_of_eq ?_) h
    norm_num
  have hu : ulpExp (q * 2 ^ k) = ulpExp q + k := by
    simp only [ulpExp, hlog]; omega
  have hp := two_zpow_pos (ulpExp q)
  have hz : (2 : ℚ) ^ (ulpExp q + k) = 2 ^ ulpExp q * 2 ^ k := by
    rw [zpow_add₀ (by norm_num), zpow_natCast]
  simp only [roundQ, hu, hz]
  have : q * 2 ^ k / (2 ^ ulpExp q * 2 ^ k) = q / 2 ^ ulpExp q := by field_simp
  rw [this]; ring

theorem roundF32_fin {q : ℚ} (h : |roundQ q| < 2 ^ 128) : roundF32 q = .fin (roundQ q) := by
  simp [roundF32, h]

/-- No overflow below 2^127. -/
theorem roundQ_lt {q : ℚ} (h : |q| ≤ 2 ^ 127) : |roundQ q| < 2 ^ 128 := by
  have e := roundQ_err q
  have : max (|q| / 2 ^ 24) (1 / 2 ^ 150) ≤ 2 ^ 103 := by
    apply max_le
    · rw [div_le_iff₀ (by positivity)]; refine h.trans ?_; norm_num
    · norm_num
  have h3 : |roundQ q| ≤ |roundQ q - q| + |q| := by
    have := abs_add_le (roundQ q - q) q; simpa using this
  have : (2 : ℚ) ^ 103 + 2 ^ 127 < 2 ^ 128 := by norm_num
  linarith

theorem awayInt_err (q : ℚ) : |(F32.awayInt q : ℚ) - q| ≤ 1 / 2 := by
  unfold F32.awayInt
  split
  · have h1 := Int.floor_le (q + 1 / 2)
    have h2 := Int.lt_floor_add_one (q + 1 / 2)
    rw [abs_le]; constructor <;> linarith
  · have h1 := Int.floor_le (-q + 1 / 2)
    have h2 := Int.lt_floor_add_one (-q + 1 / 2)
    push_cast
    rw [abs_le]; constructor <;> linarith

theorem awayInt_mono {x y : ℚ} (h : x ≤ y) : F32.awayInt x ≤ F32.awayInt y := by
  unfold F32.awayInt
  split <;> split
  · exact Int.floor_le_floor (by linarith)
  · exfalso; linarith
  · have h1 : 0 ≤ ⌊-x + 1 / 2⌋ := Int.floor_nonneg.2 (by linarith)
    have h2 : 0 ≤ ⌊y + 1 / 2⌋ := Int.floor_nonneg.2 (by linarith)
    omega
  · have : ⌊-y + 1 / 2⌋ ≤ ⌊-x + 1 / 2⌋ := Int.floor_le_floor (by linarith)
    omega

theorem awayInt_eq {q : ℚ} {n : ℤ} (h : |q - n| < 1 / 2) : F32.awayInt q = n := by
  have h1 := awayInt_err q
  have : |((F32.awayInt q - n : ℤ) : ℚ)| < 1 := by
    push_cast
    have := abs_add_le ((F32.awayInt q : ℚ) - q) (q - n)
    have e : (F32.awayInt q : ℚ) - q + (q - n) = F32.awayInt q - n := by ring
    rw [e] at this; linarith
  have : |F32.awayInt q - n| < 1 := by exact_mod_cast this
  rw [abs_lt] at this; omega

theorem truncInt_int (n : ℤ) : F32.truncInt n = n := by
  unfold F32.truncInt
  split
  · simp
  · have : -(n : ℚ) = ((-n : ℤ) : ℚ) := by push_cast; rfl
    rw [this, Int.floor_intCast]; simp

end Knx
