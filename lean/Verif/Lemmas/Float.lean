import Verif.Model.DpTypes
import Verif.Spec.Dpt9
import Verif.Lemmas.F32
import Verif.Lemmas.Prim

/-! Helper lemmas for the two-byte float codec. -/

namespace Knx

open Spec

/-- Rounding twice is rounding once. -/
theorem roundQ_idem (q : ℚ) : roundQ (roundQ q) = roundQ q := by
  by_cases h0 : q = 0
  · subst h0; rw [roundQ_zero, roundQ_zero]
  have hp := two_zpow_pos (ulpExp q)
  have hlt : |q / 2 ^ ulpExp q| ≤ 2 ^ 24 := by
    rw [abs_div, abs_of_pos hp, div_le_iff₀ hp]
    have h1 := (lt_zpow_log q).le
    have : (2 : ℚ) ^ 24 * 2 ^ ulpExp q = 2 ^ (24 + ulpExp q) := by
      rw [zpow_add₀ (by norm_num)]; norm_num
    rw [this]
    refine h1.trans (zpow_le_zpow_right₀ (by norm_num) ?_)
    simp only [ulpExp]; omega
  rw [abs_le] at hlt
  have hn1 : rne (q / 2 ^ ulpExp q) ≤ 2 ^ 24 := rne_le_of_le (by push_cast; linarith)
  have hn2 : -2 ^ 24 ≤ rne (q / 2 ^ ulpExp q) := le_rne_of_le (by push_cast; linarith)
  have hu : -149 ≤ ulpExp q := by simp only [ulpExp]; omega
  have hr : roundQ q = (rne (q / 2 ^ ulpExp q) : ℚ) * 2 ^ ulpExp q := rfl
  rw [hr]
  generalize rne (q / 2 ^ ulpExp q) = n at hn1 hn2
  by_cases hlt' : |n| < 2 ^ 24
  · exact roundQ_exact hlt' hu
  · have : n = 2 ^ 24 ∨ n = -2 ^ 24 := by
      rw [abs_lt] at hlt'; omega
    rcases this with rfl | rfl
    · have e : (((2 ^ 24 : ℤ)) : ℚ) * 2 ^ ulpExp q = ((2 ^ 23 : ℤ) : ℚ) * 2 ^ (ulpExp q + 1) := by
        rw [zpow_add₀ (by norm_num)]; push_cast; ring
      rw [e]; exact roundQ_exact (by norm_num) (by omega)
    · have e : (((-2 ^ 24 : ℤ)) : ℚ) * 2 ^ ulpExp q = ((-2 ^ 23 : ℤ) : ℚ) * 2 ^ (ulpExp q + 1) := by
        rw [zpow_add₀ (by norm_num)]; push_cast; ring
      rw [e]; exact roundQ_exact (by norm_num) (by omega)

theorem roundQ_half {x : ℚ} (h : roundQ x = x) (hx : 2048 < |x|) : roundQ (x / 2) = x / 2 := by
  have := roundQ_scale (q := x / 2) (by
    rw [abs_div]; norm_num; linarith) 1
  rw [show x / 2 * 2 ^ 1 = x by ring, h] at this
  linarith

theorem roundQ_intCast {n : ℤ} (h : |n| < 2 ^ 24) : roundQ (n : ℚ) = n := by
  have := roundQ_exact (e := 0) h (by norm_num)
  simpa using this

/-! ## The loops -/

theorem addS_one {m : Mode} {j : Nat} (h : j + 1 < 32768) :
    addS m (BitVec.ofNat 16 j : I16) 1 = .ok (BitVec.ofNat 16 (j + 1)) := by
  have h1 : (BitVec.ofNat 16 j : I16).toInt = j := by
    rw [BitVec.toInt_eq_toNat_of_lt] <;> rw [BitVec.toNat_ofNat] <;> omega
  have h2 : (1 : I16).toInt = 1 := by decide
  unfold addS
  rw [if_pos]
  · congr 1
    rw [BitVec.ofNat_add]; rfl
  · rw [h1, h2]; norm_num; omega

/-- The negative loop. -/
theorem halve_neg (m : Mode) (k : ℕ) (x : ℚ) (j fuel : ℕ) (hr : roundQ x = x) (hneg : x < 0) (hb : |x| < 2 ^ 128)
    (hk : NeedsExp x k) (hf : k ≤ fuel) (hj : j + k < 32768) :
    halveWhile m (fun y => y.lt (.fin (-2048))) fuel (.fin x) (BitVec.ofNat 16 j)
      = some (.ok (.fin (x / 2 ^ k), BitVec.ofNat 16 (j + k))) := by
  induction k generalizing x j fuel with
  | zero =>
    have hc : ¬ x < -2048 := by
      have := hk.1; rw [abs_of_neg hneg] at this; norm_num at this; linarith
    cases fuel <;> simp [halveWhile, F32.lt, hc]
  | succ k ih =>
    obtain ⟨hk1, hk2⟩ := hk
    have hx : 2048 * 2 ^ k < |x| := by simpa using hk2
    have hx1 : 2048 < |x| := lt_of_le_of_lt (by
      have : (1 : ℚ) ≤ 2 ^ k := one_le_pow₀ (by norm_num)
      linarith) hx
    have hc : x < -2048 := by rw [abs_of_neg hneg] at hx1; linarith
    obtain ⟨f, rfl⟩ : ∃ f, fuel = f + 1 := ⟨fuel - 1, by omega⟩
    have hh := roundQ_half hr hx1
    have hd : F32.divFin (.fin x) 2 = .fin (x / 2) := by
      have : |roundQ (x / 2)| < 2 ^ 128 := by
        rw [hh, abs_div]; norm_num; norm_num at hb; linarith [abs_nonneg x]
      simp only [F32.divFin]
      rw [roundF32_fin this, hh]
    have ha : |x / 2| = |x| / 2 := by rw [abs_div]; norm_num
    have hcc : F32.lt (.fin x) (.fin (-2048)) = true := by simp [F32.lt, hc]
    simp only [halveWhile, hcc, if_true, addS_one (m := m) (j := j) (by omega), hd]
    rw [ih (x / 2) (j + 1) f hh (by linarith) (by rw [ha]; linarith [abs_nonneg x]) ?_ (by omega) (by omega)]
    · congr 4
      · rw [pow_succ]; field_simp
      · omega
    · refine ⟨?_, ?_⟩
      · rw [ha]; rw [pow_succ] at hk1; linarith
      · cases k with
        | zero => exact .inl rfl
        | succ k =>
          refine .inr ?_
          rw [ha]; simp only [Nat.add_sub_cancel]; rw [pow_succ] at hx; linarith

/-- The positive loop. -/
theorem halve_pos (m : Mode) (k : ℕ) (x : ℚ) (j fuel : ℕ) (hr : roundQ x = x) (hpos : 0 ≤ x) (hb : |x| < 2 ^ 128)
    (hk : NeedsExp x k) (hf : k ≤ fuel) (hj : j + k < 32768) :
    halveWhile m (fun y => F32.lt (.fin 2048) y) fuel (.fin x) (BitVec.ofNat 16 j)
      = some (.ok (.fin (x / 2 ^ k), BitVec.ofNat 16 (j + k))) := by
  induction k generalizing x j fuel with
  | zero =>
    have hc : ¬ 2048 < x := by
      have := hk.1; rw [abs_of_nonneg hpos] at this; norm_num at this; linarith
    cases fuel <;> simp [halveWhile, F32.lt, hc]
  | succ k ih =>
    obtain ⟨hk1, hk2⟩ := hk
    have hx : 2048 * 2 ^ k < |x| := by simpa using hk2
    have hx1 : 2048 < |x| := lt_of_le_of_lt (by
      have : (1 : ℚ) ≤ 2 ^ k := one_le_pow₀ (by norm_num)
      linarith) hx
    have hc : 2048 < x := by rw [abs_of_nonneg hpos] at hx1; linarith
    obtain ⟨f, rfl⟩ : ∃ f, fuel = f + 1 := ⟨fuel - 1, by omega⟩
    have hh := roundQ_half hr hx1
    have hd : F32.divFin (.fin x) 2 = .fin (x / 2) := by
      have : |roundQ (x / 2)| < 2 ^ 128 := by
        rw [hh, abs_div]; norm_num; norm_num at hb; linarith [abs_nonneg x]
      simp only [F32.divFin]
      rw [roundF32_fin this, hh]
    have ha : |x / 2| = |x| / 2 := by rw [abs_div]; norm_num
    have hcc : F32.lt (.fin 2048) (.fin x) = true := by simp [F32.lt, hc]
    simp only [halveWhile, hcc, if_true, addS_one (m := m) (j := j) (by omega), hd]
    rw [ih (x / 2) (j + 1) f hh (by linarith) (by rw [ha]; linarith [abs_nonneg x]) ?_ (by omega) (by omega)]
    · congr 4
      · rw [pow_succ]; field_simp
      · omega
    · refine ⟨?_, ?_⟩
      · rw [ha]; rw [pow_succ] at hk1; linarith
      · cases k with
        | zero => exact .inl rfl
        | succ k =>
          refine .inr ?_
          rw [ha]; simp only [Nat.add_sub_cancel]; rw [pow_succ] at hx; linarith

theorem needsExp_exists {w : ℚ} (h : |w| < 2 ^ 128) : ∃ k ≤ 117, NeedsExp w k := by
  have hex : ∃ k : ℕ, |w| ≤ 2048 * 2 ^ k := ⟨117, by norm_num at h ⊢; linarith⟩
  classical
  refine ⟨Nat.find hex, Nat.find_min' hex (by norm_num at h ⊢; linarith), Nat.find_spec hex, ?_⟩
  by_cases h0 : Nat.find hex = 0
  · exact .inl h0
  · refine .inr ?_
    have := Nat.find_min hex (m := Nat.find hex - 1) (by omega)
    exact not_le.1 this

/-- A skipped loop. -/
theorem halve_skip (m : Mode) (c : F32 → Bool) (fuel : ℕ) (v : F32) (e : I16) (h : c v = false) :
    halveWhile m c fuel v e = some (.ok (v, e)) := by
  cases fuel <;> simp [halveWhile, h]

/-- The encoder on a finite value whose hundredfold does not overflow. -/
theorem floatToBytes_fin (m : Mode) (q : ℚ) (k fuel : ℕ) (hb : |roundQ (q * 100)| < 2 ^ 128)
    (hk : NeedsExp (roundQ (q * 100)) k) (hk' : k ≤ 117) (hf : k ≤ fuel) :
    floatToBytes m fuel (.fin q)
      = some (.ok (floatBytes (.fin (roundQ (q * 100) / 2 ^ k)) (BitVec.ofNat 16 k))) := by
  have hm : F32.mul (.fin q) (.fin 100) = .fin (roundQ (q * 100)) := roundF32_fin hb
  have hi := roundQ_idem (q * 100)
  simp only [floatToBytes, hm]
  generalize roundQ (q * 100) = w at *
  have hp : (0 : ℚ) < 2 ^ k := by positivity
  have h0 : (0 : I16) = BitVec.ofNat 16 0 := rfl
  rw [h0]
  by_cases hneg : w < 0
  · rw [halve_neg m k w 0 fuel hi hneg hb hk hf (by omega)]
    have : ¬ (2048 : ℚ) < w / 2 ^ k := by
      have : w / 2 ^ k < 0 := div_neg_of_neg_of_pos hneg hp
      linarith
    simp only [Nat.zero_add]
    rw [halve_skip]
    simp [F32.lt, this]
  · rw [halve_skip m (fun x => x.lt (.fin (-2048)))]
    · simp only []
      rw [halve_pos m k w 0 fuel hi (not_lt.1 hneg) hb hk hf (by omega)]
      simp
    · have : ¬ w < -2048 := by linarith
      simp [F32.lt, this]

/-! ## The bytes -/

theorem awayInt_bound {y : ℚ} (h : |y| ≤ 2048) : -2048 ≤ F32.awayInt y ∧ F32.awayInt y ≤ 2048 := by
  rw [abs_le] at h
  have h2048 : F32.awayInt ((2048 : ℤ) : ℚ) = 2048 := awayInt_eq (by norm_num)
  have hm2048 : F32.awayInt ((-2048 : ℤ) : ℚ) = -2048 := awayInt_eq (by norm_num)
  constructor
  · rw [← hm2048]; exact awayInt_mono (by push_cast; linarith)
  · rw [← h2048]; exact awayInt_mono (by push_cast; linarith)

theorem floatMsb_spec : ∀ (e : BitVec 7) (y : BitVec 3) (s : Bool),
    let r : U8 := (e.setWidth 8 <<< 3) ||| y.setWidth 8
    let r := if s then r ||| 0x80#8 else r
    r.toNat % 8 = y.toNat ∧ r.toNat / 8 % 16 = e.toNat % 16 ∧
      r.toNat / 128 = (if s ∨ e.toNat / 16 % 2 = 1 then 1 else 0) := by
  decide +kernel

theorem floatMsb_eq (e : BitVec 7) (x : BitVec 11) :
    (((e.setWidth 16 : I16) <<< 3) ||| ((x.setWidth 16 : I16).sshiftRight 8)).setWidth 8
      = ((e.setWidth 8 <<< 3) ||| (x.extractLsb' 8 3).setWidth 8 : U8) := by
  have h : (x.setWidth 16 : I16).sshiftRight 8 = (x.setWidth 16 : I16) >>> 8 := by
    rw [BitVec.sshiftRight_eq_of_msb_false]
    simp [BitVec.msb_setWidth]
  rw [h]
  bits8

theorem floatBytes_spec (y : ℚ) (k : ℕ) (hy : |y| ≤ 2048) (hk : k ≤ 117) :
    ∃ a b : U8, floatBytes (.fin y) (BitVec.ofNat 16 k) = [a, b] ∧
      ((a.toNat % 8 * 256 + b.toNat : ℕ) : ℤ) = F32.awayInt y % 2048 ∧ dptE a = k % 16 ∧
      a.toNat / 128 = (if y < 0 ∨ k / 16 % 2 = 1 then 1 else 0) := by
  obtain ⟨hn1, hn2⟩ := awayInt_bound hy
  have hsat : (F32.fin ((F32.awayInt y : ℤ) : ℚ)).toIntSat (-32768) 32767 = F32.awayInt y := by
    simp only [F32.toIntSat, truncInt_int]; omega
  have hdec : decide (y < 0) = F32.lt (.fin y) (.fin 0) := rfl
  simp only [floatBytes, F32.round, F32.toI16, hsat]
  generalize F32.awayInt y = n at *
  have hmant : (BitVec.ofInt 16 n &&& 0x7ff#16) = ((BitVec.ofInt 16 n).setWidth 11).setWidth 16 := by
    generalize BitVec.ofInt 16 n = x
    bits16
  have hx : ((((BitVec.ofInt 16 n).setWidth 11).toNat : ℕ) : ℤ) = n % 2048 := by
    rw [BitVec.toNat_setWidth, BitVec.toNat_ofInt]
    norm_num
    omega
  have he : (BitVec.ofNat 16 k : I16) = (BitVec.ofNat 7 k).setWidth 16 := by
    apply BitVec.eq_of_toNat_eq
    simp only [BitVec.toNat_ofNat, BitVec.toNat_setWidth]
    omega
  have hek : (BitVec.ofNat 7 k).toNat = k := by
    rw [BitVec.toNat_ofNat]; omega
  generalize (BitVec.ofInt 16 n).setWidth 11 = x at *
  generalize BitVec.ofNat 7 k = e at *
  have hl : (((x.setWidth 16 : I16) &&& 0xff#16).setWidth 8).toNat = x.toNat % 256 := by
    have : ((x.setWidth 16 : I16) &&& 0xff#16).setWidth 8 = x.setWidth 8 := by bits8
    rw [this, BitVec.toNat_setWidth]
  have hy3 : (x.extractLsb' 8 3).toNat = x.toNat / 256 := by
    rw [BitVec.extractLsb'_toNat, Nat.shiftRight_eq_div_pow]
    have := x.isLt
    omega
  have hspec := floatMsb_spec e (x.extractLsb' 8 3) (decide (y < 0))
  simp only [hmant, he, floatMsb_eq, ← hdec]
  refine ⟨_, _, rfl, ?_, ?_, ?_⟩
  · rw [hl]
    rw [hspec.1, hy3, ← hx]
    push_cast; omega
  · rw [← hek]; exact hspec.2.1
  · rw [hspec.2.2, hek]; simp

end Knx
