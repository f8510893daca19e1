import Verif.Model.DpUnused
import Verif.Props.DpFloat
import Mathlib.Tactic.IntervalCases

/-!
# C118: The second encoder for two-byte floats
-/

namespace Knx
open Spec

theorem firstBit_lt (x : U32) : ∃ i < 31, firstBit x = BitVec.ofNat 16 i := by
  unfold firstBit
  split
  · rename_i i h
    have := List.mem_of_find?_eq_some h
    simp only [List.mem_reverse, List.mem_range] at this
    exact ⟨i, this, rfl⟩
  · exact ⟨0, by omega, rfl⟩

theorem after_firstBit : ∀ i < 31, ∀ m : Mode, subS16 m (BitVec.ofNat 16 i) 16 = .ok (BitVec.ofNat 16 i - 16) ∧
    subS16 m (BitVec.ofNat 16 i - 16) 10 = .ok (BitVec.ofNat 16 i - 16 - 10) ∧ subS16 m 31 (BitVec.ofNat 16 i) = .ok (BitVec.ofNat 16 (31 - i)) ∧
    ∀ n : U32, shl32 m n (BitVec.ofNat 16 (31 - i)) = .ok (n <<< (31 - i)) := by
  intro i hi m
  refine ⟨?_, ?_, ?_, fun n => ?_⟩
  · revert i; cases m <;> decide
  · revert i; cases m <;> decide
  · revert i; cases m <;> decide
  · have h : 0 ≤ (BitVec.ofNat 16 (31 - i)).toInt ∧ (BitVec.ofNat 16 (31 - i)).toInt < 32 := by revert i; decide
    have h' : (BitVec.ofNat 16 (31 - i)).toNat = 31 - i := by simp; omega
    simp only [shl32]; rw [if_pos h, h']

/-- The whole number of hundredths of `|v|`, as `f32` arithmetic has it. -/
def hundredths (v : F32) : U32 := (v.abs.mul (.fin 100)).floor.toU32

theorem unused_eq (m : Mode) (v : F32) : ∃ bits : U16, ∃ i < 31, firstBit ((hundredths v <<< 16) ||| bits.setWidth 32) = BitVec.ofNat 16 i ∧
    unusedFloatToBytes m v = .ok (joinFloat (v.lt (.fin 0)) (BitVec.ofNat 16 i - 16 - 10) (hundredths v <<< (31 - i))) := by
  obtain ⟨i, hi, h⟩ := firstBit_lt ((hundredths v <<< 16) ||| (fracBits ((v.abs.mul (.fin 100)).sub (v.abs.mul (.fin 100)).floor)).setWidth 32)
  refine ⟨_, i, hi, h, ?_⟩
  obtain ⟨h1, h2, h3, h4⟩ := after_firstBit i hi m
  simp only [unusedFloatToBytes]
  simp only [hundredths] at h
  rw [h, h1]
  simp only [h2, h3, h4]
  rfl

/-- C118: it always yields two bytes, and never panics. -/
theorem C118_total (m : Mode) (v : F32) : ∃ a b, unusedFloatToBytes m v = .ok [a, b] := by
  obtain ⟨bits, i, -, -, h⟩ := unused_eq m v
  exact ⟨_, _, h⟩

theorem bit_test (x : U32) (i : Nat) (hi : i < 32) : decide (x &&& (1#32 <<< i) > 0) = x.getLsbD i := by
  rw [← BitVec.twoPow_eq, BitVec.and_twoPow]
  have : 0 < BitVec.twoPow 32 i := by
    rw [BitVec.lt_def, BitVec.toNat_twoPow_of_lt hi]
    exact Nat.two_pow_pos i
  cases h : x.getLsbD i
  · simp
  · simpa using this

theorem find_down (p : Nat → Bool) (i : Nat) (hp : p i = true) : ∀ n, i < n → (∀ j, i < j → j < n → p j = false) →
    (List.range n).reverse.find? p = some i := by
  intro n
  induction n with
  | zero => omega
  | succ n ih =>
    intro hi hj
    rw [List.range_succ, List.reverse_append, List.reverse_singleton, List.singleton_append, List.find?_cons]
    by_cases h : i = n
    · subst h; rw [hp]
    · rw [hj n (by omega) (by omega)]
      exact ih (by omega) (fun j h1 h2 => hj j h1 (by omega))

theorem firstBit_eq (n : Nat) (hn : n ≠ 0) (h : n < 32768) (bits : U16) :
    firstBit ((BitVec.ofNat 32 n <<< 16) ||| bits.setWidth 32) = BitVec.ofNat 16 (16 + n.log2) := by
  have hl : n.log2 < 15 := (Nat.log2_lt hn).2 h
  have hb : ∀ i, 16 ≤ i → i < 31 → ((BitVec.ofNat 32 n <<< 16) ||| bits.setWidth 32).getLsbD i = n.testBit (i - 16) := by
    intro i h1 h2
    have h3 : bits.getLsbD i = false := BitVec.getLsbD_of_ge _ _ h1
    have h4 : ¬ i < 16 := by omega
    simp only [BitVec.getLsbD_or, BitVec.getLsbD_shiftLeft, BitVec.getLsbD_ofNat, BitVec.getLsbD_setWidth, h3, h4, Bool.and_false, Bool.or_false]
    simp [show i < 32 by omega, show i - 16 < 32 by omega]
  have hf : (List.range 31).reverse.find? (fun i => decide (((BitVec.ofNat 32 n <<< 16) ||| bits.setWidth 32) &&& (1#32 <<< i) > 0)) =
      some (16 + n.log2) := by
    refine find_down _ _ ?_ _ (by omega) fun j h1 h2 => ?_
    · rw [bit_test _ _ (by omega), hb _ (by omega) (by omega)]
      have := Nat.testBit_log2 hn
      simpa using this
    · rw [bit_test _ _ (by omega), hb _ (by omega) (by omega)]
      refine Nat.testBit_lt_two_pow (Nat.lt_of_lt_of_le Nat.lt_log2_self (Nat.pow_le_pow_right (by omega) (by omega)))
  rw [firstBit, hf]

theorem joinFloat_eq (s : Bool) (e : I16) (x : U32) : joinFloat s e x =
    [((if s then 0x80#8 else 0#8) ||| ((e.setWidth 4).setWidth 8 <<< 3)) ||| (x.extractLsb' 13 3).setWidth 8, x.extractLsb' 5 8] := by
  simp only [joinFloat, be16, List.cons.injEq, and_true]
  constructor
  · cases s <;> bits8
  · cases s <;> bits8

theorem joinMsb_spec : ∀ (e : BitVec 4) (y : BitVec 3) (s : Bool),
    let r : U8 := ((if s then 0x80#8 else 0#8) ||| (e.setWidth 8 <<< 3)) ||| y.setWidth 8
    r.toNat % 8 = y.toNat ∧ r.toNat / 8 % 16 = e.toNat ∧ r.toNat / 128 = s.toNat := by
  decide +kernel

theorem joinFloat_spec (s : Bool) (k n : Nat) (hk : k < 15) (h2 : n < 2 ^ (k + 1)) :
    ∃ a b, joinFloat s (BitVec.ofNat 16 (16 + k) - 16 - 10) (BitVec.ofNat 32 n <<< (31 - (16 + k))) = [a, b] ∧
      a.toNat / 128 = s.toNat ∧ dptE a = (k + 6) % 16 ∧ a.toNat % 8 * 256 + b.toNat = n * 2 ^ (15 - k) / 32 := by
  refine ⟨_, _, joinFloat_eq _ _ _, ?_⟩
  obtain ⟨h3, h4, h5⟩ := joinMsb_spec ((BitVec.ofNat 16 (16 + k) - 16 - 10).setWidth 4) ((BitVec.ofNat 32 n <<< (31 - (16 + k))).extractLsb' 13 3) s
  refine ⟨h5, ?_, ?_⟩
  · rw [dptE, h4]; clear h3 h4 h5 h2; revert k; decide
  · rw [h3, BitVec.extractLsb'_toNat, BitVec.extractLsb'_toNat, BitVec.toNat_shiftLeft, BitVec.toNat_ofNat]
    have : 31 - (16 + k) = 15 - k := by omega
    rw [this, Nat.shiftLeft_eq]
    have : n * 2 ^ (15 - k) < 65536 := by
      calc n * 2 ^ (15 - k) < 2 ^ (k + 1) * 2 ^ (15 - k) := Nat.mul_lt_mul_of_pos_right h2 (Nat.two_pow_pos _)
        _ = 2 ^ 16 := by rw [← Nat.pow_add]; congr 1; omega
    have : n < 65536 := Nat.lt_of_le_of_lt (Nat.le_mul_of_pos_right n (Nat.two_pow_pos (15 - k))) this
    rw [Nat.mod_eq_of_lt (by omega : n < 2 ^ 32), Nat.mod_eq_of_lt (by omega)]
    simp only [Nat.shiftRight_eq_div_pow]
    omega

/-- C118: exactly what comes out, for values whose hundredths are between 1 and 32767: the sign bit, the exponent and the eleven bits of the mantissa. -/
theorem C118_exact (m : Mode) (v : F32) (n : Nat) (h : hundredths v = BitVec.ofNat 32 n) (h0 : n ≠ 0) (h1 : n < 32768) :
    ∃ a b, unusedFloatToBytes m v = .ok [a, b] ∧ a.toNat / 128 = (v.lt (.fin 0)).toNat ∧ dptE a = (n.log2 + 6) % 16 ∧
      a.toNat % 8 * 256 + b.toNat = n * 2 ^ (15 - n.log2) / 32 := by
  obtain ⟨bits, i, hi, h2, h3⟩ := unused_eq m v
  rw [h] at h2 h3
  have hl : n.log2 < 15 := (Nat.log2_lt h0).2 h1
  rw [firstBit_eq n h0 h1] at h2
  have : i = 16 + n.log2 := by
    have := congrArg BitVec.toNat h2
    simp at this
    omega
  subst this
  obtain ⟨a, b, h4, h5⟩ := joinFloat_spec (v.lt (.fin 0)) n.log2 n hl (Nat.lt_log2_self)
  exact ⟨a, b, by rw [h3, h4], h5⟩

theorem hundredths_fin (q : ℚ) (n : Nat) (h0 : (n : ℚ) ≤ roundQ (|q| * 100)) (h1 : roundQ (|q| * 100) < n + 1) (hn : n < 32768) :
    hundredths (.fin q) = BitVec.ofNat 32 n := by
  have hf : ⌊roundQ (|q| * 100)⌋ = (n : ℤ) := Int.floor_eq_iff.2 ⟨by exact_mod_cast h0, by exact_mod_cast h1⟩
  have hb : |roundQ (|q| * 100)| < 2 ^ 128 := by
    rw [abs_of_nonneg (le_trans (by positivity) h0)]
    have h2 : ((n : ℕ) : ℚ) < ((32768 : ℕ) : ℚ) := Nat.cast_lt.2 hn
    have h3 : ((32768 : ℕ) : ℚ) + 1 ≤ 2 ^ 128 := by norm_num
    linarith
  have hr : F32.mul (.fin |q|) (.fin 100) = .fin (roundQ (|q| * 100)) := roundF32_fin hb
  simp only [hundredths, F32.abs, hr, F32.floor, hf, F32.toU32, F32.toIntSat, truncInt_int]
  have : max 0 (min 4294967295 (n : ℤ)) = n := by omega
  rw [this, BitVec.ofInt_natCast]

/-- C118, what does hold: for values between 10.24 and 327.67, the result denotes the value cut to the precision of the format: its hundredths, cut to a
multiple of the power of two that makes them fit. -/
theorem C118_large_partial (m : Mode) (q : ℚ) (n : Nat) (hq : 0 ≤ q) (h0 : (n : ℚ) ≤ roundQ (|q| * 100)) (h1 : roundQ (|q| * 100) < n + 1) (h2 : 1024 ≤ n)
    (h3 : n < 32768) : ∃ a b, unusedFloatToBytes m (.fin q) = .ok [a, b] ∧ dpt9 a b = (n / 2 ^ (n.log2 - 10) * 2 ^ (n.log2 - 10) : ℕ) / 100 := by
  obtain ⟨a, b, g1, g2, g3, g4⟩ := C118_exact m (.fin q) n (hundredths_fin q n h0 h1 h3) (by omega) h3
  refine ⟨a, b, g1, ?_⟩
  have hs : F32.lt (.fin q) (.fin 0) = false := by simp [F32.lt, hq]
  have hl : n.log2 < 15 := (Nat.log2_lt (by omega)).2 h3
  have hl' : 10 ≤ n.log2 := (Nat.le_log2 (by omega)).2 h2
  rw [hs] at g2
  have e1 : dptE a = n.log2 - 10 := by omega
  have e2 : n * 2 ^ (15 - n.log2) / 32 = n / 2 ^ (n.log2 - 10) := by
    generalize n.log2 = k at *
    interval_cases k <;> omega
  rw [dpt9, dptM, e1, g4, e2, g2]
  simp only [Bool.toNat_false, Nat.cast_zero, mul_zero, sub_zero, Int.cast_natCast, Nat.cast_mul, Nat.cast_pow, Nat.cast_ofNat]

/-- C118 is refuted for values below 10.24: the result denotes 65536 times the value. -/
theorem C118_violated_small (m : Mode) (q : ℚ) (n : Nat) (hq : 0 ≤ q) (h0 : (n : ℚ) ≤ roundQ (|q| * 100)) (h1 : roundQ (|q| * 100) < n + 1) (h2 : n ≠ 0)
    (h3 : n < 1024) : ∃ a b, unusedFloatToBytes m (.fin q) = .ok [a, b] ∧ dpt9 a b = 65536 * n / 100 := by
  obtain ⟨a, b, g1, g2, g3, g4⟩ := C118_exact m (.fin q) n (hundredths_fin q n h0 h1 (by omega)) (by omega) (by omega)
  refine ⟨a, b, g1, ?_⟩
  have hs : F32.lt (.fin q) (.fin 0) = false := by simp [F32.lt, hq]
  have hl : n.log2 < 10 := (Nat.log2_lt (by omega)).2 h3
  rw [hs] at g2
  have e1 : dptE a = n.log2 + 6 := by omega
  have e2 : n * 2 ^ (15 - n.log2) / 32 * 2 ^ (n.log2 + 6) = 65536 * n := by
    generalize n.log2 = k at *
    have h4 : n * 2 ^ (15 - k) = n * 2 ^ (10 - k) * 32 := by rw [show 15 - k = 10 - k + 5 by omega, Nat.pow_add, Nat.mul_assoc]
    rw [h4, Nat.mul_div_cancel _ (by omega), Nat.mul_assoc, ← Nat.pow_add, show 10 - k + (k + 6) = 16 by omega, Nat.mul_comm]
  rw [dpt9, dptM, e1, g4, g2]
  have e3 : ((n * 2 ^ (15 - n.log2) / 32 : ℕ) : ℚ) * 2 ^ (n.log2 + 6) = 65536 * n := by exact_mod_cast e2
  simp only [Bool.toNat_false, Nat.cast_zero, mul_zero, sub_zero, Int.cast_natCast]
  rw [e3]

/-- C118 is refuted for negative values: the mantissa is that of the absolute value, not its two's complement. -/
theorem C118_violated_negative (m : Mode) (q : ℚ) (n : Nat) (hq : q < 0) (h0 : (n : ℚ) ≤ roundQ (|q| * 100)) (h1 : roundQ (|q| * 100) < n + 1)
    (h2 : n ≠ 0) (h3 : n < 32768) : ∃ a b, unusedFloatToBytes m (.fin q) = .ok [a, b] ∧ dptM a b = (n * 2 ^ (15 - n.log2) / 32 : ℕ) - 2048 := by
  obtain ⟨a, b, g1, g2, g3, g4⟩ := C118_exact m (.fin q) n (hundredths_fin q n h0 h1 h3) h2 h3
  refine ⟨a, b, g1, ?_⟩
  have hs : F32.lt (.fin q) (.fin 0) = true := by simp [F32.lt, hq]
  rw [hs] at g2
  rw [dptM, g4, g2]
  simp

theorem hundredfold_of {q : ℚ} {n : Nat} (h : |q| * 100 = n) (hn : n < 32768) : roundQ (|q| * 100) = n := by
  rw [h]
  have := roundQ_intCast (n := (n : ℤ)) (by rw [abs_of_nonneg (by omega)]; omega)
  exact_mod_cast this

/-- 20 is encoded right, 1 becomes 65536, and -1 gets the mantissa -448 (of 1600 - 2048). -/
example (m : Mode) : (∃ a b, unusedFloatToBytes m (.fin 20) = .ok [a, b] ∧ dpt9 a b = 20) ∧
    (∃ a b, unusedFloatToBytes m (.fin 1) = .ok [a, b] ∧ dpt9 a b = 65536) ∧
    ∃ a b, unusedFloatToBytes m (.fin (-1)) = .ok [a, b] ∧ dptM a b = -448 := by
  refine ⟨?_, ?_, ?_⟩
  · have e := hundredfold_of (q := 20) (n := 2000) (by norm_num) (by omega)
    obtain ⟨a, b, h1, h2⟩ := C118_large_partial m 20 2000 (by norm_num) (by rw [e]) (by rw [e]; norm_num) (by omega) (by omega)
    exact ⟨a, b, h1, by rw [h2, show Nat.log2 2000 = 10 by decide +kernel]; norm_num⟩
  · have e := hundredfold_of (q := 1) (n := 100) (by norm_num) (by omega)
    obtain ⟨a, b, h1, h2⟩ := C118_violated_small m 1 100 (by norm_num) (by rw [e]) (by rw [e]; norm_num) (by omega) (by omega)
    exact ⟨a, b, h1, by rw [h2]; norm_num⟩
  · have e := hundredfold_of (q := -1) (n := 100) (by norm_num) (by omega)
    obtain ⟨a, b, h1, h2⟩ := C118_violated_negative m (-1) 100 (by norm_num) (by rw [e]) (by rw [e]; norm_num) (by omega) (by omega)
    exact ⟨a, b, h1, by rw [h2, show Nat.log2 100 = 6 by decide +kernel]; norm_num⟩

/-! ## Values from 327.68 on -/

theorem find_congr {p q : Nat → Bool} : ∀ {l : List Nat}, (∀ i ∈ l, p i = q i) → l.find? p = l.find? q
  | [], _ => rfl
  | a :: l, h => by
    rw [List.find?_cons, List.find?_cons, h a (by simp), find_congr fun i hi => h i (by simp [hi])]

theorem firstBit_wraps (n : Nat) (bits : U16) (h0 : n % 32768 ≠ 0) :
    firstBit ((BitVec.ofNat 32 n <<< 16) ||| bits.setWidth 32) = BitVec.ofNat 16 (16 + (n % 32768).log2) := by
  rw [← firstBit_eq (n % 32768) h0 (Nat.mod_lt _ (by omega)) bits]
  have hb : ∀ i < 31, decide (((BitVec.ofNat 32 n <<< 16) ||| bits.setWidth 32) &&& (1#32 <<< i) > 0) =
      decide (((BitVec.ofNat 32 (n % 32768) <<< 16) ||| bits.setWidth 32) &&& (1#32 <<< i) > 0) := by
    intro i hi
    have key : (BitVec.ofNat 32 n <<< 16).getLsbD i = (BitVec.ofNat 32 (n % 32768) <<< 16).getLsbD i := by
      rw [BitVec.getLsbD_shiftLeft, BitVec.getLsbD_shiftLeft, BitVec.getLsbD_ofNat, BitVec.getLsbD_ofNat]
      have : (n % 32768).testBit (i - 16) = n.testBit (i - 16) := by
        rw [show (32768 : Nat) = 2 ^ 15 from rfl, Nat.testBit_mod_two_pow]
        simp [show i - 16 < 15 by omega]
      rw [this]
    rw [bit_test _ _ (by omega), bit_test _ _ (by omega), BitVec.getLsbD_or, BitVec.getLsbD_or, key]
  unfold firstBit
  have hf : (List.range 31).reverse.find? (fun i => decide (((BitVec.ofNat 32 n <<< 16) ||| bits.setWidth 32) &&& (1#32 <<< i) > 0)) =
      (List.range 31).reverse.find? (fun i => decide (((BitVec.ofNat 32 (n % 32768) <<< 16) ||| bits.setWidth 32) &&& (1#32 <<< i) > 0)) := by
    refine find_congr ?_
    intro i hi
    exact hb i (by simpa using hi)
  rw [hf]

theorem joinFloat_wraps (s : Bool) (k n : Nat) (hk : k < 15) (h2 : n % 32768 < 2 ^ (k + 1)) :
    ∃ a b, joinFloat s (BitVec.ofNat 16 (16 + k) - 16 - 10) (BitVec.ofNat 32 n <<< (31 - (16 + k))) = [a, b] ∧
      a.toNat / 128 = s.toNat ∧ dptE a = (k + 6) % 16 ∧ a.toNat % 8 * 256 + b.toNat = n % 32768 * 2 ^ (15 - k) / 32 := by
  obtain ⟨a, b, h, r⟩ := joinFloat_spec s k (n % 32768) hk h2
  refine ⟨a, b, ?_, r⟩
  rw [← h, joinFloat_eq, joinFloat_eq]
  have e : ∀ i < 16, (BitVec.ofNat 32 n <<< (31 - (16 + k))).getLsbD i = (BitVec.ofNat 32 (n % 32768) <<< (31 - (16 + k))).getLsbD i := by
    intro i hi
    rw [BitVec.getLsbD_shiftLeft, BitVec.getLsbD_shiftLeft, BitVec.getLsbD_ofNat, BitVec.getLsbD_ofNat]
    have : (n % 32768).testBit (i - (31 - (16 + k))) = n.testBit (i - (31 - (16 + k))) := by
      rw [show (32768 : Nat) = 2 ^ 15 from rfl, Nat.testBit_mod_two_pow]
      simp [show i - (31 - (16 + k)) < 15 by omega]
    rw [this]
  have e1 : (BitVec.ofNat 32 n <<< (31 - (16 + k))).extractLsb' 13 3 = (BitVec.ofNat 32 (n % 32768) <<< (31 - (16 + k))).extractLsb' 13 3 := by
    apply BitVec.eq_of_getLsbD_eq
    intro i hi
    rw [BitVec.getLsbD_extractLsb', BitVec.getLsbD_extractLsb', e _ (by omega)]
  have e2 : (BitVec.ofNat 32 n <<< (31 - (16 + k))).extractLsb' 5 8 = (BitVec.ofNat 32 (n % 32768) <<< (31 - (16 + k))).extractLsb' 5 8 := by
    apply BitVec.eq_of_getLsbD_eq
    intro i hi
    rw [BitVec.getLsbD_extractLsb', BitVec.getLsbD_extractLsb', e _ (by omega)]
  rw [e1, e2]

/-- C118, exactly, for values of any size: of the hundredths only the last fifteen bits count. -/
theorem C118_wraps (m : Mode) (v : F32) (n : Nat) (h : hundredths v = BitVec.ofNat 32 n) (h0 : n % 32768 ≠ 0) :
    ∃ a b, unusedFloatToBytes m v = .ok [a, b] ∧ a.toNat / 128 = (v.lt (.fin 0)).toNat ∧ dptE a = ((n % 32768).log2 + 6) % 16 ∧
      a.toNat % 8 * 256 + b.toNat = n % 32768 * 2 ^ (15 - (n % 32768).log2) / 32 := by
  obtain ⟨bits, i, hi, h2, h3⟩ := unused_eq m v
  rw [h] at h2 h3
  have hl : (n % 32768).log2 < 15 := (Nat.log2_lt h0).2 (Nat.mod_lt _ (by omega))
  rw [firstBit_wraps n bits h0] at h2
  have : i = 16 + (n % 32768).log2 := by
    have := congrArg BitVec.toNat h2
    simp at this
    omega
  subst this
  obtain ⟨a, b, h4, h5⟩ := joinFloat_wraps (v.lt (.fin 0)) (n % 32768).log2 n hl (Nat.lt_log2_self)
  exact ⟨a, b, by rw [h3, h4], h5⟩

theorem hundredths_large (q : ℚ) (n : Nat) (h0 : (n : ℚ) ≤ roundQ (|q| * 100)) (h1 : roundQ (|q| * 100) < n + 1) (hn : n < 2 ^ 32) :
    hundredths (.fin q) = BitVec.ofNat 32 n := by
  have hf : ⌊roundQ (|q| * 100)⌋ = (n : ℤ) := Int.floor_eq_iff.2 ⟨by exact_mod_cast h0, by exact_mod_cast h1⟩
  have hb : |roundQ (|q| * 100)| < 2 ^ 128 := by
    rw [abs_of_nonneg (le_trans (by positivity) h0)]
    have h2 : ((n : ℕ) : ℚ) < ((2 ^ 32 : ℕ) : ℚ) := Nat.cast_lt.2 hn
    have h3 : ((2 ^ 32 : ℕ) : ℚ) + 1 ≤ 2 ^ 128 := by norm_num
    linarith
  have hr : F32.mul (.fin |q|) (.fin 100) = .fin (roundQ (|q| * 100)) := roundF32_fin hb
  simp only [hundredths, F32.abs, hr, F32.floor, hf, F32.toU32, F32.toIntSat, truncInt_int]
  have : max 0 (min 4294967295 (n : ℤ)) = n := by omega
  rw [this, BitVec.ofInt_natCast]

/-- C118 is refuted for values from 327.68 on: the result denotes less than 327.68, namely the value less a multiple of 327.68, cut. -/
theorem C118_violated_large (m : Mode) (q : ℚ) (n : Nat) (hq : 0 ≤ q) (h0 : (n : ℚ) ≤ roundQ (|q| * 100)) (h1 : roundQ (|q| * 100) < n + 1)
    (h2 : 1024 ≤ n % 32768) (h3 : n < 2 ^ 32) : ∃ a b, unusedFloatToBytes m (.fin q) = .ok [a, b] ∧
      dpt9 a b = (n % 32768 / 2 ^ ((n % 32768).log2 - 10) * 2 ^ ((n % 32768).log2 - 10) : ℕ) / 100 ∧ dpt9 a b < 327.68 := by
  obtain ⟨a, b, g1, g2, g3, g4⟩ := C118_wraps m (.fin q) n (hundredths_large q n h0 h1 h3) (by omega)
  have hm : n % 32768 < 32768 := Nat.mod_lt _ (by omega)
  generalize n % 32768 = n' at h2 g3 g4 hm
  have hs : F32.lt (.fin q) (.fin 0) = false := by simp [F32.lt, hq]
  have hl : n'.log2 < 15 := (Nat.log2_lt (by omega)).2 hm
  have hl' : 10 ≤ n'.log2 := (Nat.le_log2 (by omega)).2 h2
  rw [hs] at g2
  have e1 : dptE a = n'.log2 - 10 := by omega
  have e2 : n' * 2 ^ (15 - n'.log2) / 32 = n' / 2 ^ (n'.log2 - 10) := by
    generalize n'.log2 = k at *
    interval_cases k <;> omega
  have e3 : dpt9 a b = (n' / 2 ^ (n'.log2 - 10) * 2 ^ (n'.log2 - 10) : ℕ) / 100 := by
    rw [dpt9, dptM, e1, g4, e2, g2]
    simp only [Bool.toNat_false, Nat.cast_zero, mul_zero, sub_zero, Int.cast_natCast, Nat.cast_mul, Nat.cast_pow, Nat.cast_ofNat]
  refine ⟨a, b, g1, e3, ?_⟩
  rw [e3]
  have : n' / 2 ^ (n'.log2 - 10) * 2 ^ (n'.log2 - 10) < 32768 := Nat.lt_of_le_of_lt (Nat.div_mul_le_self _ _) hm
  have : ((n' / 2 ^ (n'.log2 - 10) * 2 ^ (n'.log2 - 10) : ℕ) : ℚ) < ((32768 : ℕ) : ℚ) := Nat.cast_lt.2 this
  push_cast at this ⊢
  linarith

/-- 347.68 becomes 20. -/
example (m : Mode) (n : Nat) (h : n = 34768) (v : F32) (hv : hundredths v = BitVec.ofNat 32 n) (hs : v.lt (.fin 0) = false) :
    ∃ a b, unusedFloatToBytes m v = .ok [a, b] ∧ dpt9 a b = 20 := by
  subst h
  obtain ⟨a, b, g1, g2, g3, g4⟩ := C118_wraps m v 34768 hv (by decide)
  rw [show Nat.log2 (34768 % 32768) = 10 by decide +kernel] at g3 g4
  refine ⟨a, b, g1, ?_⟩
  rw [hs] at g2
  rw [dpt9, dptM, g3, g4, g2]
  norm_num

/-! ## Values below 0.01 -/

/-- Twice a rounded number needs no rounding. -/
theorem roundQ_double (q : ℚ) : roundQ (roundQ q * 2) = roundQ q * 2 := by
  by_cases h0 : q = 0
  · subst h0; rw [roundQ_zero, zero_mul, roundQ_zero]
  have hp := two_zpow_pos (ulpExp q)
  have hlt : |q / 2 ^ ulpExp q| ≤ 2 ^ 24 := by
    rw [abs_div, abs_of_pos hp, div_le_iff₀ hp]
    have h1 := (lt_zpow_log q).le
    have : (2 : ℚ) ^ 24 * 2 ^ ulpExp q = 2 ^ (24 + ulpExp q) := by
      rw [zpow_add₀ (by norm_num)]; norm_num
    rw [this]
    refine h1.trans (zpow_le_zpow_right₀ (by norm_num) ?_)
    simp only [ulpExp]; omega
  rw [abs_le] at hlt
  have hn1 : rne (q / 2 ^ ulpExp q) ≤ 2 ^ 24 := rne_le_of_le (by push_cast; linarith)
  have hn2 : -2 ^ 24 ≤ rne (q / 2 ^ ulpExp q) := le_rne_of_le (by push_cast; linarith)
  have hu : -149 ≤ ulpExp q := by simp only [ulpExp]; omega
  have hr : roundQ q = (rne (q / 2 ^ ulpExp q) : ℚ) * 2 ^ ulpExp q := rfl
  rw [hr]
  generalize rne (q / 2 ^ ulpExp q) = n at hn1 hn2
  by_cases hlt' : |n| < 2 ^ 24
  · have e : (n : ℚ) * 2 ^ ulpExp q * 2 = (n : ℚ) * 2 ^ (ulpExp q + 1) := by
      rw [zpow_add₀ (by norm_num)]; ring
    rw [e]; exact roundQ_exact hlt' (by omega)
  · have : n = 2 ^ 24 ∨ n = -2 ^ 24 := by
      rw [abs_lt] at hlt'; omega
    rcases this with rfl | rfl
    · have e : (((2 ^ 24 : ℤ)) : ℚ) * 2 ^ ulpExp q * 2 = ((2 ^ 23 : ℤ) : ℚ) * 2 ^ (ulpExp q + 2) := by
        rw [zpow_add₀ (by norm_num)]; push_cast; ring
      rw [e]; exact roundQ_exact (by norm_num) (by omega)
    · have e : (((-2 ^ 24 : ℤ)) : ℚ) * 2 ^ ulpExp q * 2 = ((-2 ^ 23 : ℤ) : ℚ) * 2 ^ (ulpExp q + 2) := by
        rw [zpow_add₀ (by norm_num)]; push_cast; ring
      rw [e]; exact roundQ_exact (by norm_num) (by omega)

theorem mul_two {x : ℚ} (hx : roundQ x = x) (h0 : 0 ≤ x) (h1 : x < 1) : F32.mul (.fin x) (.fin 2) = .fin (x * 2) := by
  have hd : roundQ (x * 2) = x * 2 := by
    have := roundQ_double x
    rwa [hx] at this
  have : |roundQ (x * 2)| < 2 ^ 128 := by
    rw [hd, abs_of_nonneg (by linarith)]
    have : (2 : ℚ) ≤ 2 ^ 128 := by norm_num
    linarith
  rw [F32.mul, roundF32_fin this, hd]

theorem ge_one (x : ℚ) : F32.ge (.fin x) (.fin 1) = decide (1 ≤ x) := by
  simp only [F32.ge, F32.lt]
  rw [Bool.eq_iff_iff]
  simp only [Bool.or_eq_true, decide_eq_true_eq]
  constructor
  · rintro (h | h) <;> linarith
  · intro h
    rcases lt_or_eq_of_le h with h | h
    · exact .inl h
    · exact .inr h.symm

/-- As long as no binary place is set. -/
theorem frac_before {r : ℚ} (hr : roundQ r = r) (h0 : 0 ≤ r) : ∀ j, r * 2 ^ j < 1 →
    (List.range j).foldl fracStep (.fin r, 0) = (.fin (r * 2 ^ j), 0) ∧ roundQ (r * 2 ^ j) = r * 2 ^ j := by
  intro j
  induction j with
  | zero => intro _; simp [hr]
  | succ j ih =>
    intro h
    have hp : (0 : ℚ) < 2 ^ j := by positivity
    have e : r * 2 ^ (j + 1) = r * 2 ^ j * 2 := by ring
    rw [e] at h ⊢
    have hn : 0 ≤ r * 2 ^ j := by positivity
    obtain ⟨h1, h2⟩ := ih (by linarith)
    have h3 := mul_two h2 hn (by linarith)
    have h4 : ¬ 1 ≤ r * 2 ^ j * 2 := by linarith
    refine ⟨?_, ?_⟩
    · rw [List.range_succ, List.foldl_append, h1]
      simp only [List.foldl_cons, List.foldl_nil, fracStep, h3, ge_one, h4, decide_false, Bool.false_eq_true, if_false]
    · have := roundQ_double (r * 2 ^ j)
      rwa [h2] at this

/-- The first binary place set is the `k`-th. -/
theorem frac_after {r : ℚ} (hr : roundQ r = r) (h0 : 0 ≤ r) {k : Nat} (h1 : r * 2 ^ k < 1) (h2 : 1 ≤ r * 2 ^ (k + 1)) (hk : k < 11) :
    ∀ n, k < n → n ≤ 11 → ((List.range n).foldl fracStep (.fin r, 0)).2.getLsbD (15 - k) = true ∧
      ∀ j, 15 - k < j → ((List.range n).foldl fracStep (.fin r, 0)).2.getLsbD j = false := by
  intro n
  induction n with
  | zero => intro h; omega
  | succ n ih =>
    intro hn hn'
    rw [List.range_succ, List.foldl_append, List.foldl_cons, List.foldl_nil]
    by_cases h : k = n
    · subst h
      obtain ⟨e1, e2⟩ := frac_before hr h0 k h1
      rw [e1]
      have e3 := mul_two e2 (by positivity) h1
      have e4 : 1 ≤ r * 2 ^ k * 2 := by
        have : r * 2 ^ (k + 1) = r * 2 ^ k * 2 := by ring
        linarith
      simp only [fracStep, e3, ge_one, e4, decide_true, if_true]
      clear ih e1 e2 e3 e4 h1 h2 hr h0 hn hn'
      constructor
      · revert k; decide
      · intro j hj
        by_cases hj' : j < 16
        · exact (by decide : ∀ k < 11, ∀ j < 16, 15 - k < j → BitVec.getLsbD (0#16 ||| 1#16 <<< (15 - k)) j = false) k hk j hj' hj
        · exact BitVec.getLsbD_of_ge _ _ (by omega)
    · obtain ⟨a1, a2⟩ := ih (by omega) (by omega)
      generalize (List.range n).foldl fracStep (.fin r, 0) = s at a1 a2
      have hb : ∀ j, 15 - k ≤ j → (1#16 <<< (15 - n)).getLsbD j = false := by
        intro j hj
        by_cases hj' : j < 16
        · simp only [BitVec.getLsbD_shiftLeft, BitVec.getLsbD_one]
          simp
          omega
        · exact BitVec.getLsbD_of_ge _ _ (by omega)
      have hs : (fracStep s n).2 = s.2 ||| (1#16 <<< (15 - n)) ∨ (fracStep s n).2 = s.2 := by
        simp only [fracStep]
        split
        · exact .inl rfl
        · exact .inr rfl
      rcases hs with hs | hs
      · rw [hs]
        refine ⟨by rw [BitVec.getLsbD_or, a1, Bool.true_or], fun j hj => ?_⟩
        rw [BitVec.getLsbD_or, a2 j hj, hb j (by omega), Bool.or_false]
      · rw [hs]
        exact ⟨a1, a2⟩

theorem firstBit_frac (bits : U16) (i : Nat) (hi : i < 16) (h : bits.getLsbD i = true) (h' : ∀ j, i < j → bits.getLsbD j = false) :
    firstBit ((0#32 <<< 16) ||| bits.setWidth 32) = BitVec.ofNat 16 i := by
  have hb : ∀ j, j < 31 → ((0#32 <<< 16) ||| bits.setWidth 32).getLsbD j = bits.getLsbD j := by
    intro j hj
    simp [show j < 32 by omega]
  rw [firstBit, find_down _ i ?_ _ (by omega) fun j h1 h2 => ?_]
  · rw [bit_test _ _ (by omega), hb _ (by omega), h]
  · rw [bit_test _ _ (by omega), hb _ h2, h' j h1]

theorem join_zero : ∀ i < 16, ∀ s : Bool, ∃ a b, joinFloat s (BitVec.ofNat 16 i - 16 - 10) (0#32 <<< (31 - i)) = [a, b] ∧
    dptM a b = (if s then -2048 else 0) ∧ dptE a = (i + 6) % 16 := by
  intro i hi s
  refine ⟨_, _, joinFloat_eq _ _ _, ?_⟩
  revert i s
  decide +kernel

/-- What comes out for a value below 0.01. -/
theorem unused_tiny (m : Mode) (q : ℚ) (h1 : roundQ (|q| * 100) < 1) {i : Nat} (hi : i < 16)
    (hf : firstBit ((0#32 <<< 16) ||| (fracBits (.fin (roundQ (|q| * 100)))).setWidth 32) = BitVec.ofNat 16 i) :
    ∃ a b, unusedFloatToBytes m (.fin q) = .ok [a, b] ∧ dptM a b = (if q < 0 then -2048 else 0) ∧ dptE a = (i + 6) % 16 := by
  have h0 : 0 ≤ roundQ (|q| * 100) := roundQ_nonneg (by positivity)
  have hh : hundredths (.fin q) = 0#32 := hundredths_fin q 0 (by simpa using h0) (by simpa using h1) (by omega)
  have hb : |roundQ (|q| * 100)| < 2 ^ 128 := by
    rw [abs_of_nonneg h0]
    have : (1 : ℚ) ≤ 2 ^ 128 := by norm_num
    linarith
  have hr : F32.mul (.fin |q|) (.fin 100) = .fin (roundQ (|q| * 100)) := roundF32_fin hb
  have hfl : ⌊roundQ (|q| * 100)⌋ = 0 := Int.floor_eq_iff.2 ⟨by simpa using h0, by simpa using h1⟩
  have hsub : F32.sub (.fin (roundQ (|q| * 100))) (.fin (((0 : ℤ)) : ℚ)) = .fin (roundQ (|q| * 100)) := by
    simp only [F32.sub, F32.add, Int.cast_zero, neg_zero, add_zero]
    rw [roundF32_fin (by rw [roundQ_idem]; exact hb), roundQ_idem]
  obtain ⟨g1, g2, g3, g4⟩ := after_firstBit i (by omega) m
  have hs : F32.lt (.fin q) (.fin 0) = decide (q < 0) := rfl
  obtain ⟨a, b, j1, j2, j3⟩ := join_zero i hi (decide (q < 0))
  refine ⟨a, b, ?_, by simpa using j2, j3⟩
  have hh' : (F32.floor (.fin (roundQ (|q| * 100)))).toU32 = 0#32 := by
    rw [← hh, hundredths, F32.abs, hr]
  simp only [unusedFloatToBytes, F32.abs, hr, hh']
  simp only [F32.floor, hfl, hsub, hf, g1, g2, g3, g4, hs, j1]

/-- C118 for values below 0.01, exactly: the mantissa is 0, or -2048 for a negative value, and the exponent is taken from the first binary
place set among the first eleven of the hundredths. -/
theorem C118_tiny (m : Mode) (q : ℚ) (k : Nat) (hk : k < 11) (h0 : 1 ≤ roundQ (|q| * 100) * 2 ^ (k + 1)) (h1 : roundQ (|q| * 100) * 2 ^ k < 1) :
    ∃ a b, unusedFloatToBytes m (.fin q) = .ok [a, b] ∧ dptM a b = (if q < 0 then -2048 else 0) ∧ dptE a = (21 - k) % 16 := by
  have hn : 0 ≤ roundQ (|q| * 100) := roundQ_nonneg (by positivity)
  have hp : (1 : ℚ) ≤ 2 ^ k := one_le_pow₀ (by norm_num)
  have hlt : roundQ (|q| * 100) < 1 := lt_of_le_of_lt (le_mul_of_one_le_right hn hp) h1
  obtain ⟨b1, b2⟩ := frac_after (roundQ_idem _) hn h1 h0 hk 11 hk (Nat.le_refl _)
  have hf := firstBit_frac (fracBits (.fin (roundQ (|q| * 100)))) (15 - k) (by omega) b1 b2
  obtain ⟨a, b, g1, g2, g3⟩ := unused_tiny m q hlt (i := 15 - k) (by omega) hf
  exact ⟨a, b, g1, g2, by rw [g3]; congr 1; omega⟩

/-- C118 for values whose hundredths have none of these places set: the exponent is 6. -/
theorem C118_nothing (m : Mode) (q : ℚ) (h : roundQ (|q| * 100) * 2 ^ 11 < 1) :
    ∃ a b, unusedFloatToBytes m (.fin q) = .ok [a, b] ∧ dptM a b = (if q < 0 then -2048 else 0) ∧ dptE a = 6 := by
  have hn : 0 ≤ roundQ (|q| * 100) := roundQ_nonneg (by positivity)
  have hlt : roundQ (|q| * 100) < 1 := lt_of_le_of_lt (le_mul_of_one_le_right hn (by norm_num)) h
  have hf : fracBits (.fin (roundQ (|q| * 100))) = 0 := by
    rw [fracBits, (frac_before (roundQ_idem _) hn 11 h).1]
  obtain ⟨a, b, g1, g2, g3⟩ := unused_tiny m q hlt (i := 0) (by omega) (by rw [hf]; decide +kernel)
  exact ⟨a, b, g1, g2, g3⟩

/-- C118 is refuted for negative values between -0.01 and 0: they become -20.48 or less. -/
theorem C118_violated_tiny (m : Mode) (q : ℚ) (hq : q < 0) (h : roundQ (|q| * 100) < 1) :
    ∃ a b, unusedFloatToBytes m (.fin q) = .ok [a, b] ∧ dpt9 a b ≤ -2048 / 100 := by
  have key : ∀ {a b : U8}, dptM a b = (if q < 0 then -2048 else 0) → dpt9 a b ≤ -2048 / 100 := by
    intro a b hm
    rw [if_pos hq] at hm
    rw [dpt9, hm]
    have : (1 : ℚ) ≤ 2 ^ dptE a := one_le_pow₀ (by norm_num)
    push_cast
    linarith
  have hn : 0 ≤ roundQ (|q| * 100) := roundQ_nonneg (by positivity)
  by_cases hz : roundQ (|q| * 100) * 2 ^ 11 < 1
  · obtain ⟨a, b, g1, g2, _⟩ := C118_nothing m q hz
    exact ⟨a, b, g1, key g2⟩
  · have : ∃ k < 11, 1 ≤ roundQ (|q| * 100) * 2 ^ (k + 1) ∧ roundQ (|q| * 100) * 2 ^ k < 1 := by
      by_contra hc
      have all : ∀ k ≤ 11, roundQ (|q| * 100) * 2 ^ k < 1 := by
        intro k
        induction k with
        | zero => intro _; simpa using h
        | succ k ih =>
          intro hk
          by_contra h'
          exact hc ⟨k, by omega, not_lt.mp h', ih (by omega)⟩
      exact hz (all 11 (Nat.le_refl _))
    obtain ⟨k, hk, a1, a2⟩ := this
    obtain ⟨a, b, g1, g2, _⟩ := C118_tiny m q k hk a1 a2
    exact ⟨a, b, g1, key g2⟩

/-- -1/12800 is one of these values. -/
example : (-1 / 12800 : ℚ) < 0 ∧ roundQ (|(-1 / 12800 : ℚ)| * 100) = 1 / 128 := by
  refine ⟨by norm_num, ?_⟩
  have e : |(-1 / 12800 : ℚ)| * 100 = ((1 : ℤ) : ℚ) * 2 ^ (-7 : ℤ) := by
    rw [abs_of_neg (by norm_num)]; norm_num
  rw [e, roundQ_exact (by norm_num) (by norm_num)]
  norm_num

end Knx
