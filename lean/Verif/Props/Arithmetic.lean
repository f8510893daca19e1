import Verif.Props.DpMore

/-!
# C36: the arithmetic the encoders and decoders of floats are computed with
-/

namespace Knx

/-- C36: the arithmetic the encoder is computed with rounds as IEEE 754 prescribes: to the nearest integer multiple of the last place, and to the even
one if two are equally near. -/
theorem C36_rounding (x : ℚ) : |(rne x : ℚ) - x| ≤ 1 / 2 ∧ (|(rne x : ℚ) - x| = 1 / 2 → rne x % 2 = 0) := by
  have h1 := Int.floor_le x
  have h2 := Int.lt_floor_add_one x
  unfold rne
  split
  · rename_i h
    have e : |((⌊x⌋ : ℤ) : ℚ) - x| = x - ⌊x⌋ := by rw [abs_sub_comm, abs_of_nonneg (by linarith)]
    rw [e]
    exact ⟨h.le, fun h' => absurd h' h.ne⟩
  split
  · rename_i h' h
    have e : |((⌊x⌋ + 1 : ℤ) : ℚ) - x| = ⌊x⌋ + 1 - x := by push_cast; rw [abs_of_nonneg (by linarith)]
    rw [e]
    exact ⟨by linarith, fun h' => by linarith⟩
  have h3 : x - ⌊x⌋ = 1 / 2 := by rename_i a b; exact le_antisymm (not_lt.1 b) (not_lt.1 a)
  split
  · rename_i h
    have e : |((⌊x⌋ : ℤ) : ℚ) - x| = x - ⌊x⌋ := by rw [abs_sub_comm, abs_of_nonneg (by linarith)]
    rw [e, h3]
    exact ⟨le_refl _, fun _ => h⟩
  · rename_i h
    have e : |((⌊x⌋ + 1 : ℤ) : ℚ) - x| = ⌊x⌋ + 1 - x := by push_cast; rw [abs_of_nonneg (by linarith)]
    rw [e]
    exact ⟨by linarith, fun _ => by omega⟩


/-- C36: the other operations of the arithmetic obey the laws of IEEE 754, special values included: sums and products commute, `x + x = 2 x`,
`∞ - ∞` and `0 · ∞` are not numbers, dividing is multiplying by the inverse, and `<` is a strict order of all values except NaN,
total on them, with the infinities at its ends. -/
theorem C36_arithmetic :
    (∀ a b : F32, a.mul b = b.mul a ∧ a.add b = b.add a) ∧
    (∀ a : F32, a.add a = F32.mul (.fin 2) a ∧ a.add .nan = .nan ∧ a.mul .nan = .nan ∧ a.lt .nan = false ∧ F32.nan.lt a = false) ∧
    (∀ s, F32.add (.inf s) (.inf (!s)) = .nan ∧ F32.mul (.inf s) (.fin 0) = .nan ∧ (∀ q, F32.add (.inf s) (.fin q) = .inf s) ∧
      (∀ q, 0 < q → F32.mul (.inf s) (.fin q) = .inf s) ∧ (∀ q, q < 0 → F32.mul (.inf s) (.fin q) = .inf (!s)) ∧
      F32.mul (.inf s) (.inf s) = .inf false ∧ F32.mul (.inf s) (.inf (!s)) = .inf true) ∧
    (∀ (a : F32) (q : ℚ), q ≠ 0 → a.divFin q = a.mul (.fin q⁻¹)) ∧
    (∀ a b : F32, a.lt b = true → b.lt a = false) ∧
    (∀ a b c : F32, a.lt b = true → b.lt c = true → a.lt c = true) ∧
    (∀ a b : F32, a ≠ .nan → b ≠ .nan → a.lt b = true ∨ a = b ∨ b.lt a = true) ∧
    (∀ q, F32.lt (.inf true) (.fin q) = true ∧ F32.lt (.fin q) (.inf false) = true) ∧ F32.lt (.inf true) (.inf false) = true ∧
    ∀ p q : ℚ, F32.lt (.fin p) (.fin q) = true ↔ p < q := by
  refine ⟨?_, ?_, ?_, ?_, ?_, ?_, ?_, ?_, rfl, ?_⟩
  · intro a b
    constructor
    · cases a <;> cases b <;> simp only [F32.mul]
      · rename_i s t; cases s <;> cases t <;> rfl
      · rw [mul_comm]
    · cases a <;> cases b <;> simp only [F32.add]
      · rename_i s t; cases s <;> cases t <;> rfl
      · rw [add_comm]
  · intro a
    refine ⟨?_, by cases a <;> rfl, by cases a <;> rfl, by cases a <;> rfl, by cases a <;> rfl⟩
    cases a with
    | nan => rfl
    | inf s => cases s <;> simp [F32.add, F32.mul]
    | fin q => simp only [F32.add, F32.mul, two_mul]
  · intro s
    refine ⟨by cases s <;> rfl, by simp [F32.mul], fun _ => rfl, fun q h => ?_, fun q h => ?_, by cases s <;> rfl, by cases s <;> rfl⟩
    · have : ¬ q < 0 := not_lt.2 h.le
      simp [F32.mul, h.ne', this]
    · cases s <;> simp [F32.mul, h.ne, h]
  · intro a q hq
    cases a with
    | nan => rfl
    | inf s => simp [F32.divFin, F32.mul, hq]
    | fin p => simp only [F32.divFin, F32.mul, div_eq_mul_inv]
  · intro a b h
    cases a <;> cases b <;> simp_all [F32.lt]
    exact h.le
  · intro a b c h1 h2
    cases a <;> cases b <;> cases c <;> simp_all [F32.lt]
    exact h1.trans h2
  · intro a b ha hb
    rcases a with _ | s | p <;> rcases b with _ | t | q
    · exact absurd rfl ha
    · exact absurd rfl ha
    · exact absurd rfl ha
    · exact absurd rfl hb
    · cases s <;> cases t <;> simp [F32.lt]
    · cases s <;> simp [F32.lt]
    · exact absurd rfl hb
    · cases t <;> simp [F32.lt]
    · simpa [F32.lt] using lt_trichotomy p q
  · intro q; exact ⟨rfl, rfl⟩
  · intro p q; simp [F32.lt]

/-- C36: conversion to an integer cuts off the fraction and saturates at the ends of the range. -/
theorem C36_conversion (lo hi : ℤ) (h : lo ≤ 0 ∧ 0 ≤ hi) (q : ℚ) :
    (lo ≤ F32.toIntSat lo hi (.fin q) ∧ F32.toIntSat lo hi (.fin q) ≤ hi) ∧
    (hi < q → F32.toIntSat lo hi (.fin q) = hi) ∧ (q < lo → F32.toIntSat lo hi (.fin q) = lo) ∧
    (lo ≤ q → q ≤ hi → |(F32.toIntSat lo hi (.fin q) : ℚ)| ≤ |q| ∧ |q - F32.toIntSat lo hi (.fin q)| < 1) ∧
    F32.toIntSat lo hi .nan = 0 ∧ F32.toIntSat lo hi (.inf false) = hi ∧ F32.toIntSat lo hi (.inf true) = lo := by
  have f1 := Int.floor_le q
  have f2 := Int.lt_floor_add_one q
  have g1 := Int.floor_le (-q)
  have g2 := Int.lt_floor_add_one (-q)
  obtain ⟨hl, hh⟩ := h
  have hl' : (lo : ℚ) ≤ 0 := by exact_mod_cast hl
  have hh' : (0 : ℚ) ≤ hi := by exact_mod_cast hh
  refine ⟨⟨le_max_left _ _, max_le (by omega) (min_le_left _ _)⟩, ?_, ?_, ?_, rfl, rfl, rfl⟩
  · intro hq
    have : hi ≤ ⌊q⌋ := Int.le_floor.2 hq.le
    simp only [F32.toIntSat, F32.truncInt, if_pos (hh'.trans hq.le)]
    omega
  · intro hq
    have : -lo ≤ ⌊-q⌋ := Int.le_floor.2 (by push_cast; linarith)
    simp only [F32.toIntSat, F32.truncInt, if_neg (not_le.2 (hq.trans_le hl'))]
    omega
  · intro h1 h2
    by_cases hq : 0 ≤ q
    · have e1 : 0 ≤ ⌊q⌋ := Int.floor_nonneg.2 hq
      have e2 : ⌊q⌋ ≤ hi := by exact_mod_cast f1.trans h2
      have e : F32.toIntSat lo hi (.fin q) = ⌊q⌋ := by
        simp only [F32.toIntSat, F32.truncInt, if_pos hq]; omega
      rw [e, abs_of_nonneg (by exact_mod_cast e1), abs_of_nonneg hq, abs_of_nonneg (by linarith)]
      exact ⟨f1, by linarith⟩
    · have hq := not_le.1 hq
      have e1 : 0 ≤ ⌊-q⌋ := Int.floor_nonneg.2 (by linarith)
      have e2 : ⌊-q⌋ ≤ -lo := by
        have : ((⌊-q⌋ : ℤ) : ℚ) ≤ ((-lo : ℤ) : ℚ) := by push_cast; linarith
        exact_mod_cast this
      have e : F32.toIntSat lo hi (.fin q) = -⌊-q⌋ := by
        simp only [F32.toIntSat, F32.truncInt, if_neg (not_le.2 hq)]; omega
      have e3 : (0 : ℚ) ≤ ⌊-q⌋ := by exact_mod_cast e1
      rw [e]
      push_cast
      rw [abs_neg, abs_of_nonneg e3, abs_of_neg hq, abs_lt]
      exact ⟨g1, by linarith, by linarith⟩

example : rne (5 / 2) = 2 ∧ rne (7 / 2) = 4 ∧ F32.toI16 (.fin (-40000)) = -32768 ∧ F32.toU8 (.fin (299 / 100)) = 2 := by
  refine ⟨by norm_num [rne], by norm_num [rne], ?_, ?_⟩
  · have : F32.toIntSat (-32768) 32767 (.fin (-40000)) = -32768 :=
      (C36_conversion (-32768) 32767 (by norm_num) (-40000)).2.2.1 (by norm_num)
    rw [F32.toI16, this]; rfl
  · have : F32.toIntSat 0 255 (.fin (299 / 100)) = 2 := by norm_num [F32.toIntSat, F32.truncInt]
    rw [F32.toU8, this]; rfl
end Knx
