import Verif.Props.DpFloat
import Verif.Props.DpInt

/-!
# C103: a temperature written to a group arrives

Full statement: a temperature written with `PdtKnxFloat::temp` to a group is decoded with
`temp_from_bytes` by every receiver to a number within the resolution of the data point type (half a
step of the exponent, plus the rounding of single precision numbers). It is false at the limits of the
mantissa, for small negative numbers and for every value above 2621.44.
-/

namespace Knx
open Spec

/-- The number that is encoded: the hundredfold in single precision. -/
def hundredfold (q : ℚ) : ℚ := roundQ (q * 100)

/-- The mantissa of the encoding with exponent `e`: rounded half away from zero. -/
def mantissaOf (q : ℚ) (e : ℕ) : ℤ := F32.awayInt (hundredfold q / 2 ^ e)

/-- `t` is written to `dest` as a temperature, arrives as the bytes `v`, and is decoded to `r`. -/
def Temperature (m m' : Mode) (dest : KnxAddress) (t : F32) (v : Bytes) (r : Res F32) : Prop :=
  (∀ fuel, 117 ≤ fuel → (PdtFloat.temp t).getBytes m fuel = some (.ok v)) ∧
  Arrives m m' dest (PdtFloat.temp t).isSmall v v ∧
  (match PdtFloat.tempFromBytes m' v with
    | .ok p => .ok p.getValue
    | .err => .err
    | .panic => .panic) = r

theorem temperature_of {m m' : Mode} {dest : KnxAddress} {q : ℚ} {a b : U8} {r : Res F32}
    (h1 : floatToBytes m 117 (.fin q) = some (.ok [a, b])) (hb : |roundQ (q * 100)| < 2 ^ 128)
    (h2 : bytesToFloat m' [a, b] = r) : Temperature m m' dest (.fin q) [a, b] r := by
  refine ⟨?_, arrives_big m m' dest [a, b] (by simp) (by simp), ?_⟩
  · obtain ⟨a', b', h⟩ := C37_terminates_partial m q hb
    intro fuel hf
    have h3 := h 117 le_rfl
    rw [h1] at h3
    cases h3
    exact h fuel hf
  · rw [← h2, PdtFloat.tempFromBytes]
    cases bytesToFloat m' [a, b] <;> rfl

theorem hundredfold_bound {q : ℚ} {e : ℕ} (he : NeedsExp (hundredfold q) e) (h15 : e ≤ 15) :
    |roundQ (q * 100)| < 2 ^ 128 := by
  refine he.1.trans_lt ?_
  have : (2 : ℚ) ^ e ≤ 2 ^ 15 := pow_le_pow_right₀ (by norm_num) h15
  calc 2048 * (2 : ℚ) ^ e ≤ 2048 * 2 ^ 15 := by gcongr
    _ < 2 ^ 128 := by norm_num

/-- The bytes of a temperature: its mantissa and exponent, unless the mantissa is 2048 or a negative
number has mantissa 0. -/
theorem temp_bytes (m : Mode) {q : ℚ} {e : ℕ} (he : NeedsExp (hundredfold q) e) (h15 : e ≤ 15)
    (hn : mantissaOf q e ≠ 2048) (hz : hundredfold q < 0 → mantissaOf q e ≠ 0) :
    ∃ a b : U8, floatToBytes m 117 (.fin q) = some (.ok [a, b]) ∧ dptM a b = mantissaOf q e ∧ dptE a = e := by
  have hp : (0 : ℚ) < 2 ^ e := by positivity
  obtain ⟨a, b, h1, h2, h3, h4⟩ := C36_encode_exact m q e 117 (hundredfold_bound he h15) he le_rfl
  have hy : |hundredfold q / 2 ^ e| ≤ 2048 := by
    rw [abs_div, abs_of_pos hp, div_le_iff₀ hp]; exact he.1
  obtain ⟨hn1, hn2⟩ := awayInt_bound hy
  have h0 : F32.awayInt ((0 : ℤ) : ℚ) = 0 := awayInt_eq (by norm_num)
  have hsign : 0 ≤ hundredfold q → 0 ≤ F32.awayInt (hundredfold q / 2 ^ e) := by
    intro h
    rw [← h0]; exact awayInt_mono (by push_cast; exact div_nonneg h hp.le)
  have hsign' : hundredfold q < 0 → F32.awayInt (hundredfold q / 2 ^ e) ≤ 0 := by
    intro h
    rw [← h0]; exact awayInt_mono (by push_cast; exact (div_neg_of_neg_of_pos h hp).le)
  refine ⟨a, b, h1, ?_, by omega⟩
  unfold mantissaOf at *
  change ((a.toNat % 8 * 256 + b.toNat : ℕ) : ℤ) = F32.awayInt (hundredfold q / 2 ^ e) % 2048 at h2
  change a.toNat / 128 = (if hundredfold q < 0 ∨ e / 16 % 2 = 1 then 1 else 0) at h4
  generalize hundredfold q = w at *
  generalize F32.awayInt (w / 2 ^ e) = n at *
  by_cases hw : w < 0
  · rw [if_pos (.inl hw)] at h4
    have := hsign' hw
    have := hz hw
    simp only [dptM, h4]; omega
  · rw [if_neg (by
      rintro (h | h)
      · exact hw h
      · omega)] at h4
    have := hsign (not_lt.1 hw)
    simp only [dptM, h4]; omega

/-- **C103 (proved part)**: with an exponent of at most 7 and outside the limits of the mantissa, a
temperature is received within half a step and the rounding of single precision numbers. -/
theorem C103_arrives_partial (m m' : Mode) (dest : KnxAddress) (q : ℚ) (e : ℕ) (he : NeedsExp (hundredfold q) e)
    (h7 : e ≤ 7) (hn : mantissaOf q e ≠ 2048) (hn' : mantissaOf q e ≠ -2048)
    (hz : hundredfold q < 0 → mantissaOf q e ≠ 0) :
    ∃ (v : Bytes) (x : ℚ), Temperature m m' dest (.fin q) v (.ok (.fin x)) ∧
      |x - q| ≤ 2 ^ e / 199 + |q| / 2 ^ 22 := by
  obtain ⟨a, b, h1, hM, hE⟩ := temp_bytes m he (by omega) hn hz
  obtain ⟨a', b', h1', hacc⟩ := C36_accuracy_partial m q e 117 le_rfl he (by omega) hn hz
  rw [h1] at h1'
  cases h1'
  obtain ⟨x, hx, herr⟩ := C35_decode_partial m' a b (by rw [hM]; exact hn') (by omega)
  refine ⟨[a, b], x, temperature_of h1 (hundredfold_bound he (by omega)) hx, ?_⟩
  have hd : |dpt9 a b| ≤ |q| + (2 ^ e / 200 + |q| / 2 ^ 24) := by
    have := abs_add_le (dpt9 a b - q) q
    rw [sub_add_cancel] at this
    linarith
  have ht := abs_sub_le x (dpt9 a b) q
  have hp : (0 : ℚ) < 2 ^ e := by positivity
  have hq := abs_nonneg q
  generalize (2 : ℚ) ^ e = E at *
  generalize |q| = Q at *
  generalize |dpt9 a b| = D at *
  norm_num at herr hd hacc ⊢
  linarith

/-- Refuted: where the mantissa rounds to 2048, the receiver decodes 0. -/
theorem C103_violated_zero (m m' : Mode) (dest : KnxAddress) (q : ℚ) (e : ℕ) (he : NeedsExp (hundredfold q) e)
    (h15 : e ≤ 15) (hn : mantissaOf q e = 2048) :
    ∃ v, Temperature m m' dest (.fin q) v (.ok (.fin 0)) := by
  obtain ⟨a, b, h1, h0⟩ := C36_boundary_violated m q e 117 le_rfl he h15 hn
  have hM : dptM a b = 0 := by
    have hp : (0 : ℚ) < 2 ^ dptE a := by positivity
    have : ((dptM a b : ℤ) : ℚ) = 0 := by
      unfold dpt9 at h0
      rcases mul_eq_zero.1 (div_eq_zero_iff.1 h0 |>.resolve_right (by norm_num)) with h | h
      · exact h
      · exact absurd h hp.ne'
    exact_mod_cast this
  obtain ⟨x, hx, herr⟩ := C35_decode_exact m' a b (by rw [hM]; decide)
  rw [hM] at herr
  simp only [Int.cast_zero, zero_mul, zero_div, sub_zero, abs_zero] at herr
  have hx0 : x = 0 := abs_eq_zero.1 (le_antisymm herr (abs_nonneg x))
  exact ⟨_, temperature_of h1 (hundredfold_bound he h15) (by rw [hx, hx0])⟩

/-- Refuted for every temperature from 20.476 to 20.48 degrees: 0 degrees are received. -/
theorem C103_violated_20_48 (m m' : Mode) (dest : KnxAddress) (q : ℚ) (h1 : 20.476 ≤ q) (h2 : q ≤ 20.48) :
    ∃ v, Temperature m m' dest (.fin q) v (.ok (.fin 0)) := by
  obtain ⟨a, b, hb, h0⟩ := C36_20_48_violated m q 117 le_rfl h1 h2
  have hM : dptM a b = 0 := by
    have hp : (0 : ℚ) < 2 ^ dptE a := by positivity
    have : ((dptM a b : ℤ) : ℚ) = 0 := by
      unfold dpt9 at h0
      rcases mul_eq_zero.1 (div_eq_zero_iff.1 h0 |>.resolve_right (by norm_num)) with h | h
      · exact h
      · exact absurd h hp.ne'
    exact_mod_cast this
  obtain ⟨x, hx, herr⟩ := C35_decode_exact m' a b (by rw [hM]; decide)
  rw [hM] at herr
  simp only [Int.cast_zero, zero_mul, zero_div, sub_zero, abs_zero] at herr
  have hx0 : x = 0 := abs_eq_zero.1 (le_antisymm herr (abs_nonneg x))
  refine ⟨_, temperature_of hb ?_ (by rw [hx, hx0])⟩
  have hup : roundQ (q * 100) ≤ 2048 := by
    have h := roundQ_intCast (n := 2048) (by norm_num)
    push_cast at h
    rw [← h]; apply roundQ_mono; norm_num at h2 ⊢; linarith
  have hlo : 2000 ≤ roundQ (q * 100) := by
    have h := roundQ_intCast (n := 2000) (by norm_num)
    push_cast at h
    rw [← h]; apply roundQ_mono; norm_num at h1 ⊢; linarith
  rw [abs_of_pos (by linarith)]
  exact hup.trans_lt (by norm_num)

/-- What is received for the byte pair with mantissa -2048 and exponent 0. -/
theorem decode_min (m' : Mode) {a b : U8} (hM : dptM a b = -2048) (hE : dptE a = 0) :
    match m' with
    | .debug => bytesToFloat m' [a, b] = .panic
    | .release => ∃ x : ℚ, bytesToFloat m' [a, b] = .ok (.fin x) ∧ |x + 634.88| ≤ 0.001 := by
  obtain ⟨h1, x, h2, h3⟩ := C35_min_mantissa_violated a b hM
  cases m' with
  | debug => exact h1
  | release =>
    refine ⟨x, h2, ?_⟩
    have hu : usedExp a = 0 := by simp [usedExp, hE]
    rw [hu] at h3
    rw [abs_le] at h3 ⊢
    norm_num at h3 ⊢
    constructor <;> linarith [h3.1, h3.2]

/-- Refuted: a temperature just below zero crashes the receiver, or -634.88 degrees are received. -/
theorem C103_violated_below_zero (m m' : Mode) (dest : KnxAddress) (q : ℚ) (h1 : -0.0049 ≤ q) (h2 : q ≤ -0.0001) :
    ∃ v r, Temperature m m' dest (.fin q) v r ∧
      match m' with
      | .debug => r = .panic
      | .release => ∃ x : ℚ, r = .ok (.fin x) ∧ |x + 634.88| ≤ 0.001 := by
  have hneg : q * 100 < 0 := by norm_num at h2 ⊢; linarith
  have h := roundQ_err_rel (q := q * 100) (by
    rw [abs_of_neg hneg]; norm_num at h2 ⊢; linarith)
  rw [abs_of_neg hneg, abs_le] at h
  obtain ⟨ha, hb⟩ := h
  norm_num at h1 h2 ha hb
  have hw : roundQ (q * 100) < 0 := by linarith
  have hw' : -(1 / 2) < roundQ (q * 100) := by norm_num; linarith
  have he : NeedsExp (roundQ (q * 100)) 0 := ⟨by rw [abs_of_neg hw]; norm_num; linarith, .inl rfl⟩
  have hbd : |roundQ (q * 100)| < 2 ^ 128 := by rw [abs_of_neg hw]; norm_num; linarith
  obtain ⟨a, b, e1, e2, e3, e4⟩ := C36_encode_exact m q 0 117 hbd he le_rfl
  have hn : F32.awayInt (roundQ (q * 100) / 2 ^ 0) = 0 := by
    apply awayInt_eq; rw [abs_lt]; norm_num; constructor <;> linarith
  rw [hn] at e2
  rw [if_pos (.inl hw)] at e4
  have hM : dptM a b = -2048 := by simp only [dptM, e4]; omega
  have := decode_min m' hM (by omega)
  cases m' with
  | debug => exact ⟨[a, b], .panic, temperature_of e1 hbd this, rfl⟩
  | release =>
    obtain ⟨x, hx, hx'⟩ := this
    exact ⟨[a, b], _, temperature_of e1 hbd hx, x, rfl, hx'⟩

/-- Refuted: where the mantissa rounds to -2048 (-20.48 degrees, for instance), a debug build of the receiver
panics. -/
theorem C103_violated_min (m : Mode) (dest : KnxAddress) (q : ℚ) (e : ℕ) (he : NeedsExp (hundredfold q) e)
    (h15 : e ≤ 15) (hn : mantissaOf q e = -2048) : ∃ v, Temperature m .debug dest (.fin q) v .panic := by
  obtain ⟨a, b, h1, hM, _⟩ := temp_bytes m he h15 (by rw [hn]; decide) (fun _ => by rw [hn]; decide)
  exact ⟨[a, b], temperature_of h1 (hundredfold_bound he h15) (C35_min_mantissa_violated a b (by rw [hM, hn])).1⟩

/-- Refuted: with an exponent of 8 or more, at most four fifths of the temperature are received. -/
theorem C103_violated_hot (m m' : Mode) (dest : KnxAddress) (q : ℚ) (e : ℕ) (he : NeedsExp (hundredfold q) e)
    (h8 : 8 ≤ e) (h15 : e ≤ 15) (hn : mantissaOf q e ≠ 2048) (hn' : mantissaOf q e ≠ -2048)
    (h0 : mantissaOf q e ≠ 0) :
    ∃ (v : Bytes) (x : ℚ), Temperature m m' dest (.fin q) v (.ok (.fin x)) ∧ |x| < 4 / 5 * |q| := by
  obtain ⟨a, b, h1, hM, hE⟩ := temp_bytes m he (by omega) hn (fun _ => h0)
  obtain ⟨a', b', h1', hacc⟩ := C36_accuracy_partial m q e 117 le_rfl he (by omega) hn (fun _ => h0)
  rw [h1] at h1'
  cases h1'
  obtain ⟨x, hx, herr⟩ := C35_exponent_violated m' a b (by rw [hM]; exact hn') (by rw [hM]; exact h0) (by omega)
  refine ⟨[a, b], x, temperature_of h1 (hundredfold_bound he (by omega)) hx, ?_⟩
  have hd : |dpt9 a b| ≤ |q| + (2 ^ e / 200 + |q| / 2 ^ 24) := by
    have := abs_add_le (dpt9 a b - q) q
    rw [sub_add_cancel] at this
    linarith
  have hbig : (2 : ℚ) ^ e / 1 ≤ |q| := by
    have h2 : 2048 * (2 : ℚ) ^ (e - 1) < |hundredfold q| := he.2.resolve_left (by omega)
    have h3 : (2 : ℚ) ^ e = 2 * 2 ^ (e - 1) := by
      rw [← pow_succ']; congr 1; omega
    have h4 := roundQ_err (q * 100)
    have h5 := abs_add_le (roundQ (q * 100) - q * 100) (q * 100)
    rw [sub_add_cancel] at h5
    have h6 : |q * 100| = |q| * 100 := by rw [abs_mul]; norm_num
    rw [h6] at h4 h5
    have h7 : max (|q| * 100 / 2 ^ 24) ((1 : ℚ) / 2 ^ 150) ≤ |q| + 1 := by
      have := abs_nonneg q
      apply max_le
      · norm_num; linarith
      · norm_num; linarith
    have h9 : (128 : ℚ) ≤ 2 ^ (e - 1) := by
      calc (128 : ℚ) = 2 ^ 7 := by norm_num
        _ ≤ _ := pow_le_pow_right₀ (by norm_num) (by omega)
    unfold hundredfold at h2
    rw [h3]
    linarith
  have hq := abs_nonneg q
  generalize (2 : ℚ) ^ e = E at *
  generalize |q| = Q at *
  generalize |dpt9 a b| = D at *
  norm_num at hd hacc hbig ⊢
  have hQ : 0 < |x| ∨ |x| = 0 := by
    rcases (abs_nonneg x).lt_or_eq with h | h
    · exact .inl h
    · exact .inr h.symm
  have : 0 ≤ |x| := abs_nonneg x
  linarith

theorem hundredfold_near {q : ℚ} (h0 : 0 ≤ q) (h1 : q ≤ 41) : |hundredfold q - q * 100| ≤ 1 / 1000 := by
  refine (roundQ_err (q * 100)).trans ?_
  rw [abs_of_nonneg (by linarith)]
  apply max_le
  · rw [div_le_iff₀ (by norm_num)]; norm_num; linarith
  · norm_num

/-- C103 for the temperatures of a room: from 0 to 40.94 degrees, without the gap below 20.48, what is received
differs by about a hundredth of a degree at most. -/
theorem C103_room_partial (m m' : Mode) (dest : KnxAddress) (q : ℚ) (h0 : 0 ≤ q) (h1 : q ≤ 40.94)
    (hgap : q ≤ 20.4749 ∨ 20.4801 ≤ q) :
    ∃ (v : Bytes) (x : ℚ), Temperature m m' dest (.fin q) v (.ok (.fin x)) ∧ |x - q| ≤ 0.0101 := by
  have hnear := hundredfold_near h0 (by norm_num at h1 ⊢; linarith)
  rw [abs_le] at hnear
  have hw0 : 0 ≤ hundredfold q := by
    have h := roundQ_intCast (n := 0) (by norm_num)
    push_cast at h
    unfold hundredfold
    rw [← h]; apply roundQ_mono; linarith
  have hz : ∀ e, hundredfold q < 0 → mantissaOf q e ≠ 0 := fun e h => absurd h (not_lt.2 hw0)
  rcases hgap with hg | hg
  · have he : NeedsExp (hundredfold q) 0 := ⟨by rw [abs_of_nonneg hw0]; norm_num at hg ⊢; linarith [hnear.2], .inl rfl⟩
    have hb : -1 < mantissaOf q 0 ∧ mantissaOf q 0 < 2048 := by
      have he := awayInt_err (hundredfold q / 2 ^ 0)
      rw [pow_zero, div_one, abs_le] at he
      unfold mantissaOf
      rw [pow_zero, div_one]
      norm_num at hg he
      constructor
      · have : (-1 : ℚ) < F32.awayInt (hundredfold q) := by linarith [he.1]
        exact_mod_cast this
      · have : (F32.awayInt (hundredfold q) : ℚ) < 2048 := by linarith [he.2, hnear.2]
        exact_mod_cast this
    obtain ⟨v, x, h2, h3⟩ := C103_arrives_partial m m' dest q 0 he (by omega) (by omega) (by omega) (hz 0)
    refine ⟨v, x, h2, h3.trans ?_⟩
    rw [abs_of_nonneg h0]
    norm_num at hg ⊢
    linarith
  · have hlow : 2048 < hundredfold q := by norm_num at hg; linarith [hnear.1]
    have he : NeedsExp (hundredfold q) 1 := by
      refine ⟨?_, .inr ?_⟩
      · rw [abs_of_nonneg hw0]; norm_num at h1 ⊢; linarith [hnear.2]
      · rw [abs_of_nonneg hw0]; norm_num; exact hlow
    have hb : -1 < mantissaOf q 1 ∧ mantissaOf q 1 < 2048 := by
      have he := awayInt_err (hundredfold q / 2 ^ 1)
      rw [pow_one, abs_le] at he
      unfold mantissaOf
      rw [pow_one]
      norm_num at h1 he
      constructor
      · have : (-1 : ℚ) < F32.awayInt (hundredfold q / 2) := by linarith [he.1]
        exact_mod_cast this
      · have : (F32.awayInt (hundredfold q / 2) : ℚ) < 2048 := by linarith [he.2, hnear.2]
        exact_mod_cast this
    obtain ⟨v, x, h2, h3⟩ := C103_arrives_partial m m' dest q 1 he (by omega) (by omega) (by omega) (hz 1)
    refine ⟨v, x, h2, h3.trans ?_⟩
    rw [abs_of_nonneg h0]
    norm_num at h1 ⊢
    linarith

/-- 21.5 degrees are in the range, and so is -5 degrees (mantissa -500) of the general theorem. -/
example : (0 : ℚ) ≤ 21.5 ∧ (21.5 : ℚ) ≤ 40.94 ∧ (20.4801 : ℚ) ≤ 21.5 ∧
    NeedsExp (hundredfold (-5)) 0 ∧ mantissaOf (-5) 0 = -500 := by
  have h : hundredfold (-5) = -500 := by
    have h := roundQ_intCast (n := -500) (by norm_num)
    unfold hundredfold
    norm_num at h ⊢
    exact h
  refine ⟨by norm_num, by norm_num, by norm_num, ?_, ?_⟩
  · rw [h]; exact ⟨by norm_num, .inl rfl⟩
  · unfold mantissaOf; rw [h]; exact awayInt_eq (by norm_num)

/-- 3000 degrees (exponent 8, mantissa 1172), 655.36 degrees (exponent 5, mantissa 2048) and -20.48 degrees meet the hypotheses of
the refutations. -/
example : NeedsExp (hundredfold 3000) 8 ∧ mantissaOf 3000 8 = 1172 ∧
    NeedsExp (hundredfold 655.36) 5 ∧ mantissaOf 655.36 5 = 2048 ∧
    NeedsExp (hundredfold (-20.48)) 0 ∧ mantissaOf (-20.48) 0 = -2048 := by
  have h : hundredfold 3000 = 300000 := by
    have h := roundQ_intCast (n := 300000) (by norm_num)
    unfold hundredfold
    norm_num at h ⊢
    exact h
  have h' : hundredfold 655.36 = 65536 := by
    have h := roundQ_intCast (n := 65536) (by norm_num)
    unfold hundredfold
    norm_num at h ⊢
    exact h
  have h'' : hundredfold (-20.48) = -2048 := by
    have h := roundQ_intCast (n := -2048) (by norm_num)
    unfold hundredfold
    norm_num at h ⊢
    exact h
  refine ⟨?_, ?_, ?_, ?_, ?_, ?_⟩
  · rw [h]; exact ⟨by norm_num, .inr (by norm_num)⟩
  · unfold mantissaOf; rw [h]; exact awayInt_eq (by norm_num)
  · rw [h']; exact ⟨by norm_num, .inr (by norm_num)⟩
  · unfold mantissaOf; rw [h']; exact awayInt_eq (by norm_num)
  · rw [h'']; exact ⟨by norm_num, .inl rfl⟩
  · unfold mantissaOf; rw [h'']; exact awayInt_eq (by norm_num)

end Knx
