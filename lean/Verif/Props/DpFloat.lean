import Verif.Lemmas.Float

/-!
# Two-byte floats and scaled percentages (C35-C39)
-/

namespace Knx

open Spec

/-! ## C35: decoding -/

/-- The exponent `bytes_to_float` uses: `E` up to 7, `15 - E` above. -/
def usedExp (a : U8) : ℕ := if dptE a ≤ 7 then dptE a else 15 - dptE a

theorem floatExp_toNat (a b : U8) : (floatExp (ofBe16 a b)).toNat = usedExp a := by
  have h : (ofBe16 a b &&& 0b0111100000000000#16) >>> 11 = ((a &&& 0x78#8) >>> 3).setWidth 16 := by
    unfold ofBe16; bits16
  have hd : ∀ a : U8,
      (let exp : I16 := ((a &&& 0x78#8) >>> 3).setWidth 16
       if exp &&& 8#16 = 0 then exp else ((exp - 1) ^^^ 0xf#16) + (-1)).toNat = usedExp a := by
    decide +kernel
  have := hd a
  simp only [floatExp, h]
  exact this

theorem sign_iff (a b : U8) : (ofBe16 a b &&& 0x8000#16 ≠ 0) ↔ a.toNat / 128 = 1 := by
  have h : ofBe16 a b &&& 0x8000#16 = (a &&& 0x80#8).setWidth 16 <<< 8 := by
    unfold ofBe16; bits16
  have hd : ∀ a : U8, ((a &&& 0x80#8).setWidth 16 <<< 8 ≠ (0 : U16)) ↔ a.toNat / 128 = 1 := by
    decide +kernel
  rw [h]; exact hd a

theorem mant_toNat (a b : U8) : (ofBe16 a b &&& 0x07ff#16).toNat = a.toNat % 8 * 256 + b.toNat := by
  have h : ofBe16 a b &&& 0x07ff#16 = ofBe16 (a &&& 7#8) b := by
    unfold ofBe16; bits16
  have hd : ∀ a : U8, (a &&& 7#8).toNat = a.toNat % 8 := by decide +kernel
  rw [h, ofBe16_toNat, hd]; omega

theorem negMant : ∀ x : BitVec 11, x ≠ 0 →
    (((x.setWidth 16 : U16) - 1) ^^^ 0x7ff#16).toNat = 2048 - x.toNat := by decide +kernel

/-- The mantissa value used by the decoder. -/
theorem floatMant_spec (m : Mode) (a b : U8) :
    (dptM a b ≠ -2048 → ∃ x : U16, floatMant m (ofBe16 a b) = .ok x ∧ (x.toNat : ℤ) = |dptM a b| ∧ x.toNat < 2048) ∧
    (dptM a b = -2048 → floatMant m (ofBe16 a b) = (match m with
      | .debug => .panic
      | .release => .ok 63488#16)) := by
  have hs := sign_iff a b
  have hm := mant_toNat a b
  have ha := a.isLt
  have hb := b.isLt
  have hlt : (ofBe16 a b &&& 0x07ff#16).toNat < 2 ^ 11 := by rw [hm]; omega
  by_cases h1 : a.toNat / 128 = 1
  · have hneg : dptM a b < 0 := by simp only [dptM, h1]; push_cast; omega
    have hMn : dptM a b = (a.toNat % 8 * 256 + b.toNat : ℕ) - 2048 := by simp only [dptM, h1]; push_cast; omega
    constructor
    · intro h
      have hne : (ofBe16 a b &&& 0x07ff#16).toNat ≠ 0 := by
        rw [hm]; omega
      obtain ⟨x, hx⟩ := exists_setWidth 11 (ofBe16 a b &&& 0x07ff#16) hlt
      have hxn : x.toNat = (ofBe16 a b &&& 0x07ff#16).toNat := by
        rw [hx, BitVec.toNat_setWidth]; have := x.isLt; omega
      have hx0 : x ≠ 0 := by
        rintro rfl
        exact hne (hxn.symm.trans (by simp))
      refine ⟨((x.setWidth 16 : U16) - 1) ^^^ 0x7ff#16, ?_, ?_, ?_⟩
      · simp only [floatMant, if_pos (hs.2 h1)]
        rw [hx]
        have : subU m (x.setWidth 16 : U16) 1 = .ok ((x.setWidth 16 : U16) - 1) := by
          unfold subU
          rw [if_pos]
          rw [← hx, show (1 : U16).toNat = 1 from rfl]
          omega
        rw [this]
      · rw [negMant x hx0, abs_of_neg hneg, hxn, hm]
        simp only [dptM, h1]; omega
      · rw [negMant x hx0]
        have : x.toNat ≠ 0 := by omega
        omega
    · intro h
      have h0 : (ofBe16 a b &&& 0x07ff#16) = 0 := by
        apply BitVec.eq_of_toNat_eq
        rw [hm]; simp only [dptM, h1] at h; simp; omega
      simp only [floatMant, if_pos (hs.2 h1), h0]
      cases m <;> decide
  · have hpos : 0 ≤ dptM a b := by
      simp only [dptM, show a.toNat / 128 = 0 by omega]; push_cast; omega
    have h1' : ¬ (ofBe16 a b &&& 0x8000#16 ≠ 0) := fun h => h1 (hs.1 h)
    constructor
    · intro _
      refine ⟨ofBe16 a b &&& 0x07ff#16, by simp only [floatMant, if_neg h1'], ?_, ?_⟩
      · rw [hm, abs_of_nonneg hpos]
        simp only [dptM, show a.toNat / 128 = 0 by omega]; omega
      · omega
    · intro h; omega

/-- The decoder's arithmetic: `(0.01 * M) * 2^k`. -/
theorem decode_arith (M : ℤ) (k : ℕ) (hM : |M| ≤ 65535) (hk : k ≤ 7) :
    ∃ q : ℚ, (F32.c001.mul (.fin (M : ℚ))).mul (.fin (2 ^ k)) = .fin q ∧
      |q - M * 2 ^ k / 100| ≤ |(M * 2 ^ k / 100 : ℚ)| / 2 ^ 23 ∧ (M = 0 → q = 0) := by
  have hMq : |(M : ℚ)| ≤ 65535 := by exact_mod_cast hM
  have hp : (0 : ℚ) < 2 ^ k := by positivity
  have hp7 : (2 : ℚ) ^ k ≤ 2 ^ 7 := pow_le_pow_right₀ (by norm_num) hk
  by_cases h0 : M = 0
  · subst h0
    refine ⟨0, ?_, by simp, fun _ => rfl⟩
    simp only [F32.c001, F32.mul, roundF32, Int.cast_zero, mul_zero, zero_mul, roundQ_zero]
    norm_num [roundQ_zero]
  have hM1 : (1 : ℚ) ≤ |(M : ℚ)| := by
    exact_mod_cast Int.one_le_abs h0
  set c : ℚ := 10737418 / 2 ^ 30 with hc
  have hx : (1 : ℚ) / 2 ^ 126 ≤ |c * M| := by
    rw [abs_mul]
    calc (1 : ℚ) / 2 ^ 126 ≤ |c| * 1 := by rw [hc]; norm_num
      _ ≤ |c| * |(M : ℚ)| := by gcongr
  have he := roundQ_err_rel hx
  have hcabs : |c * M| = c * |(M : ℚ)| := by rw [abs_mul, abs_of_pos (by rw [hc]; norm_num)]
  have hb1 : |roundQ (c * M)| < 2 ^ 128 := roundQ_lt (by
    rw [hcabs, hc]; norm_num; linarith)
  have hs : roundQ (roundQ (c * M) * 2 ^ k) = roundQ (c * M) * 2 ^ k := by
    rw [← roundQ_scale hx, roundQ_idem]
  have hr1 : |roundQ (c * M)| ≤ 2 ^ 10 := by
    have h1 : |roundQ (c * M)| ≤ |c * M| + |roundQ (c * M) - c * M| := by
      have := abs_add_le (c * M) (roundQ (c * M) - c * M)
      rwa [add_sub_cancel] at this
    have h2 : |c * M| ≤ 656 := by rw [hcabs, hc]; linarith
    have h3 : |c * M| / 2 ^ 24 ≤ 1 := by
      rw [div_le_one (by norm_num)]; linarith
    have h4 : (2 : ℚ) ^ 10 = 1024 := by norm_num
    rw [h4]
    exact h1.trans ((add_le_add h2 (he.trans h3)).trans (by norm_num))
  have hb2 : |roundQ (roundQ (c * M) * 2 ^ k)| < 2 ^ 128 := by
    rw [hs, abs_mul, abs_of_pos hp]
    calc |roundQ (c * M)| * 2 ^ k ≤ 2 ^ 10 * 2 ^ 7 := by gcongr
      _ < 2 ^ 128 := by norm_num
  refine ⟨roundQ (c * M) * 2 ^ k, ?_, ?_, fun h => absurd h h0⟩
  · simp only [F32.c001, F32.mul]
    rw [roundF32_fin hb1]
    simp only []
    rw [roundF32_fin hb2, hs]
  · have e1 : roundQ (c * M) * 2 ^ k - M * 2 ^ k / 100
        = ((roundQ (c * M) - c * M) + (c - 1 / 100) * M) * 2 ^ k := by ring
    have e2 : |(M * 2 ^ k / 100 : ℚ)| = |(M : ℚ)| * 2 ^ k / 100 := by
      rw [abs_div, abs_mul, abs_of_pos hp]; norm_num
    rw [e1, e2, abs_mul, abs_of_pos hp]
    have h1 := abs_add_le (roundQ (c * M) - c * M) ((c - 1 / 100) * M)
    have h2 : |(c - 1 / 100) * (M : ℚ)| = (1 / 100 - c) * |(M : ℚ)| := by
      rw [abs_mul, abs_of_neg (by rw [hc]; norm_num)]; ring
    rw [h2] at h1
    rw [hcabs] at he
    have h3 : |roundQ (c * M) - c * M + (c - 1 / 100) * M| ≤ |(M : ℚ)| / 100 / 2 ^ 23 := by
      refine h1.trans ((add_le_add_left he _).trans ?_)
      have : c * |(M : ℚ)| / 2 ^ 24 + (1 / 100 - c) * |(M : ℚ)| = |(M : ℚ)| * (c / 2 ^ 24 + (1 / 100 - c)) := by ring
      rw [this, show |(M : ℚ)| / 100 / 2 ^ 23 = |(M : ℚ)| * (1 / 100 / 2 ^ 23) by ring]
      apply mul_le_mul_of_nonneg_left _ (abs_nonneg _)
      rw [hc]; norm_num
    calc _ ≤ |(M : ℚ)| / 100 / 2 ^ 23 * 2 ^ k := by gcongr
      _ = _ := by ring

theorem usedExp_le (a : U8) : usedExp a ≤ 7 := by
  have : dptE a < 16 := by simp only [dptE]; omega
  unfold usedExp; split <;> omega

theorem sign_mul (m : Mode) (a b : U8) (x : U16) (hx : x.toNat < 65536) :
    F32.mul (.fin (x.toNat : ℚ)) (if ofBe16 a b &&& 0x8000#16 ≠ 0 then .fin (-1) else .fin 1)
      = .fin (((if a.toNat / 128 = 1 then -(x.toNat : ℤ) else x.toNat) : ℤ) : ℚ) := by
  have hs := sign_iff a b
  have key : ∀ n : ℤ, |n| < 2 ^ 24 → roundF32 (n : ℚ) = .fin n := by
    intro n hn
    have h := roundQ_intCast hn
    have hq : |(n : ℚ)| < 2 ^ 24 := by exact_mod_cast hn
    rw [roundF32_fin, h]
    rw [h]; refine hq.trans (by norm_num)
  by_cases h1 : a.toNat / 128 = 1
  · rw [if_pos (hs.2 h1), if_pos h1]
    have := key (-(x.toNat : ℤ)) (by rw [abs_lt]; constructor <;> omega)
    simp only [F32.mul]
    rw [← this]; push_cast; ring_nf
  · rw [if_neg (fun h => h1 (hs.1 h)), if_neg h1]
    have := key (x.toNat : ℤ) (by rw [abs_lt]; constructor <;> omega)
    simp only [F32.mul]
    rw [← this]; push_cast; ring_nf

/-- What the decoder computes for every byte pair whose mantissa is not -2048: the DPT 9 mantissa
with the exponent `usedExp`, to within a relative error of 2^-23. -/
theorem C35_decode_exact (m : Mode) (a b : U8) (h : dptM a b ≠ -2048) :
    ∃ q : ℚ, bytesToFloat m [a, b] = .ok (.fin q) ∧
      |q - dptM a b * 2 ^ usedExp a / 100| ≤ |(dptM a b * 2 ^ usedExp a / 100 : ℚ)| / 2 ^ 23 := by
  obtain ⟨x, hx, hxv, hlt⟩ := (floatMant_spec m a b).1 h
  have hsm := sign_mul m a b x (by omega)
  have hM : (if a.toNat / 128 = 1 then -(x.toNat : ℤ) else x.toNat) = dptM a b := by
    have ha := a.isLt
    have hb := b.isLt
    split
    · rename_i h1
      have : dptM a b < 0 := by simp only [dptM, h1]; push_cast; omega
      rw [hxv, abs_of_neg this, neg_neg]
    · rename_i h1
      have : 0 ≤ dptM a b := by simp only [dptM, show a.toNat / 128 = 0 by omega]; push_cast; omega
      rw [hxv, abs_of_nonneg this]
  rw [hM] at hsm
  obtain ⟨q, hq, hqe, _⟩ := decode_arith (dptM a b) (usedExp a) (by omega) (usedExp_le a)
  refine ⟨q, ?_, hqe⟩
  simp only [bytesToFloat, hx, hsm, floatExp_toNat, hq]

/-- **C35 (proved part)**: for exponents up to 7 and mantissa other than -2048 the decoded float is
the DPT 9 value, to within a relative error of 2^-23. -/
theorem C35_decode_partial (m : Mode) (a b : U8) (h : dptM a b ≠ -2048) (hE : dptE a ≤ 7) :
    ∃ q : ℚ, bytesToFloat m [a, b] = .ok (.fin q) ∧ |q - dpt9 a b| ≤ |dpt9 a b| / 2 ^ 23 := by
  have := C35_decode_exact m a b h
  have hu : usedExp a = dptE a := if_pos hE
  rw [hu] at this
  exact this

/-- Decoding fails (with an error, not a panic) exactly when there are not two bytes. -/
theorem C35_length (m : Mode) (l : Bytes) : bytesToFloat m l = .err ↔ l.length ≠ 2 := by
  match l with
  | [] => simp [bytesToFloat]
  | [_] => simp [bytesToFloat]
  | [a, b] =>
    simp only [List.length_cons, List.length_nil, ne_eq, not_true_eq_false, iff_false]
    by_cases h : dptM a b = -2048
    · have := (floatMant_spec m a b).2 h
      simp only [bytesToFloat, this]
      cases m <;> simp
    · obtain ⟨q, hq, _⟩ := C35_decode_exact m a b h
      rw [hq]; simp
  | _ :: _ :: _ :: _ => simp [bytesToFloat]

/-- Refutation: for exponents 8 to 15 every non-zero value is decoded to less than 3/4 of its size
(the exponent is taken as a signed number). -/
theorem C35_exponent_violated (m : Mode) (a b : U8) (h : dptM a b ≠ -2048) (h0 : dptM a b ≠ 0) (hE : 8 ≤ dptE a) :
    ∃ q : ℚ, bytesToFloat m [a, b] = .ok (.fin q) ∧ |q| < 3 / 4 * |dpt9 a b| := by
  obtain ⟨q, hq, he⟩ := C35_decode_exact m a b h
  refine ⟨q, hq, ?_⟩
  have h16 : dptE a < 16 := by simp only [dptE]; omega
  have hu : usedExp a + 1 ≤ dptE a := by unfold usedExp; split <;> omega
  have hM : (1 : ℚ) ≤ |(dptM a b : ℚ)| := by exact_mod_cast Int.one_le_abs h0
  have habs : ∀ k : ℕ, |(dptM a b * 2 ^ k / 100 : ℚ)| = |(dptM a b : ℚ)| * 2 ^ k / 100 := by
    intro k
    rw [abs_div, abs_mul, abs_of_pos (show (0 : ℚ) < 2 ^ k by positivity)]; norm_num
  have hpow : (2 : ℚ) ^ usedExp a * 2 ≤ 2 ^ dptE a := by
    rw [← pow_succ]; exact pow_le_pow_right₀ (by norm_num) hu
  rw [show dpt9 a b = dptM a b * 2 ^ dptE a / 100 from rfl, habs]
  rw [habs] at he
  have h1 := abs_add_le (q - dptM a b * 2 ^ usedExp a / 100) (dptM a b * 2 ^ usedExp a / 100 : ℚ)
  rw [sub_add_cancel, habs] at h1
  have hp1 : (0 : ℚ) < |(dptM a b : ℚ)| * 2 ^ usedExp a := by positivity
  have h2 : |(dptM a b : ℚ)| * 2 ^ usedExp a * 2 ≤ |(dptM a b : ℚ)| * 2 ^ dptE a := by
    rw [mul_assoc]; gcongr
  have h3 : |(dptM a b : ℚ)| * 2 ^ usedExp a / 100 / 2 ^ 23 ≤ |(dptM a b : ℚ)| * 2 ^ usedExp a / 100 / 4 := by
    gcongr; norm_num
  linarith

/-- Refutation: mantissa -2048 (for example 0x80 0x00, which denotes -20.48) panics in a debug
build and decodes to about -634.88 * 2^k in a release build. -/
theorem C35_min_mantissa_violated (a b : U8) (h : dptM a b = -2048) :
    bytesToFloat .debug [a, b] = .panic ∧
    ∃ q : ℚ, bytesToFloat .release [a, b] = .ok (.fin q) ∧
      |q - (-63488) * 2 ^ usedExp a / 100| ≤ 63488 * 2 ^ usedExp a / 100 / 2 ^ 23 := by
  constructor
  · have := (floatMant_spec .debug a b).2 h
    simp only [bytesToFloat, this]
  · have hx := (floatMant_spec .release a b).2 h
    simp only [] at hx
    have hsm := sign_mul .release a b 63488#16 (by decide)
    have h1 : a.toNat / 128 = 1 := by
      have ha := a.isLt
      simp only [dptM] at h; omega
    rw [if_pos h1] at hsm
    obtain ⟨q, hq, hqe, _⟩ := decode_arith (-63488) (usedExp a) (by norm_num) (usedExp_le a)
    refine ⟨q, ?_, ?_⟩
    · simp only [bytesToFloat, hx, hsm, floatExp_toNat]
      rw [← hq]; rfl
    · have e : |((-63488 : ℤ) * 2 ^ usedExp a / 100 : ℚ)| = 63488 * 2 ^ usedExp a / 100 := by
        rw [abs_div, abs_mul, abs_of_pos (show (0 : ℚ) < 2 ^ usedExp a by positivity)]; norm_num
      rw [e] at hqe
      push_cast at hqe
      exact hqe

-- 0x0C1A: 21.00 degrees
example : dptM 0x0c 0x1a = 1050 ∧ dptE 0x0c = 1 ∧ dpt9 0x0c 0x1a = 21 := by
  refine ⟨by decide, by decide, ?_⟩
  have h1 : dptM 0x0c 0x1a = 1050 := by decide
  have h2 : dptE 0x0c = 1 := by decide
  simp only [dpt9, h1, h2]; norm_num
-- 0x44 0xE2: E = 8, M = 1250, denotes 3200; 0x80 0x00 denotes -20.48
example : dptM 0x44 0xe2 = 1250 ∧ dptE 0x44 = 8 ∧ dptM 0x80 0 = -2048 := by decide

/-! ## C36: encoding accuracy -/

/-- The encoder for a finite value: `w` is the single-precision product `v * 100`, `e` the exponent it
needs, `n` the rounded mantissa. -/
theorem C36_encode_exact (m : Mode) (q : ℚ) (e fuel : ℕ) (hb : |roundQ (q * 100)| < 2 ^ 128)
    (he : NeedsExp (roundQ (q * 100)) e) (hf : 117 ≤ fuel) :
    ∃ a b : U8, floatToBytes m fuel (.fin q) = some (.ok [a, b]) ∧
      ((a.toNat % 8 * 256 + b.toNat : ℕ) : ℤ) = F32.awayInt (roundQ (q * 100) / 2 ^ e) % 2048 ∧
      dptE a = e % 16 ∧
      a.toNat / 128 = (if roundQ (q * 100) < 0 ∨ e / 16 % 2 = 1 then 1 else 0) := by
  have hp : (0 : ℚ) < 2 ^ e := by positivity
  obtain ⟨k, hk, hk'⟩ := needsExp_exists hb
  have hke : e = k := by
    have aux : ∀ i j : ℕ, NeedsExp (roundQ (q * 100)) i → NeedsExp (roundQ (q * 100)) j → ¬ i < j := by
      intro i j hi hj hlt
      rcases hj.2 with h | h
      · omega
      · have : (2 : ℚ) ^ i ≤ 2 ^ (j - 1) := pow_le_pow_right₀ (by norm_num) (by omega)
        have := hi.1
        linarith
    have h1 := aux e k he hk'
    have h2 := aux k e hk' he
    omega
  subst hke
  have hy : |roundQ (q * 100) / 2 ^ e| ≤ 2048 := by
    rw [abs_div, abs_of_pos hp, div_le_iff₀ hp]; exact he.1
  obtain ⟨a, b, h1, h2, h3, h4⟩ := floatBytes_spec _ e hy hk
  refine ⟨a, b, ?_, h2, h3, ?_⟩
  · rw [floatToBytes_fin m q e fuel hb he hk (by omega), h1]
  · rw [h4]
    have : roundQ (q * 100) / 2 ^ e < 0 ↔ roundQ (q * 100) < 0 := by
      rw [div_lt_iff₀ hp, zero_mul]
    simp only [this]

/-- **C36 (proved part)**: if the hundredfold `w` needs an exponent `e` of at most 15, its mantissa
does not round to +2048, and it is not a negative number that rounds to mantissa 0, then the
encoded bytes denote a number within half a step (`2^e / 200`) plus the single-precision
rounding error of `v`. -/
theorem C36_accuracy_partial (m : Mode) (q : ℚ) (e fuel : ℕ) (hf : 117 ≤ fuel)
    (he : NeedsExp (roundQ (q * 100)) e) (he15 : e ≤ 15)
    (hn : F32.awayInt (roundQ (q * 100) / 2 ^ e) ≠ 2048)
    (hz : roundQ (q * 100) < 0 → F32.awayInt (roundQ (q * 100) / 2 ^ e) ≠ 0) :
    ∃ a b : U8, floatToBytes m fuel (.fin q) = some (.ok [a, b]) ∧
      |dpt9 a b - q| ≤ 2 ^ e / 200 + |q| / 2 ^ 24 := by
  have hp : (0 : ℚ) < 2 ^ e := by positivity
  have hb : |roundQ (q * 100)| < 2 ^ 128 := by
    refine he.1.trans_lt ?_
    have : (2 : ℚ) ^ e ≤ 2 ^ 15 := pow_le_pow_right₀ (by norm_num) he15
    calc 2048 * (2 : ℚ) ^ e ≤ 2048 * 2 ^ 15 := by gcongr
      _ < 2 ^ 128 := by norm_num
  obtain ⟨a, b, h1, h2, h3, h4⟩ := C36_encode_exact m q e fuel hb he hf
  refine ⟨a, b, h1, ?_⟩
  have herr := roundQ_err (q * 100)
  have hy : |roundQ (q * 100) / 2 ^ e| ≤ 2048 := by
    rw [abs_div, abs_of_pos hp, div_le_iff₀ hp]; exact he.1
  obtain ⟨hn1, hn2⟩ := awayInt_bound hy
  have hae := awayInt_err (roundQ (q * 100) / 2 ^ e)
  have hsign : 0 ≤ roundQ (q * 100) → 0 ≤ F32.awayInt (roundQ (q * 100) / 2 ^ e) := by
    intro h
    have h0 : F32.awayInt ((0 : ℤ) : ℚ) = 0 := awayInt_eq (by norm_num)
    rw [← h0]; exact awayInt_mono (by push_cast; exact div_nonneg h hp.le)
  have hsign' : roundQ (q * 100) < 0 → F32.awayInt (roundQ (q * 100) / 2 ^ e) ≤ 0 := by
    intro h
    have h0 : F32.awayInt ((0 : ℤ) : ℚ) = 0 := awayInt_eq (by norm_num)
    rw [← h0]; exact awayInt_mono (by push_cast; exact (div_neg_of_neg_of_pos h hp).le)
  have hsmall : roundQ (q * 100) = 0 ∨ 1 / 2 ^ 126 ≤ |q * 100| ∨ |q| ≤ 1 / 200 := by
    by_cases h : 1 / 2 ^ 126 ≤ |q * 100|
    · exact .inr (.inl h)
    · refine .inr (.inr ?_)
      rw [abs_mul, abs_of_pos (show (0 : ℚ) < 100 by norm_num)] at h
      norm_num at h ⊢
      linarith
  generalize roundQ (q * 100) = w at *
  generalize F32.awayInt (w / 2 ^ e) = n at *
  have hE : dptE a = e := by omega
  have hM : dptM a b = n := by
    by_cases hw : w < 0
    · rw [if_pos (.inl hw)] at h4
      have := hsign' hw
      have := hz hw
      simp only [dptM, h4]; omega
    · rw [if_neg (by
        rintro (h | h)
        · exact hw h
        · omega)] at h4
      have := hsign (not_lt.1 hw)
      simp only [dptM, h4]; omega
  have hd : dpt9 a b = n * 2 ^ e / 100 := by simp only [dpt9, hE, hM]
  -- distance from `w / 100`
  have hw : |(n * 2 ^ e / 100 : ℚ) - w / 100| ≤ 2 ^ e / 200 := by
    have e1 : (n * 2 ^ e / 100 : ℚ) - w / 100 = (n - w / 2 ^ e) * (2 ^ e / 100) := by field_simp
    rw [e1, abs_mul, abs_of_pos (show (0 : ℚ) < 2 ^ e / 100 by positivity)]
    calc _ ≤ 1 / 2 * ((2 : ℚ) ^ e / 100) := by gcongr
      _ = _ := by ring
  have htri : |dpt9 a b - q| ≤ |(n * 2 ^ e / 100 : ℚ) - w / 100| + |w / 100 - q| := by
    rw [hd]; exact abs_sub_le _ _ _
  by_cases hbig : 1 / 2 ^ 126 ≤ |q * 100|
  · have hmax : max (|q * 100| / 2 ^ 24) ((1 : ℚ) / 2 ^ 150) = |q * 100| / 2 ^ 24 := by
      apply max_eq_left
      have : (1 : ℚ) / 2 ^ 150 = (1 / 2 ^ 126) / 2 ^ 24 := by norm_num
      rw [this]; gcongr
    rw [hmax] at herr
    have h5 : |w / 100 - q| ≤ |q| / 2 ^ 24 := by
      have e2 : w / 100 - q = (w - q * 100) / 100 := by ring
      rw [e2, abs_div, abs_of_pos (show (0 : ℚ) < 100 by norm_num), div_le_iff₀ (by norm_num)]
      rw [abs_mul, abs_of_pos (show (0 : ℚ) < 100 by norm_num)] at herr
      calc _ ≤ |q| * 100 / 2 ^ 24 := herr
        _ = _ := by ring
    linarith
  · -- tiny values are encoded as 0
    have hq : |q * 100| < 1 / 2 ^ 126 := not_le.1 hbig
    have hwt : |w| < 1 / 4 := by
      have h6 := abs_add_le (w - q * 100) (q * 100)
      rw [sub_add_cancel] at h6
      have h7 : max (|q * 100| / 2 ^ 24) ((1 : ℚ) / 2 ^ 150) ≤ 1 / 16 := by
        apply max_le
        · rw [div_le_iff₀ (by norm_num)]; refine hq.le.trans (by norm_num)
        · norm_num
      have h8 : |q * 100| < 1 / 8 := hq.trans (by norm_num)
      linarith
    have he0 : e = 0 := by
      rcases he.2 with h | h
      · exact h
      · exfalso
        have : (1 : ℚ) ≤ 2 ^ (e - 1) := one_le_pow₀ (by norm_num)
        linarith
    subst he0
    have hn0 : n = 0 := by
      have h9 := abs_add_le ((n : ℚ) - w / 2 ^ 0) (w / 2 ^ 0)
      rw [sub_add_cancel] at h9
      rw [pow_zero, div_one] at h9 hae
      have : |(n : ℚ)| < 1 := by linarith
      have : |n| < 1 := by exact_mod_cast this
      rw [abs_lt] at this; omega
    have hq2 : |q| ≤ 1 / 200 := by
      rw [abs_mul, abs_of_pos (show (0 : ℚ) < 100 by norm_num)] at hq
      have : (1 : ℚ) / 2 ^ 126 ≤ 1 / 2 := by norm_num
      linarith
    rw [hd, hn0]
    simp only [Int.cast_zero, zero_mul, zero_div, zero_sub, abs_neg, pow_zero]
    have : 0 ≤ |q| / 2 ^ 24 := by positivity
    linarith

/-- Refutation: a positive value whose mantissa rounds up to 2048 is encoded as the number 0. -/
theorem C36_boundary_violated (m : Mode) (q : ℚ) (e fuel : ℕ) (hf : 117 ≤ fuel)
    (he : NeedsExp (roundQ (q * 100)) e) (he15 : e ≤ 15)
    (hn : F32.awayInt (roundQ (q * 100) / 2 ^ e) = 2048) :
    ∃ a b : U8, floatToBytes m fuel (.fin q) = some (.ok [a, b]) ∧ dpt9 a b = 0 := by
  have hp : (0 : ℚ) < 2 ^ e := by positivity
  have hb : |roundQ (q * 100)| < 2 ^ 128 := by
    refine he.1.trans_lt ?_
    have : (2 : ℚ) ^ e ≤ 2 ^ 15 := pow_le_pow_right₀ (by norm_num) he15
    calc 2048 * (2 : ℚ) ^ e ≤ 2048 * 2 ^ 15 := by gcongr
      _ < 2 ^ 128 := by norm_num
  obtain ⟨a, b, h1, h2, h3, h4⟩ := C36_encode_exact m q e fuel hb he hf
  refine ⟨a, b, h1, ?_⟩
  have hpos : ¬ roundQ (q * 100) < 0 := by
    intro h
    have h0 : F32.awayInt ((0 : ℤ) : ℚ) = 0 := awayInt_eq (by norm_num)
    have := awayInt_mono (x := roundQ (q * 100) / 2 ^ e) (y := ((0 : ℤ) : ℚ))
      (by push_cast; exact (div_neg_of_neg_of_pos h hp).le)
    omega
  rw [if_neg (by
        rintro (h | h)
        · exact hpos h
        · omega)] at h4
  rw [hn] at h2
  have : dptM a b = 0 := by simp only [dptM, h4]; omega
  simp [dpt9, this]

/-- Instance: every value from 20.476 to 20.48 (degrees, say) is sent as 0. -/
theorem C36_20_48_violated (m : Mode) (q : ℚ) (fuel : ℕ) (hf : 117 ≤ fuel) (h1 : 20.476 ≤ q) (h2 : q ≤ 20.48) :
    ∃ a b : U8, floatToBytes m fuel (.fin q) = some (.ok [a, b]) ∧ dpt9 a b = 0 := by
  have hup : roundQ (q * 100) ≤ 2048 := by
    have h := roundQ_intCast (n := 2048) (by norm_num)
    push_cast at h
    rw [← h]; apply roundQ_mono; norm_num at h2 ⊢; linarith
  have hlo : 2047.6 - 0.01 ≤ roundQ (q * 100) := by
    have hq : 2047.6 ≤ q * 100 := by norm_num at h1 ⊢; linarith
    have h := roundQ_err_rel (q := q * 100) (by
      rw [abs_of_pos (by norm_num at hq ⊢; linarith)]; norm_num at hq ⊢; linarith)
    rw [abs_of_pos (show 0 < q * 100 by norm_num at hq ⊢; linarith), abs_le] at h
    have h3 : q * 100 / 2 ^ 24 ≤ 0.001 := by norm_num at h2 ⊢; linarith
    norm_num at h1 h3 ⊢
    linarith [h.1]
  refine C36_boundary_violated m q 0 fuel hf ⟨?_, .inl rfl⟩ (by norm_num) ?_
  · rw [abs_of_nonneg (by norm_num at hlo ⊢; linarith)]; norm_num; exact hup
  · apply awayInt_eq
    rw [abs_lt]; norm_num at hlo ⊢; constructor <;> linarith

/-- Refutation: a negative value whose mantissa rounds to 0 is encoded as -20.48. -/
theorem C36_small_negative_violated (m : Mode) (q : ℚ) (fuel : ℕ) (hf : 117 ≤ fuel)
    (hw : roundQ (q * 100) < 0) (hw' : -(1 / 2) < roundQ (q * 100)) :
    ∃ a b : U8, floatToBytes m fuel (.fin q) = some (.ok [a, b]) ∧ dpt9 a b = -2048 / 100 := by
  have he : NeedsExp (roundQ (q * 100)) 0 := ⟨by rw [abs_of_neg hw]; norm_num; linarith, .inl rfl⟩
  have hb : |roundQ (q * 100)| < 2 ^ 128 := by rw [abs_of_neg hw]; norm_num; linarith
  obtain ⟨a, b, h1, h2, h3, h4⟩ := C36_encode_exact m q 0 fuel hb he hf
  refine ⟨a, b, h1, ?_⟩
  have hn : F32.awayInt (roundQ (q * 100) / 2 ^ 0) = 0 := by
    apply awayInt_eq; rw [abs_lt]; norm_num; constructor <;> linarith
  rw [hn] at h2
  rw [if_pos (.inl hw)] at h4
  have hM : dptM a b = -2048 := by simp only [dptM, h4]; omega
  simp [dpt9, hM, h3]

/-- Instance: every value from -0.0049 to -0.0001 is sent as -20.48. -/
theorem C36_minus_zero_violated (m : Mode) (q : ℚ) (fuel : ℕ) (hf : 117 ≤ fuel)
    (h1 : -0.0049 ≤ q) (h2 : q ≤ -0.0001) :
    ∃ a b : U8, floatToBytes m fuel (.fin q) = some (.ok [a, b]) ∧ dpt9 a b = -2048 / 100 := by
  have hneg : q * 100 < 0 := by norm_num at h2 ⊢; linarith
  have h := roundQ_err_rel (q := q * 100) (by
    rw [abs_of_neg hneg]; norm_num at h2 ⊢; linarith)
  rw [abs_of_neg hneg, abs_le] at h
  obtain ⟨ha, hb⟩ := h
  norm_num at h1 h2 ha hb
  exact C36_small_negative_violated m q fuel hf (by linarith) (by norm_num; linarith)

/-- Refutation: out-of-range values are not rejected; they lose the high bits of the exponent. -/
theorem C36_range_violated (m : Mode) (q : ℚ) (e fuel : ℕ) (hf : 117 ≤ fuel) (hb : |roundQ (q * 100)| < 2 ^ 128)
    (he : NeedsExp (roundQ (q * 100)) e) (he16 : 16 ≤ e) :
    ∃ a b : U8, floatToBytes m fuel (.fin q) = some (.ok [a, b]) ∧ dptE a = e % 16 ∧ e % 16 < e := by
  obtain ⟨a, b, h1, _, h3, _⟩ := C36_encode_exact m q e fuel hb he hf
  exact ⟨a, b, h1, h3, by omega⟩

-- hypotheses of the positive theorem: 21 degrees, w = 2100, e = 1, mantissa 1050
example : roundQ ((21 : ℚ) * 100) = 2100 ∧ NeedsExp (2100 : ℚ) 1 ∧ F32.awayInt ((2100 : ℚ) / 2 ^ 1) = 1050 := by
  refine ⟨?_, ⟨by norm_num, .inr (by norm_num)⟩, awayInt_eq (by norm_num)⟩
  have h := roundQ_intCast (n := 2100) (by norm_num)
  push_cast at h; norm_num; exact h
-- and of the boundary refutation
example : (20.476 : ℚ) ≤ 20.48 ∧ (-0.0049 : ℚ) ≤ -0.001 := by norm_num

/-! ## C37: termination -/

/-- **C37 (proved part)**: every finite value whose hundredfold does not overflow is encoded to two
bytes in both build modes; so is NaN (to 0, 0). -/
theorem C37_terminates_partial (m : Mode) (q : ℚ) (hb : |roundQ (q * 100)| < 2 ^ 128) :
    ∃ a b : U8, ∀ fuel, 117 ≤ fuel → floatToBytes m fuel (.fin q) = some (.ok [a, b]) := by
  obtain ⟨k, hk, hk'⟩ := needsExp_exists hb
  obtain ⟨a, b, h1, _⟩ := C36_encode_exact m q k 117 hb hk' le_rfl
  refine ⟨a, b, fun fuel hf => ?_⟩
  rw [← h1, floatToBytes_fin m q k fuel hb hk' hk (by omega), floatToBytes_fin m q k 117 hb hk' hk hk]

theorem C37_nan (m : Mode) (fuel : ℕ) : floatToBytes m fuel .nan = some (.ok [0, 0]) := by
  have h : F32.mul .nan (.fin 100) = .nan := rfl
  simp only [floatToBytes, h]
  rw [halve_skip m _ fuel .nan 0 rfl]
  simp only []
  rw [halve_skip m _ fuel .nan 0 rfl]
  simp only [Option.some.injEq, Res.ok.injEq]
  decide

theorem div_inf (s : Bool) : F32.divFin (.inf s) 2 = .inf s := by
  have : decide ((2 : ℚ) < 0) = false := by norm_num
  simp only [F32.divFin, this, Bool.bne_false]

/-- An infinite value never leaves a loop whose condition it meets, in a release build. -/
theorem halve_inf_release (c : F32 → Bool) (s : Bool) (hc : c (.inf s) = true) (fuel : ℕ) (e : I16) :
    halveWhile .release c fuel (.inf s) e = none := by
  induction fuel generalizing e with
  | zero => simp [halveWhile, hc]
  | succ f ih =>
    have : addS .release e 1 = .ok (e + 1) := by unfold addS; split <;> rfl
    simp only [halveWhile, hc, if_true, this, div_inf]
    exact ih _

/-- In a debug build it stops with a panic when the exponent overflows. -/
theorem halve_inf_debug (c : F32 → Bool) (s : Bool) (hc : c (.inf s) = true) (fuel : ℕ) (j : ℕ) (hj : j < 32768) :
    halveWhile .debug c fuel (.inf s) (BitVec.ofNat 16 j) = if 32768 ≤ j + fuel then some .panic else none := by
  induction fuel generalizing j with
  | zero => simp [halveWhile, hc, show ¬ 32768 ≤ j by omega]
  | succ f ih =>
    by_cases h : j + 1 < 32768
    · simp only [halveWhile, hc, if_true, addS_one (m := .debug) h, div_inf]
      rw [ih _ h]
      congr 1
      simp only [eq_iff_iff]; omega
    · obtain rfl : j = 32767 := by omega
      have : addS .debug (BitVec.ofNat 16 32767 : I16) 1 = .panic := by decide
      simp only [halveWhile, hc, if_true, this]
      rw [if_pos (by omega)]

theorem mul100_inf (v : F32) (h : v = .inf true ∨ v = .inf false ∨ ∃ q, v = .fin q ∧ 2 ^ 128 ≤ |roundQ (q * 100)|) :
    ∃ s, F32.mul v (.fin 100) = .inf s := by
  rcases h with rfl | rfl | ⟨q, rfl, hq⟩
  · exact ⟨true, by simp [F32.mul]⟩
  · exact ⟨false, by simp [F32.mul]⟩
  · exact ⟨decide (q * 100 < 0), by simp only [F32.mul, roundF32, if_neg (not_lt.2 hq)]⟩

/-- Refutation: encoding an infinity, or any finite number whose hundredfold overflows, never ends in
a release build and panics after 32768 iterations in a debug build. -/
theorem C37_violated (v : F32) (h : v = .inf true ∨ v = .inf false ∨ ∃ q, v = .fin q ∧ 2 ^ 128 ≤ |roundQ (q * 100)|) :
    (∀ fuel, floatToBytes .release fuel v = none) ∧
    (∀ fuel, floatToBytes .debug fuel v = if 32768 ≤ fuel then some .panic else none) := by
  obtain ⟨s, hs⟩ := mul100_inf v h
  constructor
  · intro fuel
    simp only [floatToBytes, hs]
    cases s with
    | true => rw [halve_inf_release _ _ rfl]
    | false =>
      rw [halve_skip .release _ fuel _ _ rfl]
      simp only []
      rw [halve_inf_release _ _ rfl]
  · intro fuel
    simp only [floatToBytes, hs]
    have h0 : (0 : I16) = BitVec.ofNat 16 0 := rfl
    cases s with
    | true =>
      rw [h0, halve_inf_debug _ _ rfl _ _ (by norm_num), Nat.zero_add]
      by_cases hf : 32768 ≤ fuel
      · rw [if_pos hf, if_pos hf]
      · rw [if_neg hf, if_neg hf]
    | false =>
      rw [halve_skip .debug _ fuel _ _ rfl]
      simp only []
      rw [h0, halve_inf_debug _ _ rfl _ _ (by norm_num), Nat.zero_add]
      by_cases hf : 32768 ≤ fuel
      · rw [if_pos hf, if_pos hf]
      · rw [if_neg hf, if_neg hf]

-- 2^127 is a finite f32 whose hundredfold overflows
example : (2 : ℚ) ^ 128 ≤ |roundQ ((2 : ℚ) ^ 127 * 100)| := by
  have h := roundQ_err_rel (q := (2 : ℚ) ^ 127 * 100) (by norm_num)
  rw [abs_le] at h
  have h1 := h.1
  rw [abs_of_pos (show (0 : ℚ) < 2 ^ 127 * 100 by norm_num)] at h1
  refine le_trans ?_ (le_abs_self _)
  norm_num at h1 ⊢
  linarith

/-! ## C38: round trip -/

/-- Canonical byte pairs: smallest possible exponent. -/
def Canonical (a b : U8) : Prop := dptM a b ≠ -2048 ∧ (dptE a = 0 ∨ 1024 < |dptM a b|)

/-- The two bytes are determined by mantissa and exponent. -/
theorem dpt_inj {a b c d : U8} (hM : dptM a b = dptM c d) (hE : dptE a = dptE c) : a = c ∧ b = d := by
  have ha := a.isLt
  have hb := b.isLt
  have hc := c.isLt
  have hd := d.isLt
  simp only [dptM, dptE] at hM hE
  constructor <;> apply BitVec.eq_of_toNat_eq <;> omega

/-- **C38**: encoding the value decoded from a canonical byte pair with exponent at most 7 gives the
byte pair back. -/
theorem C38_roundtrip (m m' : Mode) (a b : U8) (hc : Canonical a b) (hE : dptE a ≤ 7) (fuel : ℕ) (hf : 117 ≤ fuel) :
    ∃ v, bytesToFloat m [a, b] = .ok v ∧ floatToBytes m' fuel v = some (.ok [a, b]) := by
  obtain ⟨q, hq, herr⟩ := C35_decode_partial m a b hc.1 hE
  refine ⟨_, hq, ?_⟩
  have hp : (0 : ℚ) < 2 ^ dptE a := by positivity
  have hMb : |dptM a b| ≤ 2047 := by
    have ha := a.isLt
    have hb := b.isLt
    have := hc.1
    rw [abs_le]; simp only [dptM] at *; omega
  have hMq : |(dptM a b : ℚ)| ≤ 2047 := by exact_mod_cast hMb
  have hd : |dpt9 a b| = |(dptM a b : ℚ)| * 2 ^ dptE a / 100 := by
    simp only [dpt9]; rw [abs_div, abs_mul, abs_of_pos hp]; norm_num
  -- distance of the single-precision hundredfold from M * 2^E
  have hw : |roundQ (q * 100) - dptM a b * 2 ^ dptE a| ≤ |(dptM a b : ℚ)| * 2 ^ dptE a / 2 ^ 21 := by
    by_cases h0 : dptM a b = 0
    · have : dpt9 a b = 0 := by simp [dpt9, h0]
      rw [this] at herr
      simp only [abs_zero, zero_div, sub_zero] at herr
      have : q = 0 := abs_nonpos_iff.1 herr
      rw [this, h0, zero_mul, roundQ_zero]; simp
    · have hM1 : (1 : ℚ) ≤ |(dptM a b : ℚ)| := by exact_mod_cast Int.one_le_abs h0
      have hp1 : (1 : ℚ) ≤ 2 ^ dptE a := one_le_pow₀ (by norm_num)
      have hbig : (1 : ℚ) ≤ |(dptM a b : ℚ)| * 2 ^ dptE a := by nlinarith
      have hq100 : |q * 100 - dptM a b * 2 ^ dptE a| ≤ |(dptM a b : ℚ)| * 2 ^ dptE a / 2 ^ 23 := by
        have e1 : q * 100 - dptM a b * 2 ^ dptE a = (q - dpt9 a b) * 100 := by simp only [dpt9]; ring
        rw [e1, abs_mul, abs_of_pos (show (0 : ℚ) < 100 by norm_num)]
        rw [hd] at herr
        calc _ ≤ |(dptM a b : ℚ)| * 2 ^ dptE a / 100 / 2 ^ 23 * 100 := by gcongr
          _ = _ := by ring
      have habs : |(dptM a b : ℚ) * 2 ^ dptE a| = |(dptM a b : ℚ)| * 2 ^ dptE a := by
        rw [abs_mul, abs_of_pos hp]
      generalize |(dptM a b : ℚ)| * 2 ^ dptE a = A at *
      generalize (dptM a b : ℚ) * 2 ^ dptE a = B at *
      have h1 := abs_sub_abs_le_abs_sub (q * 100) B
      have h2 := abs_sub_abs_le_abs_sub B (q * 100)
      rw [abs_sub_comm] at h2
      rw [habs] at h1 h2
      rw [show (2 : ℚ) ^ 23 = 8388608 by norm_num] at hq100
      have hlow : 1 / 2 ^ 126 ≤ |q * 100| := by
        have : (1 : ℚ) / 2 ^ 126 ≤ 1 / 2 := by norm_num
        linarith
      have h3 := roundQ_err_rel hlow
      have h4 := abs_sub_le (roundQ (q * 100)) (q * 100) B
      rw [show (2 : ℚ) ^ 24 = 16777216 by norm_num] at h3
      rw [show (2 : ℚ) ^ 21 = 2097152 by norm_num]
      linarith
  have hsc : |roundQ (q * 100) / 2 ^ dptE a - dptM a b| < 1 / 2 := by
    have e1 : roundQ (q * 100) / 2 ^ dptE a - dptM a b = (roundQ (q * 100) - dptM a b * 2 ^ dptE a) / 2 ^ dptE a := by
      field_simp
    rw [e1, abs_div, abs_of_pos hp, div_lt_iff₀ hp]
    refine hw.trans_lt ?_
    rw [div_lt_iff₀ (by norm_num)]
    have : |(dptM a b : ℚ)| * 2 ^ dptE a ≤ 2047 * 2 ^ dptE a := by gcongr
    have : (2 : ℚ) ^ 21 = 2097152 := by norm_num
    rw [this]; linarith
  have hn := awayInt_eq hsc
  have hwabs : |roundQ (q * 100)| = |roundQ (q * 100) / 2 ^ dptE a| * 2 ^ dptE a := by
    rw [abs_div, abs_of_pos hp]; field_simp
  have hsc1 : |roundQ (q * 100) / 2 ^ dptE a| < |(dptM a b : ℚ)| + 1 / 2 := by
    have := abs_sub_abs_le_abs_sub (roundQ (q * 100) / 2 ^ dptE a) (dptM a b : ℚ)
    linarith
  have hsc2 : |(dptM a b : ℚ)| - 1 / 2 < |roundQ (q * 100) / 2 ^ dptE a| := by
    have := abs_sub_abs_le_abs_sub (dptM a b : ℚ) (roundQ (q * 100) / 2 ^ dptE a)
    rw [abs_sub_comm] at this
    linarith
  have hneeds : NeedsExp (roundQ (q * 100)) (dptE a) := by
    constructor
    · rw [hwabs]; gcongr; linarith
    · rcases hc.2 with h | h
      · exact .inl h
      · by_cases h0 : dptE a = 0
        · exact .inl h0
        · refine .inr ?_
          have h1025 : (1025 : ℚ) ≤ |(dptM a b : ℚ)| := by exact_mod_cast h
          have e2 : (2 : ℚ) ^ dptE a = 2 * 2 ^ (dptE a - 1) := by
            rw [← pow_succ']; congr 1; omega
          rw [hwabs]
          calc (2048 : ℚ) * 2 ^ (dptE a - 1) = 1024 * 2 ^ dptE a := by rw [e2]; ring
            _ < _ := by gcongr; linarith
  have hb128 : |roundQ (q * 100)| < 2 ^ 128 := by
    refine hneeds.1.trans_lt ?_
    have : (2 : ℚ) ^ dptE a ≤ 2 ^ 7 := pow_le_pow_right₀ (by norm_num) hE
    calc 2048 * (2 : ℚ) ^ dptE a ≤ 2048 * 2 ^ 7 := by gcongr
      _ < 2 ^ 128 := by norm_num
  obtain ⟨c, d, h1, h2, h3, h4⟩ := C36_encode_exact m' q (dptE a) fuel hb128 hneeds hf
  rw [hn] at h2
  -- sign of the hundredfold
  have hsgn : roundQ (q * 100) < 0 ↔ dptM a b < 0 := by
    have hlt := abs_lt.1 hsc
    have hw0 : roundQ (q * 100) = roundQ (q * 100) / 2 ^ dptE a * 2 ^ dptE a := by field_simp
    constructor
    · intro h
      have h5 : roundQ (q * 100) / 2 ^ dptE a < 0 := div_neg_of_neg_of_pos h hp
      have h6 : (dptM a b : ℚ) < 1 := by linarith
      have h7 : dptM a b < 1 := by exact_mod_cast h6
      rcases (show dptM a b ≤ 0 by omega).eq_or_lt with h8 | h8
      · exfalso
        rw [h8] at hw
        simp only [Int.cast_zero, zero_mul, sub_zero, abs_zero, zero_div] at hw
        have := abs_nonpos_iff.1 hw
        linarith
      · exact h8
    · intro h
      have h6 : (dptM a b : ℚ) ≤ -1 := by exact_mod_cast (show dptM a b ≤ -1 by omega)
      have h5 : roundQ (q * 100) / 2 ^ dptE a < 0 := by linarith
      rw [hw0]; exact mul_neg_of_neg_of_pos h5 hp
  have hE' : dptE c = dptE a := by omega
  have hM' : dptM c d = dptM a b := by
    have hb := abs_le.1 hMb
    by_cases hneg : dptM a b < 0
    · rw [if_pos (.inl (hsgn.2 hneg))] at h4
      simp only [dptM, h4] at *; omega
    · rw [if_neg (by
        rintro (h | h)
        · exact hneg (hsgn.1 h)
        · omega)] at h4
      have : dptM c d = ((c.toNat % 8 * 256 + d.toNat : ℕ) : ℤ) := by simp [dptM, h4]
      omega
  obtain ⟨rfl, rfl⟩ := dpt_inj hM' hE'
  exact h1

-- 21 degrees and -30 degrees are canonical
example : Canonical 0x0c 0x1a ∧ Canonical 0x8a 0x24 := by unfold Canonical; decide

/-! ## C39: scaling -/

/-- The order on `f32` (NaN excluded). -/
def F32.LE : F32 → F32 → Prop
  | .fin a, .fin b => a ≤ b
  | .inf true, .fin _ => True
  | .inf true, .inf _ => True
  | .fin _, .inf false => True
  | .inf false, .inf false => True
  | _, _ => False

theorem roundF32_mono {a b : ℚ} (h : a ≤ b) : F32.LE (roundF32 a) (roundF32 b) := by
  have hm := roundQ_mono h
  have hz : ∀ x : ℚ, x < 0 → roundQ x ≤ 0 := by
    intro x hx
    have := roundQ_mono hx.le
    rwa [roundQ_zero] at this
  by_cases ha : |roundQ a| < 2 ^ 128 <;> by_cases hb : |roundQ b| < 2 ^ 128
  · simp only [roundF32, if_pos ha, if_pos hb, F32.LE]; exact hm
  · simp only [roundF32, if_pos ha, if_neg hb]
    have : ¬ b < 0 := by
      intro hb0
      have h1 := hz b hb0
      rw [abs_of_nonpos h1] at hb
      have := neg_le_abs (roundQ a)
      linarith
    simp [this, F32.LE]
  · simp only [roundF32, if_neg ha, if_pos hb]
    have : a < 0 := by
      by_contra ha0
      have h1 := roundQ_nonneg (not_lt.1 ha0)
      rw [abs_of_nonneg h1] at ha
      have := le_abs_self (roundQ b)
      linarith
    simp [this, F32.LE]
  · simp only [roundF32, if_neg ha, if_neg hb]
    by_cases ha0 : a < 0
    · simp [ha0, F32.LE]
    · simp [ha0, show ¬ b < 0 by linarith, F32.LE]

theorem mul254_mono {x y : F32} (h : F32.LE x y) : F32.LE (x.mul (.fin F32.c254)) (y.mul (.fin F32.c254)) := by
  have hc : (0 : ℚ) < F32.c254 := by norm_num [F32.c254]
  have hinf : ∀ s, F32.mul (.inf s) (.fin F32.c254) = .inf s := by
    intro s; simp [F32.mul, hc.ne', not_lt.2 hc.le]
  have hle : ∀ q : ℚ, F32.LE (.inf true) (roundF32 q) ∧ F32.LE (roundF32 q) (.inf false) := by
    intro q; simp only [roundF32]; split <;> simp [F32.LE]
    cases decide (q < 0) <;> simp [F32.LE]
  cases x with
  | nan => simp [F32.LE] at h
  | inf s =>
    rw [hinf]
    cases y with
    | nan => cases s <;> simp [F32.LE] at h
    | inf t => rw [hinf]; exact h
    | fin b =>
      cases s with
      | true => exact (hle _).1
      | false => simp [F32.LE] at h
  | fin a =>
    cases y with
    | nan => simp [F32.LE] at h
    | inf t =>
      rw [hinf]
      cases t with
      | true => simp [F32.LE] at h
      | false => exact (hle _).2
    | fin b => exact roundF32_mono (mul_le_mul_of_nonneg_right h hc.le)

theorem add1_mono {x y : F32} (h : F32.LE x y) : F32.LE (x.add (.fin 1)) (y.add (.fin 1)) := by
  have hle : ∀ q : ℚ, F32.LE (.inf true) (roundF32 q) ∧ F32.LE (roundF32 q) (.inf false) := by
    intro q; simp only [roundF32]; split <;> simp [F32.LE]
    cases decide (q < 0) <;> simp [F32.LE]
  cases x with
  | nan => simp [F32.LE] at h
  | inf s =>
    cases y with
    | nan => cases s <;> simp [F32.LE] at h
    | inf t => exact h
    | fin b =>
      cases s with
      | true => exact (hle _).1
      | false => simp [F32.LE] at h
  | fin a =>
    cases y with
    | nan => simp [F32.LE] at h
    | inf t =>
      cases t with
      | true => simp [F32.LE] at h
      | false => exact (hle _).2
    | fin b => exact roundF32_mono (by have : a ≤ b := h; linarith)

/-- Rounding and conversion of a finite number to a byte. -/
theorem toU8_round_fin (q : ℚ) :
    ((F32.round (.fin q)).toU8.toNat : ℤ) = max 0 (min 255 (F32.awayInt q)) := by
  simp only [F32.round, F32.toU8, F32.toIntSat, truncInt_int, BitVec.toNat_ofInt]
  norm_num
  omega

theorem toU8_mono {x y : F32} (h : F32.LE x y) : (F32.round x).toU8.toNat ≤ (F32.round y).toU8.toNat := by
  have h0 : (F32.round (.inf true)).toU8.toNat = 0 := by decide
  have h1 : (F32.round (.inf false)).toU8.toNat = 255 := by decide
  cases x with
  | nan => simp [F32.LE] at h
  | inf s =>
    cases s with
    | true => rw [h0]; exact Nat.zero_le _
    | false =>
      cases y with
      | nan => simp [F32.LE] at h
      | inf t => cases t <;> first | exact le_rfl | simp [F32.LE] at h
      | fin b => simp [F32.LE] at h
  | fin a =>
    cases y with
    | nan => simp [F32.LE] at h
    | inf t =>
      cases t with
      | true => simp [F32.LE] at h
      | false => rw [h1]; have := (F32.round (.fin a)).toU8.isLt; omega
    | fin b =>
      have := awayInt_mono (show a ≤ b from h)
      have ea := toU8_round_fin a
      have eb := toU8_round_fin b
      omega

/-- **C39 (monotone)**. -/
theorem C39_monotone (p p' : F32) (h : F32.LE p p') :
    (PdtScaled.scaling p).value.toNat ≤ (PdtScaled.scaling p').value.toNat :=
  toU8_mono (add1_mono (mul254_mono h))

/-- Small numbers round with a small error. -/
theorem roundQ_err_small {q : ℚ} (h : |q| ≤ 300) : |roundQ q - q| ≤ 1 / 50000 := by
  refine (roundQ_err q).trans (max_le ?_ (by norm_num))
  rw [div_le_iff₀ (by norm_num)]
  refine h.trans (by norm_num)

/-- The scaled byte of a moderate percentage. -/
theorem scaling_fin (p : ℚ) (h : |p| ≤ 110) :
    ((PdtScaled.scaling (.fin p)).value.toNat : ℤ)
      = max 0 (min 255 (F32.awayInt (roundQ (roundQ (p * F32.c254) + 1)))) ∧
    |roundQ (roundQ (p * F32.c254) + 1) - (p * F32.c254 + 1)| ≤ 1 / 25000 := by
  have hc : |F32.c254| ≤ 2.54 := by norm_num [F32.c254]
  have h1 : |p * F32.c254| ≤ 280 := by
    rw [abs_mul]
    calc |p| * |F32.c254| ≤ 110 * 2.54 := by gcongr
      _ ≤ 280 := by norm_num
  have e1 := roundQ_err_small (q := p * F32.c254) (by linarith)
  have e1' := abs_le.1 e1
  have h1' := abs_le.1 h1
  have h2 : |roundQ (p * F32.c254) + 1| ≤ 300 := by
    rw [abs_le]; constructor <;> linarith
  have e2 := abs_le.1 (roundQ_err_small h2)
  have b1 : |roundQ (p * F32.c254)| < 2 ^ 128 := roundQ_lt (h1.trans (by norm_num))
  have b2 : |roundQ (roundQ (p * F32.c254) + 1)| < 2 ^ 128 := roundQ_lt (h2.trans (by norm_num))
  constructor
  · have : PdtScaled.scaling (.fin p) = ⟨"5.001", "%", (F32.round (.fin (roundQ (roundQ (p * F32.c254) + 1)))).toU8⟩ := by
      simp only [PdtScaled.scaling, F32.mul]
      rw [roundF32_fin b1]
      simp only [F32.add]
      rw [roundF32_fin b2]
    rw [this]
    exact toU8_round_fin _
  · rw [abs_le]; constructor <;> linarith

/-- **C39 (saturation)**: 100 percent and more give 255, -0.2 percent and less give 0, NaN gives 0. -/
theorem C39_saturates (p : F32) :
    (F32.LE (.fin 100) p → (PdtScaled.scaling p).value = 255) ∧
    (F32.LE p (.fin (-1 / 5)) → (PdtScaled.scaling p).value = 0) ∧
    (p = .nan → (PdtScaled.scaling p).value = 0) := by
  refine ⟨fun h => ?_, fun h => ?_, fun h => ?_⟩
  · have hm := C39_monotone _ _ h
    obtain ⟨h1, h2⟩ := scaling_fin 100 (by norm_num)
    have : F32.awayInt (roundQ (roundQ (100 * F32.c254) + 1)) = 255 := by
      apply awayInt_eq
      rw [abs_le] at h2; norm_num [F32.c254] at h2 ⊢
      rw [abs_lt]; constructor <;> linarith
    rw [this] at h1
    apply BitVec.eq_of_toNat_eq
    have := (PdtScaled.scaling p).value.isLt
    change _ = 255
    omega
  · have hm := C39_monotone _ _ h
    obtain ⟨h1, h2⟩ := scaling_fin (-1 / 5) (by norm_num)
    have : F32.awayInt (roundQ (roundQ (-1 / 5 * F32.c254) + 1)) = 0 := by
      apply awayInt_eq
      rw [abs_le] at h2; norm_num [F32.c254] at h2 ⊢
      rw [abs_lt]; constructor <;> linarith
    rw [this] at h1
    apply BitVec.eq_of_toNat_eq
    change _ = 0
    omega
  · subst h; decide

/-- **C39 (accuracy)**: a percentage between 0 and 100 is mapped to within 1.5 steps of `255 p / 100`. -/
theorem C39_accuracy (p : ℚ) (h0 : 0 ≤ p) (h1 : p ≤ 100) :
    |((PdtScaled.scaling (.fin p)).value.toNat : ℚ) - 255 * p / 100| ≤ 3 / 2 := by
  obtain ⟨hv, he⟩ := scaling_fin p (by rw [abs_of_nonneg h0]; linarith)
  have he' := abs_le.1 he
  have hc1 : F32.c254 ≤ 2.54 := by norm_num [F32.c254]
  have hc2 : 2.54 - 1 / 10000000 ≤ F32.c254 := by norm_num [F32.c254]
  have hpc1 : p * F32.c254 ≤ p * 2.54 := by gcongr
  have hpc2 : p * (2.54 - 1 / 10000000) ≤ p * F32.c254 := by gcongr
  have ha := awayInt_err (roundQ (roundQ (p * F32.c254) + 1))
  generalize roundQ (roundQ (p * F32.c254) + 1) = y at *
  norm_num at hpc1 hpc2
  have hr : 0 ≤ F32.awayInt y ∧ F32.awayInt y ≤ 255 := by
    have e0 : F32.awayInt ((0 : ℤ) : ℚ) = 0 := awayInt_eq (by norm_num)
    have e255 : F32.awayInt (255.1 : ℚ) = 255 := awayInt_eq (by norm_num)
    constructor
    · rw [← e0]; apply awayInt_mono; push_cast; linarith
    · rw [← e255]; apply awayInt_mono; norm_num; linarith
  have hv' : ((PdtScaled.scaling (.fin p)).value.toNat : ℤ) = F32.awayInt y := by omega
  have hv'' : ((PdtScaled.scaling (.fin p)).value.toNat : ℚ) = F32.awayInt y := by exact_mod_cast hv'
  rw [hv'']
  rw [abs_le] at ha
  by_cases hp : p < 1 / 10
  · have : F32.awayInt y = 1 := by
      apply awayInt_eq; rw [abs_lt]; push_cast; constructor <;> linarith
    rw [this, abs_le]; push_cast; constructor <;> linarith
  · rw [abs_le]; constructor <;> linarith

/-- **C39 (round trip)**: converting a raw byte other than 0 to a percentage and back gives the byte. -/
theorem C39_roundtrip (s : PdtScaled) (h : s.value ≠ 0) : (PdtScaled.scaling s.getValue).value = s.value := by
  have hlt := s.value.isLt
  have h1 : 1 ≤ s.value.toNat := by
    rcases Nat.eq_zero_or_pos s.value.toNat with h0 | h0
    · exact absurd (BitVec.eq_of_toNat_eq (by simpa using h0)) h
    · exact h0
  have hsub : (s.value - 1).toNat = s.value.toNat - 1 := by
    rw [BitVec.toNat_sub_of_le]
    · rfl
    · rw [BitVec.le_def]; exact h1
  have hr : ((s.value - 1).toNat : ℚ) = s.value.toNat - 1 := by
    rw [hsub]; push_cast [h1]; ring
  have hn1 : (1 : ℚ) ≤ s.value.toNat := by exact_mod_cast h1
  have hn2 : (s.value.toNat : ℚ) ≤ 255 := by exact_mod_cast (show s.value.toNat ≤ 255 by omega)
  have hc : 2.53 ≤ F32.c254 := by norm_num [F32.c254]
  have hc' : F32.c254 ≤ 2.54 := by norm_num [F32.c254]
  have hcp : 0 < F32.c254 := by norm_num [F32.c254]
  have hx0 : 0 ≤ ((s.value.toNat : ℚ) - 1) / F32.c254 := div_nonneg (by linarith) hcp.le
  have hx1 : ((s.value.toNat : ℚ) - 1) / F32.c254 ≤ 101 := by
    rw [div_le_iff₀ hcp]; norm_num at hc; linarith
  have e1 := roundQ_err_small (q := ((s.value.toNat : ℚ) - 1) / F32.c254) (by rw [abs_of_nonneg hx0]; linarith)
  have hg : s.getValue = .fin (roundQ (((s.value.toNat : ℚ) - 1) / F32.c254)) := by
    simp only [PdtScaled.getValue, if_neg h, F32.divFin, hr]
    apply roundF32_fin
    apply roundQ_lt
    rw [abs_of_nonneg hx0]; norm_num; linarith
  have e1' := abs_le.1 e1
  rw [hg]
  have hexact : ((s.value.toNat : ℚ) - 1) / F32.c254 * F32.c254 = s.value.toNat - 1 := by field_simp
  generalize ((s.value.toNat : ℚ) - 1) / F32.c254 = x at *
  obtain ⟨hv, he⟩ := scaling_fin (roundQ x) (by rw [abs_le]; constructor <;> linarith)
  have hprod : |roundQ x * F32.c254 - (s.value.toNat - 1)| ≤ 1 / 10000 := by
    rw [← hexact, ← sub_mul, abs_mul, abs_of_pos hcp]
    calc |roundQ x - x| * F32.c254 ≤ 1 / 50000 * 2.54 := by gcongr
      _ ≤ 1 / 10000 := by norm_num
  have hprod' := abs_le.1 hprod
  have he' := abs_le.1 he
  have : F32.awayInt (roundQ (roundQ (roundQ x * F32.c254) + 1)) = (s.value.toNat : ℤ) := by
    apply awayInt_eq; rw [abs_lt]; push_cast; constructor <;> linarith
  rw [this] at hv
  apply BitVec.eq_of_toNat_eq
  omega

/-- The exception: raw 0 reads as 0 percent, which is written as raw 1. -/
theorem C39_zero (s : PdtScaled) (h : s.value = 0) :
    s.getValue = .fin 0 ∧ (PdtScaled.scaling s.getValue).value = 1 := by
  have hg : s.getValue = .fin 0 := by simp [PdtScaled.getValue, h]
  refine ⟨hg, ?_⟩
  rw [hg]
  obtain ⟨hv, he⟩ := scaling_fin 0 (by norm_num)
  have he' := abs_le.1 he
  have : F32.awayInt (roundQ (roundQ (0 * F32.c254) + 1)) = 1 := by
    apply awayInt_eq; rw [abs_lt]; push_cast; norm_num at he' ⊢; constructor <;> linarith
  rw [this] at hv
  apply BitVec.eq_of_toNat_eq
  change _ = 1
  omega

example : F32.LE (.fin 20) (.fin 50) ∧ F32.LE (.fin 100) (.inf false) := by
  constructor
  · show (20 : ℚ) ≤ 50; norm_num
  · trivial
example : (PdtScaled.general 128).value ≠ 0 := by decide

end Knx
