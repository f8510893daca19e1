import Verif.Lemmas.Addresses

/-!
# Properties C01-C06: addresses
-/

namespace Knx

open Spec

/-! ## C01 -/

/-- C01: every word survives decode-encode; an individual address survives encode-decode
exactly when its area and line fit in four bits. -/
theorem C01_individual_u16_roundtrip :
    (∀ w : U16, (IndAddr.ofU16 w).toU16 = w) ∧
    (∀ a : IndAddr, IndAddr.ofU16 a.toU16 = a ↔ a.area.toNat < 16 ∧ a.line.toNat < 16) := by
  constructor
  · intro w
    unfold IndAddr.toU16 IndAddr.ofU16
    bits16
  · rintro ⟨a, l, d⟩
    constructor
    · intro h
      have ha : (IndAddr.ofU16 (IndAddr.toU16 ⟨a, l, d⟩)).area = a := by rw [h]
      have hl : (IndAddr.ofU16 (IndAddr.toU16 ⟨a, l, d⟩)).line = l := by rw [h]
      constructor
      · rw [← ha]; simp only [IndAddr.ofU16]
        generalize (IndAddr.toU16 ⟨a, l, d⟩) = w
        have : (61440#16 &&& w).toNat ≤ 61440 := by
          rw [BitVec.toNat_and]; exact Nat.and_le_left
        simp only [BitVec.toNat_setWidth, BitVec.toNat_ushiftRight, Nat.shiftRight_eq_div_pow]
        omega
      · rw [← hl]; simp only [IndAddr.ofU16]
        generalize (IndAddr.toU16 ⟨a, l, d⟩) = w
        have : (3840#16 &&& w).toNat ≤ 3840 := by
          rw [BitVec.toNat_and]; exact Nat.and_le_left
        simp only [BitVec.toNat_setWidth, BitVec.toNat_ushiftRight, Nat.shiftRight_eq_div_pow]
        omega
    · rintro ⟨ha, hl⟩
      obtain ⟨a, rfl⟩ := exists_setWidth 4 a ha
      obtain ⟨l, rfl⟩ := exists_setWidth 4 l hl
      simp only [IndAddr.ofU16, IndAddr.toU16, IndAddr.mk.injEq]
      refine ⟨?_, ?_, ?_⟩ <;> bits8

/-- Both sides of the equivalence of C01 occur. -/
example : IndAddr.ofU16 (IndAddr.toU16 ⟨15, 3, 200⟩) = ⟨15, 3, 200⟩ ∧
    IndAddr.ofU16 (IndAddr.toU16 ⟨16, 3, 200⟩) ≠ ⟨16, 3, 200⟩ := by decide

/-! ## C02 -/

/-- C02: every word survives decode-encode; a three-level group address survives encode-decode
exactly when main fits in five bits and middle in three. -/
theorem C02_group3_u16_roundtrip :
    (∀ w : U16, (Group3.ofU16 w).toU16 = w) ∧
    (∀ a : Group3, Group3.ofU16 a.toU16 = a ↔ a.main.toNat < 32 ∧ a.middle.toNat < 8) := by
  constructor
  · intro w
    unfold Group3.toU16 Group3.ofU16
    bits16
  · rintro ⟨a, l, d⟩
    constructor
    · intro h
      have ha : (Group3.ofU16 (Group3.toU16 ⟨a, l, d⟩)).main = a := by rw [h]
      have hl : (Group3.ofU16 (Group3.toU16 ⟨a, l, d⟩)).middle = l := by rw [h]
      constructor
      · rw [← ha]; simp only [Group3.ofU16]
        generalize (Group3.toU16 ⟨a, l, d⟩) = w
        have : (w &&& 31#16 <<< 11).toNat ≤ (31#16 <<< 11).toNat := by
          rw [BitVec.toNat_and]; exact Nat.and_le_right
        have e : (31#16 <<< 11).toNat = 63488 := by decide
        simp only [BitVec.toNat_setWidth, BitVec.toNat_ushiftRight, Nat.shiftRight_eq_div_pow]
        omega
      · rw [← hl]; simp only [Group3.ofU16]
        generalize (Group3.toU16 ⟨a, l, d⟩) = w
        have : (w &&& 7#16 <<< 8).toNat ≤ (7#16 <<< 8).toNat := by
          rw [BitVec.toNat_and]; exact Nat.and_le_right
        have e : (7#16 <<< 8).toNat = 1792 := by decide
        simp only [BitVec.toNat_setWidth, BitVec.toNat_ushiftRight, Nat.shiftRight_eq_div_pow]
        omega
    · rintro ⟨ha, hl⟩
      obtain ⟨a, rfl⟩ := exists_setWidth 5 a ha
      obtain ⟨l, rfl⟩ := exists_setWidth 3 l hl
      simp only [Group3.ofU16, Group3.toU16, Group3.mk.injEq]
      refine ⟨?_, ?_, ?_⟩ <;> bits8

example : Group3.ofU16 (Group3.toU16 ⟨31, 7, 255⟩) = ⟨31, 7, 255⟩ ∧
    Group3.ofU16 (Group3.toU16 ⟨31, 8, 255⟩) ≠ ⟨31, 8, 255⟩ := by decide

/-! ## C03

Full statement: `∀ a, InRange a → a.toU16.toNat = knxCode a`, and distinct in-range addresses of
the same kind have distinct codes. The first half is false for two-level group addresses. -/

theorem IndAddr.toU16_toNat (a : IndAddr) (h1 : a.area.toNat < 16) (h2 : a.line.toNat < 16) :
    a.toU16.toNat = a.area.toNat * 2 ^ 12 + a.line.toNat * 2 ^ 8 + a.address.toNat := by
  have h3 := a.address.isLt
  have hlow : a.line.toNat <<< 8 ||| a.address.toNat < 2 ^ 12 := by
    rw [← Nat.shiftLeft_add_eq_or_of_lt h3, Nat.shiftLeft_eq]; omega
  rw [← or3_toNat _ _ _ _ _ hlow h3]
  have e1 : a.area.toNat <<< 12 < 65536 := by rw [Nat.shiftLeft_eq]; omega
  have e2 : a.line.toNat <<< 8 < 65536 := by rw [Nat.shiftLeft_eq]; omega
  have w1 : a.area.toNat % 65536 = a.area.toNat := Nat.mod_eq_of_lt (by omega)
  have w2 : a.line.toNat % 65536 = a.line.toNat := Nat.mod_eq_of_lt (by omega)
  have w3 : a.address.toNat % 65536 = a.address.toNat := Nat.mod_eq_of_lt (by omega)
  simp [IndAddr.toU16, BitVec.toNat_or, BitVec.toNat_shiftLeft, BitVec.toNat_setWidth, w1, w2, w3,
    Nat.mod_eq_of_lt e1, Nat.mod_eq_of_lt e2, Nat.or_assoc]

theorem Group3.toU16_toNat (a : Group3) (h1 : a.main.toNat < 32) (h2 : a.middle.toNat < 8) :
    a.toU16.toNat = a.main.toNat * 2 ^ 11 + a.middle.toNat * 2 ^ 8 + a.sub.toNat := by
  have h3 := a.sub.isLt
  have hlow : a.middle.toNat <<< 8 ||| a.sub.toNat < 2 ^ 11 := by
    rw [← Nat.shiftLeft_add_eq_or_of_lt h3, Nat.shiftLeft_eq]; omega
  rw [← or3_toNat _ _ _ _ _ hlow h3]
  have e1 : a.main.toNat <<< 11 < 65536 := by rw [Nat.shiftLeft_eq]; omega
  have e2 : a.middle.toNat <<< 8 < 65536 := by rw [Nat.shiftLeft_eq]; omega
  have w1 : a.main.toNat % 65536 = a.main.toNat := Nat.mod_eq_of_lt (by omega)
  have w2 : a.middle.toNat % 65536 = a.middle.toNat := Nat.mod_eq_of_lt (by omega)
  have w3 : a.sub.toNat % 65536 = a.sub.toNat := Nat.mod_eq_of_lt (by omega)
  simp [Group3.toU16, BitVec.toNat_or, BitVec.toNat_shiftLeft, BitVec.toNat_setWidth, w1, w2, w3,
    Nat.mod_eq_of_lt e1, Nat.mod_eq_of_lt e2, Nat.or_assoc]

theorem Group2.toU16_toNat (a : Group2) : a.toU16.toNat = a.main.toNat * 2 ^ 8 + a.sub.toNat := by
  have h3 := a.sub.isLt
  have h1 := a.main.isLt
  have e1 : a.main.toNat <<< 8 < 65536 := by rw [Nat.shiftLeft_eq]; omega
  have w1 : a.main.toNat % 65536 = a.main.toNat := Nat.mod_eq_of_lt (by omega)
  have w3 : a.sub.toNat % 65536 = a.sub.toNat := Nat.mod_eq_of_lt (by omega)
  have : a.toU16.toNat = a.main.toNat <<< 8 ||| a.sub.toNat := by
    simp [Group2.toU16, BitVec.toNat_or, BitVec.toNat_shiftLeft, BitVec.toNat_setWidth, w1, w3,
      Nat.mod_eq_of_lt e1]
  rw [this, ← Nat.shiftLeft_add_eq_or_of_lt h3, Nat.shiftLeft_eq]

/-- C03, the code numbers, for individual, three-level and one-level addresses.
Missing: two-level addresses, for which it is false (`C03_group2_violated`). -/
theorem C03_codes_partial (a : KnxAddress) (hr : InRange a) (h2 : ∀ g, a ≠ .group2 g) :
    a.toU16.toNat = knxCode a := by
  cases a with
  | individual x => exact x.toU16_toNat hr.1 hr.2
  | group3 x => exact x.toU16_toNat hr.1 hr.2
  | group2 x => exact absurd rfl (h2 x)
  | group1 x => rfl

example : InRange (.group3 ⟨31, 7, 9⟩) ∧ (KnxAddress.group3 ⟨31, 7, 9⟩).toU16.toNat = 65289 :=
  ⟨by simp [InRange], by decide⟩

/-- C03 refuted for two-level group addresses: the code is right only for main group 0. -/
theorem C03_group2_violated (x : Group2) (_hr : InRange (.group2 x)) :
    (KnxAddress.group2 x).toU16.toNat = knxCode (.group2 x) ↔ x.main = 0 := by
  have h := x.toU16_toNat
  simp only [KnxAddress.toU16, knxCode, h]
  constructor
  · intro h'; apply BitVec.eq_of_toNat_eq; simp; omega
  · intro h'; simp [h']

example : InRange (.group2 ⟨1, 5⟩) ∧ (KnxAddress.group2 ⟨1, 5⟩).toU16 = 0x0105 ∧
    knxCode (.group2 ⟨1, 5⟩) = 0x0805 :=
  ⟨by simp [InRange], by decide, by decide⟩

/-- C03, what the code does for every two-level group address: main * 2^8 + sub, so the frame
carries the address that the standard calls (main / 8) / ((main % 8) * 256 + sub). -/
theorem C03_group2_actual (x : Group2) :
    (KnxAddress.group2 x).toU16.toNat = x.main.toNat * 2 ^ 8 + x.sub.toNat := x.toU16_toNat

/-- C03: distinct in-range addresses of the same kind have distinct codes (all four kinds). -/
theorem C03_injective (a b : KnxAddress) (hk : SameKind a b) (ha : InRange a) (hb : InRange b)
    (h : a.toU16 = b.toU16) : a = b := by
  cases a <;> cases b <;> simp only [SameKind] at hk
  · rename_i x y
    simp only [InRange] at ha hb
    have e1 := (C01_individual_u16_roundtrip.2 x).2 ha
    have e2 := (C01_individual_u16_roundtrip.2 y).2 hb
    simp only [KnxAddress.toU16] at h
    rw [← e1, h, e2]
  · rename_i x y
    simp only [InRange] at ha hb
    have e1 := (C02_group3_u16_roundtrip.2 x).2 ha
    have e2 := (C02_group3_u16_roundtrip.2 y).2 hb
    simp only [KnxAddress.toU16] at h
    rw [← e1, h, e2]
  · rename_i x y
    have e1 := x.toU16_toNat
    have e2 := y.toU16_toNat
    simp only [KnxAddress.toU16] at h
    rw [h] at e1
    obtain ⟨xm, xs⟩ := x
    obtain ⟨ym, ys⟩ := y
    have h1 := xs.isLt
    have h2 := ys.isLt
    simp only at e1 e2
    simp only [KnxAddress.group2.injEq, Group2.mk.injEq]
    constructor <;> apply BitVec.eq_of_toNat_eq <;> omega
  · rename_i x y
    cases x; cases y
    simp only [KnxAddress.toU16, Group1.toU16] at h
    subst h; rfl

example : SameKind (.group2 ⟨1, 5⟩) (.group2 ⟨2, 5⟩) ∧ InRange (.group2 ⟨2, 5⟩) := by
  simp [SameKind, InRange]

/-! ## C05 (before C04, which uses it) -/

/-- C05: the parser accepts exactly the strings of the address syntax, with exactly the
components written in them, and never panics. -/
theorem C05_parser_exact :
    (∀ s a, KnxAddress.parse s = .ok a ↔ AddrText s a) ∧ (∀ s, KnxAddress.parse s ≠ .panic) := by
  constructor
  · intro s a
    constructor
    · intro h
      unfold KnxAddress.parse at h
      split at h
      · split at h
        · rename_i x hx
          simp only [Res.ok.injEq] at h
          subst h
          obtain ⟨s0, s1, s2, rfl, h0, h1, h2⟩ := indParse_iff.1 hx
          exact .individual s0 s1 s2 x h0 h1 h2
        · cases h
        · cases h
      · split at h
        · rename_i p0 hs
          obtain ⟨_, rfl⟩ := splitOn_one hs
          split at h
          · rename_i x hx
            simp only [Res.ok.injEq] at h
            subst h
            exact .group1 _ _ (parseU16_iff.1 hx)
          · cases h
        · rename_i p0 p1 hs
          obtain ⟨_, _, rfl⟩ := splitOn_two hs
          split at h
          · cases h
          · rename_i x hx
            split at h
            · cases h
            · rename_i y hy
              simp only [Res.ok.injEq] at h
              subst h
              exact .group2 _ _ _ (parseU8_iff.1 hx) (parseU8_iff.1 hy)
        · rename_i p0 p1 p2 hs
          obtain ⟨_, _, _, rfl⟩ := splitOn_three hs
          split at h
          · cases h
          · rename_i x hx
            split at h
            · cases h
            · rename_i y hy
              split at h
              · cases h
              · rename_i z hz
                simp only [Res.ok.injEq] at h
                subst h
                exact .group3 _ _ _ _ (parseU8_iff.1 hx) (parseU8_iff.1 hy) (parseU8_iff.1 hz)
        · cases h
    · intro h
      unfold KnxAddress.parse
      cases h with
      | individual s0 s1 s2 x h0 h1 h2 =>
        have : IndAddr.parse (s0 ++ ['.'] ++ s1 ++ ['.'] ++ s2) = .ok x :=
          indParse_iff.2 ⟨s0, s1, s2, rfl, h0, h1, h2⟩
        rw [this]; simp
      | group3 s0 s1 s2 x h0 h1 h2 =>
        have hd : (s0 ++ ['/'] ++ s1 ++ ['/'] ++ s2).contains '.' = false := by
          simp [h0.no_dot, h1.no_dot, h2.no_dot]
        have e : s0 ++ ['/'] ++ s1 ++ ['/'] ++ s2 = s0 ++ '/' :: (s1 ++ '/' :: s2) := by simp
        rw [hd, e, splitOn_append h0.no_slash, splitOn_append h1.no_slash, splitOn_no_sep h2.no_slash]
        simp [parseU8_iff.2 h0, parseU8_iff.2 h1, parseU8_iff.2 h2]
      | group2 s0 s1 x h0 h1 =>
        have hd : (s0 ++ ['/'] ++ s1).contains '.' = false := by
          simp [h0.no_dot, h1.no_dot]
        have e : s0 ++ ['/'] ++ s1 = s0 ++ '/' :: s1 := by simp
        rw [hd, e, splitOn_append h0.no_slash, splitOn_no_sep h1.no_slash]
        simp [parseU8_iff.2 h0, parseU8_iff.2 h1]
      | group1 _ x h0 =>
        have hd : s.contains '.' = false := by
          simp [h0.no_dot]
        rw [hd, splitOn_no_sep h0.no_slash]
        simp [parseU16_iff.2 h0]
  · intro s
    unfold KnxAddress.parse
    have := indParse_ne_panic s
    split
    · split <;> simp_all
    · repeat' split
      all_goals simp

example : KnxAddress.parse "1/+02/255".toList = .ok (.group3 ⟨1, 2, 255⟩) ∧
    KnxAddress.parse "1/2/256".toList = .err ∧ KnxAddress.parse "1.2".toList = .err ∧
    KnxAddress.parse "65535".toList = .ok (.group1 ⟨65535⟩) := by decide +kernel

/-! ## C04 -/

/-- C04: the text of every address parses back to that address (same kind, same fields). -/
theorem C04_print_parse (a : KnxAddress) : KnxAddress.parse a.text = .ok a := by
  rw [C05_parser_exact.1]
  cases a with
  | individual x =>
    have := AddrText.individual _ _ _ x (showNat_numeral _) (showNat_numeral _) (showNat_numeral _)
    simpa [KnxAddress.text, showU] using this
  | group3 x =>
    have := AddrText.group3 _ _ _ x (showNat_numeral _) (showNat_numeral _) (showNat_numeral _)
    simpa [KnxAddress.text, showU] using this
  | group2 x =>
    have := AddrText.group2 _ _ x (showNat_numeral _) (showNat_numeral _)
    simpa [KnxAddress.text, showU] using this
  | group1 x => exact AddrText.group1 _ x (showNat_numeral _)

/-- The text is the expected one (the theorem is not about an arbitrary encoding). -/
example : (KnxAddress.individual ⟨1, 12, 255⟩).text = "1.12.255".toList ∧
    (KnxAddress.group2 ⟨0, 100⟩).text = "0/100".toList := by decide +kernel

/-! ## C06 -/

/-- C06: the three-level parser accepts exactly the strings that the general parser reads as a
three-level group address, with the same result, and never panics. -/
theorem C06_group3_parsers_agree :
    (∀ s x, Group3.parse s = .ok x ↔ KnxAddress.parse s = .ok (.group3 x)) ∧
    (∀ s, Group3.parse s ≠ .panic) := by
  refine ⟨fun s x => ?_, group3Parse_ne_panic⟩
  rw [C05_parser_exact.1, group3Parse_iff]
  constructor
  · rintro ⟨s0, s1, s2, rfl, h0, h1, h2⟩
    exact .group3 _ _ _ _ h0 h1 h2
  · intro h
    cases h with
    | group3 s0 s1 s2 _ h0 h1 h2 => exact ⟨s0, s1, s2, rfl, h0, h1, h2⟩

example : Group3.parse "5/4/3".toList = .ok ⟨5, 4, 3⟩ ∧ Group3.parse "5/4".toList = .err := by decide +kernel

end Knx
