import Verif.Spec.Addresses
import Verif.Lemmas.Prim

/-! Helper lemmas for the address properties. -/

namespace Knx

open Spec

theorem or3_toNat (a b c s t : Nat) (hb : b <<< t ||| c < 2 ^ s) (hc : c < 2 ^ t) :
    a <<< s ||| (b <<< t ||| c) = a * 2 ^ s + b * 2 ^ t + c := by
  rw [← Nat.shiftLeft_add_eq_or_of_lt hb, ← Nat.shiftLeft_add_eq_or_of_lt hc, Nat.shiftLeft_eq,
    Nat.shiftLeft_eq]; omega

theorem digitVal_eq_some {c : Char} {d : Nat} :
    digitVal c = some d ↔ d < 10 ∧ c = Char.ofNat (48 + d) := by
  unfold digitVal
  constructor
  · split
    · rename_i h
      obtain ⟨h1, h2⟩ := h
      intro hd
      simp only [Option.some.injEq] at hd
      have e0 : '0'.toNat = 48 := rfl
      have h1' : 48 ≤ c.toNat := h1
      have h2' : c.toNat ≤ 57 := h2
      refine ⟨by omega, ?_⟩
      rw [← hd, e0, Nat.add_sub_cancel' h1', Char.ofNat_toNat]
    · simp
  · rintro ⟨hd, rfl⟩
    have hc : d = 0 ∨ d = 1 ∨ d = 2 ∨ d = 3 ∨ d = 4 ∨ d = 5 ∨ d = 6 ∨ d = 7 ∨ d = 8 ∨ d = 9 := by omega
    rcases hc with h | h | h | h | h | h | h | h | h | h <;> subst h <;> decide

/-- Value of a digit string, most significant first, with an accumulator. -/
inductive DigitsAcc : Nat → List Char → Nat → Prop
  | nil (acc : Nat) : DigitsAcc acc [] acc
  | cons (acc d : Nat) (c : Char) (cs : List Char) (n : Nat) : digitVal c = some d →
      DigitsAcc (acc * 10 + d) cs n → DigitsAcc acc (c :: cs) n

theorem DigitsAcc.le {acc : Nat} {cs : List Char} {n : Nat} (h : DigitsAcc acc cs n) : acc ≤ n := by
  induction h with
  | nil => omega
  | cons acc d c cs n _ _ ih => omega

theorem parseDigits_iff {max : Nat} {cs : List Char} {acc n : Nat} (ha : acc ≤ max) :
    parseDigits max acc cs = some n ↔ DigitsAcc acc cs n ∧ n ≤ max := by
  induction cs generalizing acc with
  | nil =>
    simp only [parseDigits, Option.some.injEq]
    constructor
    · rintro rfl; exact ⟨.nil _, ha⟩
    · rintro ⟨h, _⟩; cases h; rfl
  | cons c cs ih =>
    simp only [parseDigits]
    cases hd : digitVal c with
    | none =>
      simp only [ite_self, reduceCtorEq, false_iff]
      rintro ⟨h, _⟩
      cases h with
      | cons _ _ _ _ _ h1 _ => rw [hd] at h1; cases h1
    | some d =>
      constructor
      · intro h
        by_cases h1 : acc * 10 ≤ max
        · by_cases h2 : acc * 10 + d ≤ max
          · simp only [h1, h2, if_true] at h
            have := (ih h2).1 h
            exact ⟨.cons _ _ _ _ _ hd this.1, this.2⟩
          · simp [h2] at h
        · simp [h1] at h
      · rintro ⟨h, hn⟩
        cases h with
        | cons _ d' _ _ _ h1 h2 =>
          rw [hd] at h1
          cases h1
          have := h2.le
          simp only [show acc * 10 ≤ max by omega, show acc * 10 + d ≤ max by omega, if_true]
          exact (ih (by omega)).2 ⟨h2, hn⟩

theorem DigitsAcc.snoc {acc : Nat} {cs : List Char} {n d : Nat} {c : Char} (h : DigitsAcc acc cs n)
    (hc : digitVal c = some d) : DigitsAcc acc (cs ++ [c]) (n * 10 + d) := by
  induction h with
  | nil => exact .cons _ _ _ _ _ hc (.nil _)
  | cons acc d' c' cs n h1 _ ih => exact .cons _ _ _ _ _ h1 ih

theorem DigitsAcc.append {acc m : Nat} {cs ds : List Char} {n : Nat} (h : DigitsAcc acc cs m)
    (h' : DigitsAcc m ds n) : DigitsAcc acc (cs ++ ds) n := by
  induction h with
  | nil => exact h'
  | cons acc d' c' cs n h1 _ ih => exact .cons _ _ _ _ _ h1 (ih h')

theorem digitsVal_to_acc {ds : List Char} {n : Nat} (h : DigitsVal ds n) : DigitsAcc 0 ds n := by
  induction h with
  | nil => exact .nil _
  | snoc ds n d c _ hd hc ih =>
    have := ih.snoc (digitVal_eq_some.2 ⟨hd, hc⟩)
    rwa [Nat.mul_comm] at this

theorem digitsVal_append_acc {pre ds : List Char} {acc n : Nat} (hp : DigitsVal pre acc)
    (h : DigitsAcc acc ds n) : DigitsVal (pre ++ ds) n := by
  induction h generalizing pre with
  | nil => simpa using hp
  | cons acc d c cs n h1 _ ih =>
    have hd := digitVal_eq_some.1 h1
    have := ih (pre := pre ++ [c]) (by
      have := DigitsVal.snoc pre acc d c hp hd.1 hd.2
      rwa [Nat.mul_comm])
    simpa using this

theorem digitsVal_iff_acc {ds : List Char} {n : Nat} : DigitsVal ds n ↔ DigitsAcc 0 ds n :=
  ⟨digitsVal_to_acc, fun h => by simpa using digitsVal_append_acc .nil h⟩

/-- The characters a numeral is made of. -/
def isNumChar (c : Char) : Prop := c = '+' ∨ ('0' ≤ c ∧ c ≤ '9')

theorem digitVal_range {c : Char} {d : Nat} (h : digitVal c = some d) : '0' ≤ c ∧ c ≤ '9' := by
  unfold digitVal at h; split at h
  · assumption
  · cases h

theorem DigitsAcc.chars {acc : Nat} {cs : List Char} {n : Nat} (h : DigitsAcc acc cs n) :
    ∀ c ∈ cs, '0' ≤ c ∧ c ≤ '9' := by
  induction h with
  | nil => simp
  | cons acc d c cs n h1 _ ih =>
    intro x hx
    rcases List.mem_cons.1 hx with rfl | hx
    · exact digitVal_range h1
    · exact ih x hx

theorem Spec.Numeral.chars {s : List Char} {n : Nat} (h : Numeral s n) : ∀ c ∈ s, isNumChar c := by
  obtain ⟨ds, _, hv, hs⟩ := h
  have := (digitsVal_to_acc hv).chars
  rcases hs with rfl | rfl
  · intro c hc; exact .inr (this c hc)
  · intro c hc
    rcases List.mem_cons.1 hc with rfl | hc
    · exact .inl rfl
    · exact .inr (this c hc)

theorem Spec.Numeral.no_dot {s : List Char} {n : Nat} (h : Numeral s n) : '.' ∉ s := by
  intro hc
  rcases h.chars _ hc with h | ⟨h, _⟩ <;> revert h <;> decide

theorem Spec.Numeral.no_slash {s : List Char} {n : Nat} (h : Numeral s n) : '/' ∉ s := by
  intro hc
  rcases h.chars _ hc with h | ⟨h, _⟩ <;> revert h <;> decide

theorem plus_no_digits {acc : Nat} {cs : List Char} {n : Nat} : ¬ DigitsAcc acc ('+' :: cs) n := by
  intro h
  have := h.chars '+' (by simp)
  revert this; decide

theorem parseUInt_iff {max : Nat} {s : List Char} {n : Nat} :
    parseUInt max s = some n ↔ Numeral s n ∧ n ≤ max := by
  unfold parseUInt
  split
  · -- empty
    simp only [reduceCtorEq, false_iff]
    rintro ⟨⟨ds, hne, hv, hs | hs⟩, _⟩
    · exact hne hs.symm
    · cases hs
  · simp only [reduceCtorEq, false_iff]
    rintro ⟨⟨ds, hne, hv, hs | hs⟩, _⟩
    · subst hs; exact plus_no_digits (digitsVal_to_acc hv)
    · simp only [List.cons.injEq, true_and] at hs; exact hne hs.symm
  · rename_i cs hcs
    rw [parseDigits_iff (Nat.zero_le _), ← digitsVal_iff_acc]
    constructor
    · rintro ⟨h, hn⟩
      exact ⟨⟨cs, fun h => hcs (by rw [h]), h, .inr rfl⟩, hn⟩
    · rintro ⟨⟨ds, hne, hv, hs | hs⟩, hn⟩
      · subst hs; exact absurd (digitsVal_to_acc hv) plus_no_digits
      · simp only [List.cons.injEq, true_and] at hs; subst hs; exact ⟨hv, hn⟩
  · rename_i h0 h1 h2
    rw [parseDigits_iff (Nat.zero_le _), ← digitsVal_iff_acc]
    constructor
    · rintro ⟨h, hn⟩
      exact ⟨⟨s, fun h => h0 h, h, .inl rfl⟩, hn⟩
    · rintro ⟨⟨ds, hne, hv, hs | hs⟩, hn⟩
      · subst hs; exact ⟨hv, hn⟩
      · exact absurd hs (h2 ds)

theorem parseU8_iff {s : List Char} {x : U8} : parseU8 s = some x ↔ Numeral s x.toNat := by
  unfold parseU8
  simp only [Option.map_eq_some_iff, parseUInt_iff]
  constructor
  · rintro ⟨n, ⟨h, hn⟩, rfl⟩
    rwa [BitVec.toNat_ofNat, Nat.mod_eq_of_lt (by omega)]
  · intro h
    exact ⟨x.toNat, ⟨h, by have := x.isLt; omega⟩, by simp⟩

theorem parseU16_iff {s : List Char} {x : U16} : parseU16 s = some x ↔ Numeral s x.toNat := by
  unfold parseU16
  simp only [Option.map_eq_some_iff, parseUInt_iff]
  constructor
  · rintro ⟨n, ⟨h, hn⟩, rfl⟩
    rwa [BitVec.toNat_ofNat, Nat.mod_eq_of_lt (by omega)]
  · intro h
    exact ⟨x.toNat, ⟨h, by have := x.isLt; omega⟩, by simp⟩

theorem splitOn_ne_nil (c : Char) (s : List Char) : splitOn c s ≠ [] := by
  cases s with
  | nil => simp [splitOn]
  | cons x xs =>
    simp only [splitOn]; split
    · simp
    · split <;> simp

theorem splitOn_no_sep {c : Char} {s : List Char} (h : c ∉ s) : splitOn c s = [s] := by
  induction s with
  | nil => rfl
  | cons x xs ih =>
    simp only [List.mem_cons, not_or] at h
    simp [splitOn, Ne.symm h.1, ih h.2]

theorem splitOn_append {c : Char} {p s : List Char} (h : c ∉ p) :
    splitOn c (p ++ c :: s) = p :: splitOn c s := by
  induction p with
  | nil => simp [splitOn]
  | cons x xs ih =>
    simp only [List.mem_cons, not_or] at h
    simp [splitOn, Ne.symm h.1, ih h.2]

theorem splitOn_cons {c : Char} {s p : List Char} {ps : List (List Char)} (h : splitOn c s = p :: ps) :
    c ∉ p ∧ ((ps = [] ∧ s = p) ∨ (∃ s', s = p ++ c :: s' ∧ splitOn c s' = ps)) := by
  induction s generalizing p ps with
  | nil => simp [splitOn] at h; simp [h.1, h.2]
  | cons x xs ih =>
    simp only [splitOn] at h
    split at h
    · rename_i hx
      simp only [List.cons.injEq] at h
      obtain ⟨rfl, rfl⟩ := h
      exact ⟨by simp, .inr ⟨xs, by simp [hx], rfl⟩⟩
    · rename_i hx
      split at h
      · rename_i hn; exact absurd hn (splitOn_ne_nil _ _)
      · rename_i q qs hq
        simp only [List.cons.injEq] at h
        obtain ⟨rfl, rfl⟩ := h
        obtain ⟨h1, h2⟩ := ih hq
        refine ⟨by simp [Ne.symm hx, h1], ?_⟩
        rcases h2 with ⟨rfl, rfl⟩ | ⟨s', rfl, h2⟩
        · exact .inl ⟨rfl, rfl⟩
        · exact .inr ⟨s', rfl, h2⟩

theorem splitOn_one {c : Char} {s p : List Char} (h : splitOn c s = [p]) : c ∉ p ∧ s = p := by
  obtain ⟨h1, ⟨_, h2⟩ | ⟨s', _, h2⟩⟩ := splitOn_cons h
  · exact ⟨h1, h2⟩
  · exact absurd h2 (splitOn_ne_nil _ _)

theorem splitOn_two {c : Char} {s p q : List Char} (h : splitOn c s = [p, q]) :
    c ∉ p ∧ c ∉ q ∧ s = p ++ [c] ++ q := by
  obtain ⟨h1, ⟨h2, _⟩ | ⟨s', rfl, h2⟩⟩ := splitOn_cons h
  · cases h2
  · obtain ⟨h3, rfl⟩ := splitOn_one h2
    exact ⟨h1, h3, by simp⟩

theorem splitOn_three {c : Char} {s p q r : List Char} (h : splitOn c s = [p, q, r]) :
    c ∉ p ∧ c ∉ q ∧ c ∉ r ∧ s = p ++ [c] ++ q ++ [c] ++ r := by
  obtain ⟨h1, ⟨h2, _⟩ | ⟨s', rfl, h2⟩⟩ := splitOn_cons h
  · cases h2
  · obtain ⟨h3, h4, rfl⟩ := splitOn_two h2
    exact ⟨h1, h3, h4, by simp⟩

theorem indParse_iff {s : List Char} {x : IndAddr} :
    IndAddr.parse s = .ok x ↔ ∃ s0 s1 s2, s = s0 ++ ['.'] ++ s1 ++ ['.'] ++ s2 ∧
      Numeral s0 x.area.toNat ∧ Numeral s1 x.line.toNat ∧ Numeral s2 x.address.toNat := by
  constructor
  · intro h
    unfold IndAddr.parse at h
    split at h
    · rename_i p0 p1 p2 hs
      cases h0 : parseU8 p0 with
      | none => simp [h0] at h
      | some a =>
        cases h1 : parseU8 p1 with
        | none => simp [h0, h1] at h
        | some l =>
          cases h2 : parseU8 p2 with
          | none => simp [h0, h1, h2] at h
          | some d =>
            simp only [h0, h1, h2, Res.ok.injEq] at h
            subst h
            exact ⟨p0, p1, p2, (splitOn_three hs).2.2.2, parseU8_iff.1 h0, parseU8_iff.1 h1,
              parseU8_iff.1 h2⟩
    · cases h
  · rintro ⟨s0, s1, s2, rfl, h0, h1, h2⟩
    unfold IndAddr.parse
    have : s0 ++ ['.'] ++ s1 ++ ['.'] ++ s2 = s0 ++ '.' :: (s1 ++ '.' :: s2) := by simp
    rw [this, splitOn_append h0.no_dot, splitOn_append h1.no_dot, splitOn_no_sep h2.no_dot]
    simp [parseU8_iff.2 h0, parseU8_iff.2 h1, parseU8_iff.2 h2]

theorem group3Parse_iff {s : List Char} {x : Group3} :
    Group3.parse s = .ok x ↔ ∃ s0 s1 s2, s = s0 ++ ['/'] ++ s1 ++ ['/'] ++ s2 ∧
      Numeral s0 x.main.toNat ∧ Numeral s1 x.middle.toNat ∧ Numeral s2 x.sub.toNat := by
  constructor
  · intro h
    unfold Group3.parse at h
    split at h
    · rename_i p0 p1 p2 hs
      split at h
      · rename_i m i u h0 h1 h2
        simp only [Res.ok.injEq] at h
        subst h
        exact ⟨p0, p1, p2, (splitOn_three hs).2.2.2, parseU8_iff.1 h0, parseU8_iff.1 h1,
          parseU8_iff.1 h2⟩
      · cases h
    · cases h
  · rintro ⟨s0, s1, s2, rfl, h0, h1, h2⟩
    unfold Group3.parse
    have : s0 ++ ['/'] ++ s1 ++ ['/'] ++ s2 = s0 ++ '/' :: (s1 ++ '/' :: s2) := by simp
    rw [this, splitOn_append h0.no_slash, splitOn_append h1.no_slash, splitOn_no_sep h2.no_slash]
    simp [parseU8_iff.2 h0, parseU8_iff.2 h1, parseU8_iff.2 h2]

theorem indParse_ne_panic (s : List Char) : IndAddr.parse s ≠ .panic := by
  unfold IndAddr.parse
  repeat' split
  all_goals simp

theorem group3Parse_ne_panic (s : List Char) : Group3.parse s ≠ .panic := by
  unfold Group3.parse
  repeat' split
  all_goals simp

theorem showNat_numeral (n : Nat) : Numeral (showNat n) n := by
  refine ⟨showNat n, Nat.toDigits_ne_nil, ?_, .inl rfl⟩
  rw [digitsVal_iff_acc]
  unfold showNat
  induction n using Nat.strongRecOn with
  | _ n ih =>
    by_cases h : n < 10
    · rw [Nat.toDigits_of_lt_base h]
      have : digitVal n.digitChar = some n := by
        have hc : n = 0 ∨ n = 1 ∨ n = 2 ∨ n = 3 ∨ n = 4 ∨ n = 5 ∨ n = 6 ∨ n = 7 ∨ n = 8 ∨ n = 9 := by omega
        rcases hc with h | h | h | h | h | h | h | h | h | h <;> subst h <;> decide
      have h2 := DigitsAcc.cons 0 n _ [] _ this (.nil _)
      simpa using h2
    · rw [Nat.toDigits_of_base_le (by omega) (by omega)]
      have h1 := ih (n / 10) (by omega)
      have hd : digitVal (n % 10).digitChar = some (n % 10) := by
        have hc : n % 10 = 0 ∨ n % 10 = 1 ∨ n % 10 = 2 ∨ n % 10 = 3 ∨ n % 10 = 4 ∨ n % 10 = 5 ∨ n % 10 = 6
          ∨ n % 10 = 7 ∨ n % 10 = 8 ∨ n % 10 = 9 := by omega
        rcases hc with h | h | h | h | h | h | h | h | h | h <;> rw [h] <;> decide
      have := h1.snoc hd
      rwa [show n / 10 * 10 + n % 10 = n by omega] at this

end Knx
