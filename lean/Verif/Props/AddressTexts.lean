import Verif.Props.Addresses

/-!
# Property C137: the texts of an address

Every text that is accepted for an address is the printed text of the address with plus signs and leading zeros put before its numbers,
and every such text is accepted.
So the printed text is the shortest one, there is no other of its length, and there is no longest one.
-/

namespace Knx

open Spec

/-- `Adorned s t`: `s` is `t` with zeros before it, and perhaps a plus sign before these. -/
def Adorned (s t : List Char) : Prop := ∃ k : Nat, s = List.replicate k '0' ++ t ∨ s = '+' :: (List.replicate k '0' ++ t)

/-- The texts that are made of the printed text of an address by adorning its numbers. -/
def AdornedText (s : List Char) : KnxAddress → Prop
  | .individual x => ∃ s0 s1 s2, s = s0 ++ ['.'] ++ s1 ++ ['.'] ++ s2 ∧
    Adorned s0 (toString x.area.toNat).toList ∧ Adorned s1 (toString x.line.toNat).toList ∧ Adorned s2 (toString x.address.toNat).toList
  | .group3 x => ∃ s0 s1 s2, s = s0 ++ ['/'] ++ s1 ++ ['/'] ++ s2 ∧
    Adorned s0 (toString x.main.toNat).toList ∧ Adorned s1 (toString x.middle.toNat).toList ∧ Adorned s2 (toString x.sub.toNat).toList
  | .group2 x => ∃ s0 s1, s = s0 ++ ['/'] ++ s1 ∧
    Adorned s0 (toString x.main.toNat).toList ∧ Adorned s1 (toString x.sub.toNat).toList
  | .group1 x => Adorned s (toString x.main.toNat).toList

theorem printed (n : Nat) : (toString n).toList = showNat n := by
  simp [showNat, toString, Nat.repr]

theorem showNat_step {n d : Nat} (hn : n ≠ 0) (hd : d < 10) : showNat (10 * n + d) = showNat n ++ [Char.ofNat (48 + d)] := by
  unfold showNat
  rw [Nat.toDigits_of_base_le (by omega) (by omega), show (10 * n + d) / 10 = n by omega, show (10 * n + d) % 10 = d by omega]
  have hc : ∀ d < 10, Nat.digitChar d = Char.ofNat (48 + d) := by decide
  rw [hc d hd]

theorem showNat_one {d : Nat} (hd : d < 10) : showNat d = [Char.ofNat (48 + d)] := by
  revert d; decide

theorem digits_adorned {ds : List Char} {n : Nat} (h : DigitsVal ds n) :
    ds = [] ∧ n = 0 ∨ ∃ k, ds = List.replicate k '0' ++ showNat n := by
  induction h with
  | nil => exact .inl ⟨rfl, rfl⟩
  | snoc ds n d c h hd hc ih =>
    right
    subst hc
    rcases ih with ⟨rfl, rfl⟩ | ⟨k, rfl⟩
    · exact ⟨0, by simp [showNat_one hd]⟩
    · by_cases hn : n = 0
      · subst hn
        refine ⟨k + 1, ?_⟩
        rw [showNat_one (d := 0) (by decide), Nat.mul_zero, Nat.zero_add, showNat_one hd, List.replicate_succ']
      · exact ⟨k, by rw [showNat_step hn hd, List.append_assoc]⟩

theorem showNat_digits (n : Nat) : DigitsVal (showNat n) n := by
  induction n using Nat.strongRecOn with
  | _ n ih =>
    by_cases h : n < 10
    · rw [showNat_one h]
      have := DigitsVal.snoc [] 0 n _ .nil h rfl
      simpa using this
    · have := DigitsVal.snoc _ _ (n % 10) _ (ih (n / 10) (by omega)) (Nat.mod_lt _ (by decide)) rfl
      rw [← showNat_step (by omega) (Nat.mod_lt _ (by decide)), show 10 * (n / 10) + n % 10 = n by omega] at this
      exact this

theorem zeros_digits {ds : List Char} {n : Nat} (h : DigitsVal ds n) (k : Nat) : DigitsVal (List.replicate k '0' ++ ds) n := by
  induction h with
  | nil =>
    rw [List.append_nil]
    induction k with
    | zero => exact .nil
    | succ k ih =>
      rw [List.replicate_succ']
      exact DigitsVal.snoc _ 0 0 '0' ih (by decide) rfl
  | snoc ds n d c h hd hc ih =>
    rw [← List.append_assoc]
    exact DigitsVal.snoc _ _ _ _ ih hd hc

theorem numeral_adorned {s : List Char} {n : Nat} : Numeral s n ↔ Adorned s (toString n).toList := by
  rw [printed]
  constructor
  · rintro ⟨ds, hne, hd, hs⟩
    rcases digits_adorned hd with ⟨h, -⟩ | ⟨k, rfl⟩
    · exact absurd h hne
    · exact ⟨k, hs⟩
  · rintro ⟨k, hs⟩
    refine ⟨_, ?_, zeros_digits (showNat_digits n) k, hs⟩
    have : showNat n ≠ [] := Nat.toDigits_ne_nil
    simp [this]

/-- C137: the accepted texts of an address are the adorned ones. -/
theorem C137_iff (s : List Char) (a : KnxAddress) : KnxAddress.parse s = .ok a ↔ AdornedText s a := by
  rw [C05_parser_exact.1]
  constructor
  · intro h
    cases h with
    | individual s0 s1 s2 x h0 h1 h2 => exact ⟨s0, s1, s2, rfl, numeral_adorned.1 h0, numeral_adorned.1 h1, numeral_adorned.1 h2⟩
    | group3 s0 s1 s2 x h0 h1 h2 => exact ⟨s0, s1, s2, rfl, numeral_adorned.1 h0, numeral_adorned.1 h1, numeral_adorned.1 h2⟩
    | group2 s0 s1 x h0 h1 => exact ⟨s0, s1, rfl, numeral_adorned.1 h0, numeral_adorned.1 h1⟩
    | group1 s0 x h0 => exact numeral_adorned.1 h0
  · intro h
    cases a with
    | individual x =>
      obtain ⟨s0, s1, s2, rfl, h0, h1, h2⟩ := h
      exact .individual s0 s1 s2 x (numeral_adorned.2 h0) (numeral_adorned.2 h1) (numeral_adorned.2 h2)
    | group3 x =>
      obtain ⟨s0, s1, s2, rfl, h0, h1, h2⟩ := h
      exact .group3 s0 s1 s2 x (numeral_adorned.2 h0) (numeral_adorned.2 h1) (numeral_adorned.2 h2)
    | group2 x =>
      obtain ⟨s0, s1, rfl, h0, h1⟩ := h
      exact .group2 s0 s1 x (numeral_adorned.2 h0) (numeral_adorned.2 h1)
    | group1 x => exact .group1 s x (numeral_adorned.2 h)

theorem adorned_length {s t : List Char} (h : Adorned s t) : t.length ≤ s.length ∧ (s.length = t.length → s = t) := by
  obtain ⟨k, rfl | rfl⟩ := h
  · refine ⟨by simp, fun h => ?_⟩
    have : k = 0 := by simpa using h
    subst this; rfl
  · refine ⟨by simp; omega, fun h => ?_⟩
    simp at h
    omega

/-- C137: the printed text is the shortest, and the only one of its length. -/
theorem C137_shortest {s : List Char} {a : KnxAddress} (h : KnxAddress.parse s = .ok a) :
    a.text.length ≤ s.length ∧ (s.length = a.text.length → s = a.text) := by
  rw [C137_iff] at h
  cases a with
  | individual x =>
    obtain ⟨s0, s1, s2, rfl, h0, h1, h2⟩ := h
    obtain ⟨a0, b0⟩ := adorned_length h0
    obtain ⟨a1, b1⟩ := adorned_length h1
    obtain ⟨a2, b2⟩ := adorned_length h2
    rw [printed] at a0 b0 a1 b1 a2 b2
    simp only [KnxAddress.text, showU, List.length_append, List.length_cons, List.length_nil]
    refine ⟨by omega, fun h => ?_⟩
    rw [b0 (by omega), b1 (by omega), b2 (by omega)]
    simp
  | group3 x =>
    obtain ⟨s0, s1, s2, rfl, h0, h1, h2⟩ := h
    obtain ⟨a0, b0⟩ := adorned_length h0
    obtain ⟨a1, b1⟩ := adorned_length h1
    obtain ⟨a2, b2⟩ := adorned_length h2
    rw [printed] at a0 b0 a1 b1 a2 b2
    simp only [KnxAddress.text, showU, List.length_append, List.length_cons, List.length_nil]
    refine ⟨by omega, fun h => ?_⟩
    rw [b0 (by omega), b1 (by omega), b2 (by omega)]
    simp
  | group2 x =>
    obtain ⟨s0, s1, rfl, h0, h1⟩ := h
    obtain ⟨a0, b0⟩ := adorned_length h0
    obtain ⟨a1, b1⟩ := adorned_length h1
    rw [printed] at a0 b0 a1 b1
    simp only [KnxAddress.text, showU, List.length_append, List.length_cons, List.length_nil]
    refine ⟨by omega, fun h => ?_⟩
    rw [b0 (by omega), b1 (by omega)]
    simp
  | group1 x =>
    obtain ⟨a0, b0⟩ := adorned_length h
    rw [printed] at a0 b0
    exact ⟨a0, b0⟩

/-- C137: zeros before the first number, as many as one likes, change nothing. -/
theorem C137_zeros {s : List Char} {a : KnxAddress} (k : Nat) (hs : s.head? ≠ some '+') (h : KnxAddress.parse s = .ok a) :
    KnxAddress.parse (List.replicate k '0' ++ s) = .ok a ∧ KnxAddress.parse ('+' :: (List.replicate k '0' ++ s)) = .ok a := by
  have key : ∀ {s0 t : List Char}, Adorned s0 t → s0.head? ≠ some '+' →
      Adorned (List.replicate k '0' ++ s0) t ∧ Adorned ('+' :: (List.replicate k '0' ++ s0)) t := by
    intro s0 t h hne
    obtain ⟨j, rfl | rfl⟩ := h
    · exact ⟨⟨k + j, .inl (by rw [← List.replicate_append_replicate, List.append_assoc])⟩,
        ⟨k + j, .inr (by rw [← List.replicate_append_replicate, List.append_assoc])⟩⟩
    · exact absurd rfl hne
  have ne : ∀ {s0 t : List Char} {n : Nat}, Adorned s0 (toString n).toList → (s0 ++ t).head? ≠ some '+' → s0.head? ≠ some '+' := by
    intro s0 t n h hne
    cases s0 with
    | nil => exact fun h => by cases h
    | cons c s0 => exact hne
  rw [C137_iff] at h
  rw [C137_iff, C137_iff]
  cases a with
  | individual x =>
    obtain ⟨s0, s1, s2, rfl, h0, h1, h2⟩ := h
    rw [List.append_assoc, List.append_assoc, List.append_assoc] at hs
    obtain ⟨k1, k2⟩ := key h0 (ne h0 hs)
    exact ⟨⟨_, s1, s2, by simp, k1, h1, h2⟩, ⟨_, s1, s2, by simp, k2, h1, h2⟩⟩
  | group3 x =>
    obtain ⟨s0, s1, s2, rfl, h0, h1, h2⟩ := h
    rw [List.append_assoc, List.append_assoc, List.append_assoc] at hs
    obtain ⟨k1, k2⟩ := key h0 (ne h0 hs)
    exact ⟨⟨_, s1, s2, by simp, k1, h1, h2⟩, ⟨_, s1, s2, by simp, k2, h1, h2⟩⟩
  | group2 x =>
    obtain ⟨s0, s1, rfl, h0, h1⟩ := h
    rw [List.append_assoc] at hs
    obtain ⟨k1, k2⟩ := key h0 (ne h0 hs)
    exact ⟨⟨_, s1, by simp, k1, h1⟩, ⟨_, s1, by simp, k2, h1⟩⟩
  | group1 x => exact key h hs

example : KnxAddress.parse "+001/02/+3".toList = .ok (.group3 ⟨1, 2, 3⟩) := by decide
example : KnxAddress.parse "0+1/2/3".toList = .err := by decide

end Knx
