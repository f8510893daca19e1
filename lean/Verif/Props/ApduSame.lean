import Verif.Model.Apdu

/-!
# Which writes are the same on the bus (C07)
-/

namespace Knx

theorem low_toNat (d : U8) : (128#8 ||| (d &&& 0x3f#8)).toNat = 128 + d.toNat % 64 := by
  have : ∀ d : U8, (128#8 ||| (d &&& 0x3f#8)).toNat = 128 + d.toNat % 64 := by decide +kernel
  exact this d

theorem write_apci : Apci.groupValueWrite.packet = (0, 128) := by decide

theorem write_octets {v : Bytes} {small : Bool} {a : Apdu} (h : Apdu.groupValueWrite v small = .ok a) :
    (small = true ∧ ∃ d t, v = d :: t ∧ a.packet = [0, 128#8 ||| (d &&& 0x3f#8)]) ∨ (small = false ∧ a.packet = 0 :: 128 :: v) := by
  cases small with
  | true =>
    cases v with
    | nil => simp [Apdu.groupValueWrite] at h
    | cons d t =>
      simp only [Apdu.groupValueWrite, if_true, Res.ok.injEq] at h
      subst h
      refine .inl ⟨rfl, d, t, rfl, ?_⟩
      simp only [Apdu.packet, write_apci]
      rfl
  | false =>
    simp only [Apdu.groupValueWrite, Bool.false_eq_true, if_false, Res.ok.injEq] at h
    subst h
    refine .inr ⟨rfl, ?_⟩
    simp only [Apdu.packet, write_apci]
    rfl

/-- C07, exactly: two writes have the same octets exactly if both are small and their first octets agree in the low six bits, or both are
large and the same, or one is large and empty and the other small and zero in the low six bits. -/
theorem C07_same_iff {v v' : Bytes} {small small' : Bool} {a a' : Apdu} (h : Apdu.groupValueWrite v small = .ok a)
    (h' : Apdu.groupValueWrite v' small' = .ok a') :
    a.packet = a'.packet ↔ match small, small' with
      | true, true => ∀ d ∈ v.head?, ∀ d' ∈ v'.head?, d.toNat % 64 = d'.toNat % 64
      | false, false => v = v'
      | true, false => v' = [] ∧ ∀ d ∈ v.head?, d.toNat % 64 = 0
      | false, true => v = [] ∧ ∀ d' ∈ v'.head?, d'.toNat % 64 = 0 := by
  have key : ∀ (d : U8) (w : Bytes), ([0, 128#8 ||| (d &&& 0x3f#8)] : Bytes) = 0 :: 128 :: w ↔ w = [] ∧ d.toNat % 64 = 0 := by
    intro d w
    have e : (128#8 ||| (d &&& 0x3f#8)) = 128 ↔ d.toNat % 64 = 0 := by
      rw [← BitVec.toNat_inj, low_toNat]
      show 128 + d.toNat % 64 = 128 ↔ _
      omega
    simp only [List.cons.injEq, true_and, e]
    exact ⟨fun ⟨x, y⟩ => ⟨y.symm, x⟩, fun ⟨x, y⟩ => ⟨y, x.symm⟩⟩
  rcases write_octets h with ⟨rfl, d, t, rfl, hp⟩ | ⟨rfl, hp⟩ <;> rcases write_octets h' with ⟨rfl, d', t', rfl, hp'⟩ | ⟨rfl, hp'⟩ <;>
    rw [hp, hp']
  · simp only [List.cons.injEq, true_and, and_true, ← BitVec.toNat_inj, low_toNat, List.head?_cons, Option.mem_some_iff]
    constructor
    · intro h x hx y hy
      omega
    · intro h
      rw [h d rfl d' rfl]
  · rw [key]
    simp
  · rw [eq_comm, key]
    simp
  · simp

/-- A large value of no octets is written as a switch is turned off. -/
example : ∃ a a', Apdu.groupValueWrite [] false = .ok a ∧ Apdu.groupValueWrite [0] true = .ok a' ∧ a.packet = a'.packet :=
  ⟨_, _, rfl, rfl, (C07_same_iff (v := []) (small := false) (v' := [0]) (small' := true) rfl rfl).mpr ⟨rfl, by decide⟩⟩

/-- And 64 as 0. -/
example : ∃ a a', Apdu.groupValueWrite [64] true = .ok a ∧ Apdu.groupValueWrite [0] true = .ok a' ∧ a.packet = a'.packet :=
  ⟨_, _, rfl, rfl, (C07_same_iff (v := [64]) (small := true) (v' := [0]) (small' := true) rfl rfl).mpr (by decide)⟩

end Knx
