import Verif.Props.Origin

/-!
# C97: exactly which values are returned
-/

namespace Knx
open Spec

/-- All bytes from the `k`-th on are zero. -/
def ZeroFrom (k : Nat) (l : Bytes) : Prop := ∀ x ∈ l.drop k, x = 0

theorem ZeroFrom.drop {k j : Nat} {l : Bytes} (h : ZeroFrom (j + k) l) : ZeroFrom k (l.drop j) := by
  unfold ZeroFrom at *
  rwa [List.drop_drop]

theorem ZeroFrom.le {k j : Nat} {l : Bytes} (h : ZeroFrom k l) (hj : k ≤ j) : ZeroFrom j l := by
  intro x hx
  rw [show j = k + (j - k) by omega, ← List.drop_drop] at hx
  exact h x (List.mem_of_mem_drop hx)

theorem ZeroFrom.suffix {k : Nat} {l l' : Bytes} (h : ZeroFrom k l) (hs : l' <:+ l) : ZeroFrom k l' := by
  rw [List.suffix_iff_eq_drop] at hs
  rw [hs]
  exact ZeroFrom.drop (h.le (by omega))

theorem ZeroFrom.padded {k : Nat} {l : Bytes} (h : ZeroFrom k l) (n : Nat) : ZeroFrom k (Spec.padded n l) := by
  intro x hx
  rw [Spec.padded, List.drop_take] at hx
  replace hx := List.mem_of_mem_take hx
  rw [List.drop_append] at hx
  rcases List.mem_append.1 hx with hx | hx
  · exact h x hx
  · exact List.eq_of_mem_replicate (List.mem_of_mem_drop hx)

theorem cemi_suffix_two {m : Mode} {raw : Bytes} {c : Cemi} (h : runRd (Cemi.fromPacket m) id raw = .ok c) : c.serviceInfo <:+ raw.drop 2 := by
  unfold runRd Cemi.fromPacket at h
  match raw with
  | [] => simp [Rd.bind_eval, Rd.u8] at h
  | [_] => simp [Rd.bind_eval, Rd.u8] at h
  | a :: b :: r =>
    simp only [Rd.bind_eval, Rd.u8, Rd.of_eval] at h
    cases hc : cemiInfos m b 0 r with
    | err => rw [hc] at h; cases h
    | panic => rw [hc] at h; cases h
    | ok x =>
      obtain ⟨is, r'⟩ := x
      have := cemiInfos_suffix hc
      rw [hc] at h
      have e : (⟨a, is, r'⟩ : Cemi) = c := by injection h
      subst e
      exact this

theorem carries_zero {m : Mode} {d : Bytes} {c : Cemi} (h : Carries m d c) : ZeroFrom 88 c.serviceInfo := by
  obtain ⟨t, h1, h2⟩ := h
  refine ZeroFrom.suffix (ZeroFrom.drop (j := 2) ?_) (cemi_suffix_two h2)
  have h3 : (seen d).length = 100 := by simp [seen, padded]
  generalize seen d = r at h1 h3
  cases h1 with
  | tunnelingRequest channel seq pad len rest _ _ =>
    refine ZeroFrom.padded ?_ _
    intro x hx
    rw [List.drop_of_length_le (by simp [header, word] at h3; omega)] at hx
    cases hx

/-- C97, exactly: the values that a read can return are those of 1 to 254 bytes of which all but the first 79 are zero. -/
theorem C97_exact (m : Mode) (v : Bytes) :
    (∃ s tr e s' o, Exec m s tr ∧ step m s e = some (s', o) ∧ Obs.ret (.value v) ∈ o) ↔ 1 ≤ v.length ∧ v.length ≤ 254 ∧ ∀ x ∈ v.drop 79, x = 0 := by
  constructor
  · rintro ⟨s, tr, e, s', o, h, hs, hv⟩
    obtain ⟨addr, d, c, -, -, -, h4, -, c1, c2, s1, s2, d1, d2, l, a, b, rest, h5, -, rfl⟩ := C82_partial h hs hv
    have hz := carries_zero h4
    rw [h5] at hz
    have hr : ZeroFrom 79 rest := ZeroFrom.drop (j := 9) (k := 79) (l := [c1, c2, s1, s2, d1, d2, l, a, b] ++ rest) hz
    split
    · have := l.isLt
      refine ⟨?_, ?_, hr.padded _⟩ <;> simp only [padded, List.length_take, List.length_append, List.length_replicate] <;> omega
    · simp
  · rintro ⟨h1, h2, h3⟩
    obtain ⟨r, tr, dl, g1, g2, g3, g4, g5⟩ := reader7 m
    have e1 : v = v.take 79 ++ List.replicate (v.length - 79) 0 := by
      conv => lhs; rw [← List.take_append_drop 79 v]
      congr 1
      rw [List.eq_replicate_iff]
      exact ⟨by simp, h3⟩
    have hl : (v.take 79).length + (v.length - 79) = v.length := by simp; omega
    obtain ⟨s', c, h6⟩ := C97_violated_short g1 g2 g3 g4 g5 7 0 0x11 2 8 1 (v.take 79) (v.length - 79) (by simp; omega) (by omega) (by omega) (by decide)
    rw [← e1] at h6
    generalize ht : [Obs.rx _, _, _, _, _] = t at h6
    have hm : Obs.ret (.value v) ∈ t := by rw [← ht]; simp
    clear ht
    clear g2 g3 g4 g5
    induction h6 generalizing tr with
    | nil => cases hm
    | @step s s1 s2 o tr1 e hp hs hr ih =>
      rcases List.mem_append.1 hm with hm | hm
      · exact ⟨_, _, e, _, _, g1, hs, hm⟩
      · exact ih _ (g1.step e hs) hm

end Knx
