import Verif.Spec.Emi
import Verif.Lemmas.Prim

/-! Helper lemmas for APDU and cEMI. -/

namespace Knx

open Spec

theorem be16_eq_word (w : U16) : be16 w = word w.toNat := by
  have := w.isLt
  unfold be16 word byte
  congr 1
  · apply BitVec.eq_of_toNat_eq
    simp [Nat.shiftRight_eq_div_pow]
  · congr 1
    apply BitVec.eq_of_toNat_eq
    simp

theorem byte_toNat {n : Nat} (h : n < 256) : (byte n).toNat = n := by
  simp [byte]; omega

theorem byte_self (b : U8) : byte b.toNat = b := by simp [byte]

theorem fill_eq_padded (n : Nat) (r : Bytes) : r.take n ++ List.replicate (n - r.length) 0 = padded n r := by
  unfold padded
  rw [List.take_append, List.take_replicate, Nat.min_eq_left (by omega)]

theorem padded_length (n : Nat) (r : Bytes) : (padded n r).length = n := by
  simp [padded]

theorem padded_of_le {n : Nat} {r : Bytes} (h : n ≤ r.length) : padded n r = r.take n := by
  unfold padded
  rw [List.take_append_of_le_length h]

theorem padded_append_self (v r : Bytes) : padded v.length (v ++ r) = v := by
  rw [padded_of_le (by simp)]; simp

theorem infoCode_lt (t : InfoType) : infoCode t < 256 := by cases t <;> decide

theorem ofU8_iff {v : U8} {t : InfoType} : InfoType.ofU8 v = some t ↔ v = byte (infoCode t) := by
  constructor
  · intro h
    unfold InfoType.ofU8 at h
    repeat' split at h
    all_goals first | (cases h; assumption) | (cases h)
  · rintro rfl
    cases t <;> decide

theorem cemiInfos_panic_release (total pos : U8) (r : Bytes) : cemiInfos .release total pos r ≠ .panic := by
  fun_induction cemiInfos .release total pos r <;> simp_all [addU_release]

theorem cemiInfos_step (m : Mode) (total pos : U8) (i : AddInfo) (r : Bytes)
    (hp : pos < total) (hs : pos.toNat + (i.value.length + 2) < 256) :
    cemiInfos m total pos (infoBytes i ++ r) =
      match cemiInfos m total (pos + byte (i.value.length + 2)) r with
      | .ok (rest, r'') => .ok (i :: rest, r'')
      | .err => .err
      | .panic => .panic := by
  obtain ⟨ty, v⟩ := i
  simp only at hs
  have hl : (byte v.length).toNat = v.length := byte_toNat (by omega)
  have e2 : byte v.length + 2 = byte (v.length + 2) := by
    apply BitVec.eq_of_toNat_eq; simp [byte]
  have hadd : addU m (byte v.length) 2 = .ok (byte (v.length + 2)) := by
    rw [addU_of_lt _ _ _ (by rw [hl]; simp; omega), e2]
  have hadd2 : addU m pos (byte (v.length + 2)) = .ok (pos + byte (v.length + 2)) := by
    rw [addU_of_lt _ _ _ (by rw [byte_toNat (by omega)]; omega)]
  conv => lhs; unfold cemiInfos
  simp only [infoBytes, List.cons_append, List.nil_append, if_pos hp, ofU8_iff.2 rfl, hl, hadd, hadd2,
    List.take_left, List.drop_left, List.length_append]
  simp only [Nat.sub_eq_zero_of_le (Nat.le_add_right v.length r.length), List.replicate_zero, List.append_nil]
  rcases cemiInfos m total (pos + byte (v.length + 2)) r with ⟨_, _⟩ | _ | _ <;> rfl

theorem cemiInfos_enc (m : Mode) (is : List AddInfo) (total pos : U8) (r : Bytes)
    (h : pos.toNat + infosSize is = total.toNat) :
    cemiInfos m total pos (infosBytes is ++ r) = .ok (is, r) := by
  induction is generalizing pos with
  | nil =>
    unfold cemiInfos
    simp only [infosSize, List.map_nil, List.sum_nil] at h
    have : ¬ pos < total := by rw [BitVec.lt_def]; omega
    simp [this, infosBytes]
  | cons i is ih =>
    have ht := total.isLt
    simp only [infosSize, List.map_cons, List.sum_cons] at h
    have hp : pos < total := by rw [BitVec.lt_def]; omega
    have e : infosBytes (i :: is) ++ r = infoBytes i ++ (infosBytes is ++ r) := by
      simp [infosBytes]
    rw [e, cemiInfos_step m total pos i _ hp (by omega)]
    rw [ih]
    have : (pos + byte (i.value.length + 2)).toNat = pos.toNat + (i.value.length + 2) := by
      rw [BitVec.toNat_add, byte_toNat (by omega)]; omega
    rw [this]; simp only [infosSize]; omega

/-- A debug-mode panic of the block loop, from any position. -/
theorem cemiInfos_debug_panic_iff (total pos : U8) (r : Bytes) :
    cemiInfos .debug total pos r = .panic ↔
      ∃ is ty s rest, r = infosBytes is ++ [byte (infoCode ty), s] ++ rest ∧
        pos.toNat + infosSize is < total.toNat ∧ 255 < pos.toNat + infosSize is + 2 + s.toNat := by
  constructor
  · intro h
    induction hn : r.length using Nat.strongRecOn generalizing r pos with
    | _ n ih =>
      unfold cemiInfos at h
      split at h
      · rename_i hp
        rw [BitVec.lt_def] at hp
        split at h
        · rename_i t s r' 
          split at h
          · cases h
          · rename_i ty hty
            rw [ofU8_iff] at hty
            subst hty
            have here : 255 < pos.toNat + 2 + s.toNat → ∃ is ty' s' rest,
                byte (infoCode ty) :: s :: r' = infosBytes is ++ [byte (infoCode ty'), s'] ++ rest ∧
                pos.toNat + infosSize is < total.toNat ∧ 255 < pos.toNat + infosSize is + 2 + s'.toNat :=
              fun hs => ⟨[], ty, s, r', by simp [infosBytes], by simpa [infosSize] using hp,
                by simpa [infosSize] using hs⟩
            split at h
            · rename_i step hstep
              split at h
              · rename_i pos' hpos'
                have hs2 : s.toNat + 2 < 256 := by
                  by_cases hc : s.toNat + 2 < 256
                  · exact hc
                  · exfalso
                    have : addU .debug s 2 = .panic := (addU_panic_iff _ _ _).2 ⟨rfl, by simp; omega⟩
                    rw [this] at hstep; cases hstep
                rw [addU_of_lt _ _ _ (by simpa using hs2)] at hstep
                cases hstep
                have es : (s + 2).toNat = s.toNat + 2 := by rw [BitVec.toNat_add]; simp; omega
                have hps : pos.toNat + (s.toNat + 2) < 256 := by
                  by_cases hc : pos.toNat + (s.toNat + 2) < 256
                  · exact hc
                  · exfalso
                    have : addU .debug pos (s + 2) = .panic :=
                      (addU_panic_iff _ _ _).2 ⟨rfl, by rw [es]; omega⟩
                    rw [this] at hpos'; cases hpos'
                rw [addU_of_lt _ _ _ (by rw [es]; exact hps)] at hpos'
                cases hpos'
                have epos : (pos + (s + 2)).toNat = pos.toNat + (s.toNat + 2) := by
                  rw [BitVec.toNat_add, es]; omega
                split at h
                · cases h
                · cases h
                · rename_i hrec
                  obtain ⟨is, ty', s', rest, hr, h1, h2⟩ := ih (r'.drop s.toNat).length
                    (by simp [← hn]; omega) _ _ hrec rfl
                  have hle : s.toNat ≤ r'.length := by
                    by_cases hc : s.toNat ≤ r'.length
                    · exact hc
                    · rw [List.drop_of_length_le (by omega)] at hr
                      simp at hr
                  have hlen : (r'.take s.toNat).length = s.toNat := by simp [hle]
                  refine ⟨⟨ty, r'.take s.toNat⟩ :: is, ty', s', rest, ?_, ?_, ?_⟩
                  · have hr' : r' = r'.take s.toNat ++ (infosBytes is ++ [byte (infoCode ty'), s'] ++ rest) := by
                      rw [← hr, List.take_append_drop]
                    conv => lhs; rw [hr']
                    simp [infosBytes, infoBytes, hle, byte_self]
                  · rw [epos] at h1
                    simp only [infosSize, List.map_cons, List.sum_cons, hlen] at h1 ⊢
                    omega
                  · rw [epos] at h2
                    simp only [infosSize, List.map_cons, List.sum_cons, hlen] at h2 ⊢
                    omega
              · cases h
              · rename_i hpanic
                apply here
                have hs2 : s.toNat + 2 < 256 := by
                  by_cases hc : s.toNat + 2 < 256
                  · exact hc
                  · exfalso
                    have : addU .debug s 2 = .panic := (addU_panic_iff _ _ _).2 ⟨rfl, by simp; omega⟩
                    rw [this] at hstep; cases hstep
                rw [addU_of_lt _ _ _ (by simpa using hs2)] at hstep
                cases hstep
                have es : (s + 2).toNat = s.toNat + 2 := by rw [BitVec.toNat_add]; simp; omega
                have := ((addU_panic_iff _ _ _).1 hpanic).2
                rw [es] at this
                omega
            · cases h
            · rename_i hpanic
              apply here
              have := ((addU_panic_iff _ _ _).1 hpanic).2
              simp at this
              omega
        · cases h
      · cases h
  · rintro ⟨is, ty, s, rest, rfl, h1, h2⟩
    induction is generalizing pos with
    | nil =>
      simp only [infosSize, List.map_nil, List.sum_nil, Nat.add_zero] at h1 h2
      have hp : pos < total := by rw [BitVec.lt_def]; omega
      unfold cemiInfos
      simp only [infosBytes, List.map_nil, List.flatten_nil, List.nil_append, List.cons_append, if_pos hp,
        ofU8_iff.2 rfl]
      by_cases hs : s.toNat + 2 < 256
      · have e1 := addU_of_lt .debug s 2 (by simpa using hs)
        have e2 : (s + 2).toNat = s.toNat + 2 := by rw [BitVec.toNat_add]; simp; omega
        have e3 : addU .debug pos (s + 2) = .panic := (addU_panic_iff _ _ _).2 ⟨rfl, by rw [e2]; omega⟩
        rw [e1]; simp only [e3]
      · have e1 : addU .debug s 2 = .panic := (addU_panic_iff _ _ _).2 ⟨rfl, by simp; omega⟩
        rw [e1]
    | cons i is ih =>
      have ht := total.isLt
      simp only [infosSize, List.map_cons, List.sum_cons] at h1 h2
      have hp : pos < total := by rw [BitVec.lt_def]; omega
      have hn : (pos + byte (i.value.length + 2)).toNat = pos.toNat + (i.value.length + 2) := by
        rw [BitVec.toNat_add, byte_toNat (by omega)]; omega
      have e : infosBytes (i :: is) ++ [byte (infoCode ty), s] ++ rest
          = infoBytes i ++ (infosBytes is ++ [byte (infoCode ty), s] ++ rest) := by
        simp [infosBytes]
      rw [e, cemiInfos_step _ _ _ _ _ hp (by omega), ih]
      · rw [hn]; simp only [infosSize]; omega
      · rw [hn]; simp only [infosSize]; omega

end Knx
