import Verif.Props.Cuts

/-!
# cEMI frames that are cut short, or followed by something (C132)
-/

namespace Knx

open Spec

/-- The octets of additional information up to the value of the last one. -/
def Spec.needed : List AddInfo → Nat
  | [] => 0
  | [_] => 2
  | i :: j :: l => 2 + i.value.length + needed (j :: l)

/-- The octets of additional information. -/
def Spec.infoOctets : List AddInfo → Nat
  | [] => 0
  | i :: l => 2 + i.value.length + infoOctets l

theorem needed_cons (i : AddInfo) (l : List AddInfo) : needed (i :: l) = 2 + if l = [] then 0 else i.value.length + needed l := by
  cases l with
  | nil => rfl
  | cons j l => simp [needed, Nat.add_assoc]

theorem needed_pos {l : List AddInfo} (h : l ≠ []) : 2 ≤ needed l := by
  cases l with
  | nil => exact (h rfl).elim
  | cons i l => rw [needed_cons]; omega

/-- One round of the loop. -/
theorem infos_step {x : StdText} {m : Mode} {total position : U8} {r : Bytes} {l : List AddInfo} {r' : Bytes}
    (h : cemiInfosT x m total position r = .ok (l, r')) :
    (¬ position < total ∧ l = [] ∧ r' = r) ∨ (position < total ∧ ∃ t s r1 ty p l', r = t :: s :: r1 ∧ InfoType.ofU8 t = some ty ∧
      (∃ st, addU m s 2 = .ok st ∧ addU m position st = .ok p) ∧
      l = ⟨ty, r1.take s.toNat ++ List.replicate (s.toNat - r1.length) 0⟩ :: l' ∧ cemiInfosT x m total p (r1.drop s.toNat) = .ok (l', r')) := by
  by_cases hp : position < total
  · refine .inr ⟨hp, ?_⟩
    rw [cemiInfosT.eq_def, if_pos hp] at h
    match r with
    | [] => cases h
    | [t] =>
      cases ht : InfoType.ofU8 t <;> simp [ht] at h
    | t :: s :: r1 =>
      cases ht : InfoType.ofU8 t with
      | none => simp [ht] at h
      | some ty =>
        simp only [ht] at h
        cases h1 : addU m s 2 with
        | err => simp only [h1, reduceCtorEq] at h
        | panic => simp only [h1, reduceCtorEq] at h
        | ok st =>
          simp only [h1] at h
          cases h2 : addU m position st with
          | err => simp only [h2, reduceCtorEq] at h
          | panic => simp only [h2, reduceCtorEq] at h
          | ok p =>
            simp only [h2] at h
            cases h3 : cemiInfosT x m total p (r1.drop s.toNat) with
            | err u => simp only [h3, reduceCtorEq] at h
            | panic => simp only [h3, reduceCtorEq] at h
            | ok lr =>
              obtain ⟨l', r''⟩ := lr
              simp only [h3] at h
              cases h
              exact ⟨t, s, r1, ty, p, l', rfl, ht, ⟨st, h1, h2⟩, rfl, h3⟩
  · rw [cemiInfosT.eq_def, if_neg hp] at h
    cases h
    exact .inl ⟨hp, rfl, rfl⟩

theorem infos_round {x : StdText} {m : Mode} {total position : U8} {t s p st : U8} {ty : InfoType} (hp : position < total)
    (ht : InfoType.ofU8 t = some ty) (h1 : addU m s 2 = .ok st) (h2 : addU m position st = .ok p) (r : Bytes) :
    cemiInfosT x m total position (t :: s :: r) = match cemiInfosT x m total p (r.drop s.toNat) with
      | .ok (l, r') => .ok (⟨ty, r.take s.toNat ++ List.replicate (s.toNat - r.length) 0⟩ :: l, r')
      | .err t => .err t
      | .panic => .panic := by
  rw [cemiInfosT.eq_def, if_pos hp]
  simp only [ht, h1, h2]
  cases cemiInfosT x m total p (r.drop s.toNat) <;> rfl

theorem infos_cut {x : StdText} {m : Mode} {total : U8} (k : Nat) : ∀ {position : U8} {r : Bytes} {l : List AddInfo} {r' : Bytes},
    r.length = k → cemiInfosT x m total position r = .ok (l, r') → ∀ n,
      (needed l ≤ n → ∃ y, cemiInfosT x m total position (r.take n) = .ok y) ∧
      (n < needed l → ∃ t, cemiInfosT x m total position (r.take n) = .err t) := by
  induction k using Nat.strong_induction_on with
  | _ k ih =>
    intro position r l r' hk h n
    rcases infos_step h with ⟨hp, rfl, rfl⟩ | ⟨hp, t, s, r1, ty, p, l', rfl, ht, ⟨st, h1, h2⟩, rfl, h3⟩
    · refine ⟨fun _ => ⟨([], r'.take n), ?_⟩, fun hn => by simp [needed] at hn⟩
      rw [cemiInfosT.eq_def, if_neg hp]
    · have hlen : (r1.take s.toNat ++ List.replicate (s.toNat - r1.length) (0 : U8)).length = s.toNat := by
        rw [List.length_append, List.length_take, List.length_replicate]
        omega
      have hi := ih (r1.drop s.toNat).length (by rw [List.length_drop, ← hk]; simp only [List.length_cons]; omega) rfl h3 (n - 2 - s.toNat)
      rw [needed_cons]
      simp only [hlen]
      match n with
      | 0 =>
        refine ⟨fun hn => by omega, fun _ => ⟨"Unable to read addition info type ".toList ++ x.eof, ?_⟩⟩
        rw [List.take_zero, cemiInfosT.eq_def, if_pos hp]
      | 1 =>
        refine ⟨fun hn => by omega, fun _ => ⟨"Unable to read addition info size ".toList ++ x.eof, ?_⟩⟩
        rw [List.take_succ_cons, List.take_zero, cemiInfosT.eq_def, if_pos hp]
        simp only [ht]
      | n + 2 =>
        rw [List.take_succ_cons, List.take_succ_cons, infos_round hp ht h1 h2, List.drop_take]
        rw [Nat.add_sub_cancel] at hi
        by_cases hl : l' = []
        · obtain ⟨y, hy⟩ := hi.1 (by rw [hl]; exact Nat.zero_le _)
          rw [hy]
          exact ⟨fun _ => ⟨_, rfl⟩, fun hn => by simp [hl] at hn⟩
        · have h2' := needed_pos hl
          simp only [hl, if_false]
          refine ⟨fun hn => ?_, fun hn => ?_⟩
          · obtain ⟨y, hy⟩ := hi.1 (by omega)
            rw [hy]
            exact ⟨_, rfl⟩
          · obtain ⟨u, hu⟩ := hi.2 (by omega)
            rw [hu]
            exact ⟨_, rfl⟩

theorem infos_followed {x : StdText} {m : Mode} {total : U8} (k : Nat) : ∀ {position : U8} {r : Bytes} {l : List AddInfo} {r' : Bytes},
    r.length = k → cemiInfosT x m total position r = .ok (l, r') → infoOctets l ≤ r.length → ∀ e,
      cemiInfosT x m total position (r ++ e) = .ok (l, r' ++ e) := by
  induction k using Nat.strong_induction_on with
  | _ k ih =>
    intro position r l r' hk h hl e
    rcases infos_step h with ⟨hp, rfl, rfl⟩ | ⟨hp, t, s, r1, ty, p, l', rfl, ht, ⟨st, h1, h2⟩, rfl, h3⟩
    · rw [cemiInfosT.eq_def, if_neg hp]
    · have hlen : (r1.take s.toNat ++ List.replicate (s.toNat - r1.length) (0 : U8)).length = s.toNat := by
        rw [List.length_append, List.length_take, List.length_replicate]
        omega
      simp only [infoOctets, hlen, List.length_cons] at hl
      have hs : s.toNat ≤ r1.length := by omega
      have hi := ih (r1.drop s.toNat).length (by rw [List.length_drop, ← hk]; simp only [List.length_cons]; omega) rfl h3
        (by rw [List.length_drop]; omega) e
      rw [List.cons_append, List.cons_append, infos_round hp ht h1 h2, List.drop_append_of_le_length hs, hi,
        List.take_append_of_le_length hs, List.length_append]
      simp only [show s.toNat - (r1.length + e.length) = 0 by omega, show s.toNat - r1.length = 0 by omega]

theorem cemi_read_cons (x : StdText) (m : Mode) (c total : U8) (r : Bytes) :
    runTRd (Cemi.read x m) (c :: total :: r) = match cemiInfosT x m total 0 r with
      | .ok (a, r') => .ok ⟨c, a, r'⟩
      | .err t => .err t
      | .panic => .panic := by
  simp only [runTRd, Cemi.read, bind, TRd.u8, TRd.of, TRd.toEnd, pure]
  cases cemiInfosT x m total 0 r <;> rfl

theorem cemi_read_ok {x : StdText} {m : Mode} {d : Bytes} {a : Cemi} (h : runTRd (Cemi.read x m) d = .ok a) :
    ∃ total r, d = a.msgCode :: total :: r ∧ cemiInfosT x m total 0 r = .ok (a.infos, a.serviceInfo) := by
  match d with
  | [] => cases h
  | [_] => cases h
  | c :: total :: r =>
    rw [cemi_read_cons] at h
    cases hc : cemiInfosT x m total 0 r with
    | ok lr =>
      rw [hc] at h
      cases h
      exact ⟨total, r, rfl, hc⟩
    | err t => rw [hc] at h; cases h
    | panic => rw [hc] at h; cases h

/-- C132, exactly, for cEMI frames: a frame that is cut short is accepted if and only if the type and the size of its last additional
information are still there, otherwise it is an error. -/
theorem C132_cemi_cut (x : StdText) (m : Mode) {d : Bytes} {a : Cemi} (h : runTRd (Cemi.read x m) d = .ok a) (n : Nat) :
    (2 + needed a.infos ≤ n → ∃ b, runTRd (Cemi.read x m) (d.take n) = .ok b) ∧
    (n < 2 + needed a.infos → ∃ t, runTRd (Cemi.read x m) (d.take n) = .err t) := by
  obtain ⟨total, r, rfl, hr⟩ := cemi_read_ok h
  match n with
  | 0 => exact ⟨fun hn => by omega, fun _ => ⟨_, rfl⟩⟩
  | 1 => exact ⟨fun hn => by omega, fun _ => ⟨_, rfl⟩⟩
  | n + 2 =>
    obtain ⟨h1, h2⟩ := infos_cut r.length rfl hr n
    rw [List.take_succ_cons, List.take_succ_cons, cemi_read_cons]
    refine ⟨fun hn => ?_, fun hn => ?_⟩
    · obtain ⟨y, hy⟩ := h1 (by omega)
      rw [hy]
      exact ⟨_, rfl⟩
    · obtain ⟨t, ht⟩ := h2 (by omega)
      rw [ht]
      exact ⟨_, rfl⟩

/-- C132 for cEMI frames with complete additional information: what follows is a part of the service information, and nothing else
changes. -/
theorem C132_cemi_followed (x : StdText) (m : Mode) {d : Bytes} {a : Cemi} (h : runTRd (Cemi.read x m) d = .ok a)
    (hc : 2 + infoOctets a.infos ≤ d.length) (e : Bytes) :
    runTRd (Cemi.read x m) (d ++ e) = .ok { a with serviceInfo := a.serviceInfo ++ e } := by
  obtain ⟨total, r, rfl, hr⟩ := cemi_read_ok h
  have := infos_followed r.length rfl hr (by simp only [List.length_cons] at hc; omega) e
  rw [List.cons_append, List.cons_append, cemi_read_cons, this]

/-- A frame with additional information of two octets, as it may come from a bus monitor. -/
example (x : StdText) : ∃ a, runTRd (Cemi.read x .debug) [0x2b, 4, 3, 2, 7, 8] = .ok a ∧ 2 + needed a.infos = 4 ∧ 2 + infoOctets a.infos = 6 :=
  ⟨_, C132_violated_cemi x .debug 0x2b (ty := .busmonitorStatus) rfl rfl (by decide), rfl, rfl⟩

end Knx
