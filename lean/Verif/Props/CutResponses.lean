import Verif.Props.Cuts

/-!
# Search responses that are cut short, or followed by something (C132)
-/

namespace Knx

open Spec

/-- The octets a description block takes, its length and its type included. -/
def Dib.octets : Dib → Nat
  | .deviceInformation _ => 54
  | .supportedServiceFamilies s => 2 + 2 * s.families.length
  | .ipConfig _ => 16
  | .ipCurrentConfig _ => 20
  | .knxAddresses s => 6 + 4 * s.additional.length
  | .manufacturerData s => 4 + s.data.length

/-- A reader that takes some octets takes the same ones whatever follows, and complains if one of them is missing. -/
def Sharp {α : Type} (w : α → Nat) (p : TRd α) : Prop := ∀ d a r, p d = .ok (a, r) →
  ∃ u, d = u ++ r ∧ u.length = w a ∧ (∀ e, p (u ++ e) = .ok (a, e)) ∧ ∀ n < u.length, ∃ t, p (u.take n) = .err t

theorem sharp_pure {α : Type} {w : α → Nat} (a : α) (h : w a = 0) : Sharp w (pure a : TRd α) := by
  intro d b r hd
  have hd : TRes.ok (a, d) = TRes.ok (b, r) := hd
  cases hd
  exact ⟨[], rfl, h.symm, fun _ => rfl, fun n hn => (Nat.not_lt_zero n hn).elim⟩

theorem sharp_u8 (t : Text) : Sharp (fun _ => 1) (TRd.u8 t) := by
  intro d b r h
  cases d with
  | nil => cases h
  | cons a d =>
    cases h
    refine ⟨[b], rfl, rfl, fun _ => rfl, fun n hn => ?_⟩
    obtain rfl : n = 0 := by simp at hn; omega
    exact ⟨t, rfl⟩

theorem sharp_u16 (t : Text) : Sharp (fun _ => 2) (TRd.u16 t) := by
  intro d b r h
  match d with
  | [] => cases h
  | [_] => cases h
  | a :: c :: d =>
    cases h
    refine ⟨[a, c], rfl, rfl, fun _ => rfl, fun n hn => ?_⟩
    have hn : n < 2 := hn
    match n with
    | 0 => exact ⟨t, rfl⟩
    | 1 => exact ⟨t, rfl⟩

theorem sharp_ensure (c : Bool) (t : Text) : Sharp (fun _ => 0) (TRd.ensure c t) := by
  intro d b r h
  cases c <;> cases h
  exact ⟨[], rfl, rfl, fun _ => rfl, fun n hn => (Nat.not_lt_zero n hn).elim⟩

theorem sharp_lift {α : Type} (v : Res α) (t : Text) : Sharp (fun _ => 0) (TRd.lift v t) := by
  intro d b r h
  cases v <;> cases h
  exact ⟨[], rfl, rfl, fun _ => rfl, fun n hn => (Nat.not_lt_zero n hn).elim⟩

theorem sharp_fail {α : Type} {w : α → Nat} (t : Text) : Sharp w (TRd.fail t : TRd α) := by
  intro d b r h
  cases h

theorem sharp_taken {α : Type} {n : Nat} {t : Text} {p : TRd α} (v : Bytes → α)
    (hp : ∀ d, p d = if n ≤ d.length then .ok (v (d.take n), d.drop n) else .err t) : Sharp (fun _ => n) p := by
  intro d b r h
  rw [hp] at h
  by_cases hn : n ≤ d.length
  · rw [if_pos hn] at h
    cases h
    have hl : (d.take n).length = n := by rw [List.length_take]; omega
    refine ⟨d.take n, (List.take_append_drop n d).symm, hl, fun e => ?_, fun k hk => ⟨t, ?_⟩⟩
    · rw [hp, if_pos (by rw [List.length_append]; omega), List.take_append_of_le_length (by omega), List.take_of_length_le (by omega),
        List.drop_append_of_le_length (by omega), List.drop_eq_nil_of_le (by omega), List.nil_append]
    · rw [hp, if_neg (by rw [List.length_take]; omega)]
  · rw [if_neg hn] at h
    cases h

theorem sharp_exact (n : Nat) (t : Text) : Sharp (fun _ => n) (TRd.exact n t) := by
  refine sharp_taken (t := t) (fun b => ⟨(b.take n ++ List.replicate (n - b.length) 0).toArray, by simp; omega⟩) fun d => ?_
  simp only [TRd.exact, Rd.exact]
  by_cases h : n ≤ d.length
  · have e : (d.take n).take n ++ List.replicate (n - (d.take n).length) 0 = d.take n := by
      rw [List.length_take, Nat.min_eq_left h, Nat.sub_self, List.take_take, Nat.min_self]
      simp
    simp only [h, dif_pos, if_true, e]
  · simp only [h, dif_neg, if_false, not_false_iff]

theorem sharp_exactVec (n : Nat) (t : Text) : Sharp (fun _ => n) (TRd.exactVec n t) := by
  refine sharp_taken (t := t) id fun d => ?_
  simp only [TRd.exactVec, Rd.exactVec]
  by_cases h : n ≤ d.length
  · simp only [h, if_true, id]
  · simp only [h, if_false]

theorem Sharp.widths {α : Type} {w v : α → Nat} {p : TRd α} (hp : Sharp w p) (h : ∀ d a r, p d = .ok (a, r) → w a = v a) : Sharp v p := by
  intro d a r hd
  obtain ⟨u, h1, h2, h3⟩ := hp d a r hd
  exact ⟨u, h1, h2.trans (h d a r hd), h3⟩

/-- What an accepted reading yields. -/
def Yields {α : Type} (Q : α → Prop) (p : TRd α) : Prop := ∀ d a r, p d = .ok (a, r) → Q a

theorem yields_pure {α : Type} {Q : α → Prop} {a : α} (h : Q a) : Yields Q (pure a : TRd α) := by
  intro d b r hd
  have hd : TRes.ok (a, d) = TRes.ok (b, r) := hd
  cases hd
  exact h

theorem yields_bind {α β : Type} {P : α → Prop} {Q : β → Prop} {p : TRd α} {f : α → TRd β} (hp : Yields P p)
    (hf : ∀ a, P a → Yields Q (f a)) : Yields Q (p >>= f) := by
  intro d b r h
  have hb : ∀ d, (p >>= f) d = match p d with
      | .ok (a, r') => f a r'
      | .err t => .err t
      | .panic => .panic := fun _ => rfl
  rw [hb] at h
  cases hd : p d with
  | ok ar =>
    rw [hd] at h
    exact hf ar.1 (hp d ar.1 ar.2 hd) ar.2 b r h
  | err t => rw [hd] at h; cases h
  | panic => rw [hd] at h; cases h

theorem yields_any {α : Type} (p : TRd α) : Yields (fun _ => True) p := fun _ _ _ _ => trivial

theorem yields_exactVec (n : Nat) (t : Text) : Yields (fun l => l.length = n) (TRd.exactVec n t) := by
  intro d a r h
  simp only [TRd.exactVec, Rd.exactVec] at h
  by_cases hn : n ≤ d.length
  · simp only [hn, if_true] at h
    cases h
    rw [List.length_take]
    omega
  · simp only [hn, if_false] at h
    cases h

theorem sharp_bind {α β : Type} {w : α → Nat} {v : β → Nat} {p : TRd α} {f : α → TRd β} (hp : Sharp w p)
    (v' : α → β → Nat) (hf : ∀ a, Sharp (v' a) (f a)) (hv : ∀ a d b r, f a d = .ok (b, r) → v b = w a + v' a b) : Sharp v (p >>= f) := by
  intro d b r h
  have hb : ∀ d, (p >>= f) d = match p d with
      | .ok (a, r') => f a r'
      | .err t => .err t
      | .panic => .panic := fun _ => rfl
  rw [hb] at h
  cases hd : p d with
  | ok ar =>
    obtain ⟨a, r'⟩ := ar
    rw [hd] at h
    obtain ⟨u1, rfl, l1, e1, c1⟩ := hp d a r' hd
    have h : f a r' = .ok (b, r) := h
    obtain ⟨u2, rfl, l2, e2, c2⟩ := hf a r' b r h
    refine ⟨u1 ++ u2, by rw [List.append_assoc], by rw [List.length_append, l1, l2, hv a _ b r h], fun e => ?_, fun n hn => ?_⟩
    · rw [hb, List.append_assoc, e1]
      exact e2 e
    · rw [hb]
      by_cases hn1 : n < u1.length
      · obtain ⟨t, ht⟩ := c1 n hn1
        refine ⟨t, ?_⟩
        rw [List.take_append_of_le_length (by omega), ht]
      · rw [List.length_append] at hn
        obtain ⟨t, ht⟩ := c2 (n - u1.length) (by omega)
        refine ⟨t, ?_⟩
        rw [List.take_append, List.take_of_length_le (by omega), e1]
        exact ht
  | err t =>
    rw [hd] at h
    cases h
  | panic =>
    rw [hd] at h
    cases h

theorem sharp_step {α β : Type} {i : Nat} {p : TRd α} {f : α → TRd β} (hp : Sharp (fun _ => i) p) {v : β → Nat}
    (hf : ∀ a, Sharp (fun b => v b - i) (f a)) (hi : ∀ b, i ≤ v b) : Sharp v (p >>= f) :=
  sharp_bind hp (fun _ b => v b - i) hf fun _ _ b _ _ => by have := hi b; omega

/-- Readers of a fixed number of octets. -/
macro "sharp_reader" : tactic => `(tactic|
  repeat' first
    | exact sharp_pure _ rfl
    | refine sharp_step (sharp_u8 _) (fun _ => ?_) (fun _ => by decide)
    | refine sharp_step (sharp_u16 _) (fun _ => ?_) (fun _ => by decide)
    | refine sharp_step (sharp_exact _ _) (fun _ => ?_) (fun _ => by decide)
    | refine sharp_step (sharp_ensure _ _) (fun _ => ?_) (fun _ => by decide)
    | refine sharp_step (sharp_lift _ _) (fun _ => ?_) (fun _ => by decide))

theorem header_sharp (x : StdText) : Sharp (fun _ => 6) (Header.read x) := by
  unfold Header.read
  sharp_reader

theorem hpai_sharp (x : StdText) : Sharp (fun _ => 8) (Hpai.read x) := by
  unfold Hpai.read
  sharp_reader

theorem deviceInfo_sharp (n : U8) : Sharp (fun _ => 52) (DeviceInfo.read n) := by
  unfold DeviceInfo.read
  sharp_reader

theorem ipConfig_sharp (n : U8) : Sharp (fun _ => 14) (IpConfig.read n) := by
  unfold IpConfig.read
  sharp_reader

theorem ipCurrentConfig_sharp (n : U8) : Sharp (fun _ => 18) (IpCurrentConfig.read n) := by
  unfold IpCurrentConfig.read
  sharp_reader

theorem families_sharp (n : Nat) : Sharp (fun _ => 2 * n) (readFamiliesT n) := by
  induction n with
  | zero => exact sharp_pure _ rfl
  | succ n ih =>
    unfold readFamiliesT
    refine sharp_step (sharp_u8 _) (fun _ => ?_) (fun _ => by omega)
    refine sharp_step (sharp_u8 _) (fun _ => ?_) (fun _ => by omega)
    refine sharp_step ih (fun _ => sharp_pure _ ?_) (fun _ => ?_)
    · show 2 * (n + 1) - 1 - 1 - 2 * n = 0
      omega
    · show 2 * n ≤ 2 * (n + 1) - 1 - 1
      omega

theorem families_yield (n : Nat) : Yields (fun l => l.length = n) (readFamiliesT n) := by
  induction n with
  | zero => exact yields_pure rfl
  | succ n ih =>
    unfold readFamiliesT
    exact yields_bind (yields_any _) fun _ _ => yields_bind (yields_any _) fun _ _ => yields_bind ih fun l hl =>
      yields_pure (by rw [List.length_cons, hl])

theorem ips_sharp (n : Nat) : Sharp (fun _ => 4 * n) (readIpsT n) := by
  induction n with
  | zero => exact sharp_pure _ rfl
  | succ n ih =>
    unfold readIpsT
    refine sharp_step (sharp_exact _ _) (fun _ => ?_) (fun _ => by omega)
    refine sharp_step ih (fun _ => sharp_pure _ ?_) (fun _ => ?_)
    · show 4 * (n + 1) - 4 - 4 * n = 0
      omega
    · show 4 * n ≤ 4 * (n + 1) - 4
      omega

theorem ips_yield (n : Nat) : Yields (fun l => l.length = n) (readIpsT n) := by
  induction n with
  | zero => exact yields_pure rfl
  | succ n ih =>
    unfold readIpsT
    exact yields_bind (yields_any _) fun _ _ => yields_bind ih fun l hl => yields_pure (by rw [List.length_cons, hl])

theorem serviceFamilies_sharp (m : Mode) (n : U8) : Sharp (fun s => 2 * s.families.length) (ServiceFamilies.read m n) := by
  unfold ServiceFamilies.read
  refine sharp_bind (sharp_lift _ _) (fun _ s => 2 * s.families.length) (fun len => ?_) fun _ _ _ _ _ => by omega
  refine sharp_bind ((families_sharp (len.toNat / 2)).widths (v := fun l => 2 * l.length) fun d a r h => ?_) (fun _ _ => 0)
    (fun l => sharp_pure _ rfl) fun l d b r h => ?_
  · rw [families_yield _ d a r h]
  · cases h
    rfl

theorem knxAddresses_sharp (m : Mode) (n : U8) : Sharp (fun s => 4 + 4 * s.additional.length) (KnxAddresses.read m n) := by
  unfold KnxAddresses.read
  refine sharp_bind (sharp_exact _ _) (fun _ s => 4 * s.additional.length) (fun ind => ?_) fun _ _ _ _ _ => rfl
  refine sharp_bind (sharp_lift _ _) (fun _ s => 4 * s.additional.length) (fun len => ?_) fun _ _ _ _ _ => by omega
  refine sharp_bind ((ips_sharp (len.toNat / 2)).widths (v := fun l => 4 * l.length) fun d a r h => ?_) (fun _ _ => 0)
    (fun l => sharp_pure _ rfl) fun l d b r h => ?_
  · rw [ips_yield _ d a r h]
  · cases h
    rfl

theorem manufacturerData_sharp (n : U8) : Sharp (fun s => 2 + s.data.length) (ManufacturerData.read n) := by
  unfold ManufacturerData.read
  refine sharp_bind (sharp_u16 _) (fun _ s => s.data.length) (fun ind => ?_) fun _ _ _ _ _ => rfl
  refine sharp_bind ((sharp_exactVec _ _).widths (v := List.length) fun d a r h => ?_) (fun _ _ => 0)
    (fun l => sharp_pure _ rfl) fun l d b r h => ?_
  · exact (yields_exactVec _ _ d a r h).symm
  · cases h
    rfl

theorem sharp_map {α β : Type} {w : α → Nat} {v : β → Nat} {p : TRd α} (hp : Sharp w p) {g : α → β} (h : ∀ a, v (g a) = w a) :
    Sharp v (p >>= fun a => pure (g a)) := by
  refine (sharp_bind (v := v) (hp.widths (v := fun a => v (g a)) fun _ a _ _ => (h a).symm) (fun _ _ => 0) (fun a => ?_) fun a d b r hd => ?_)
  · exact sharp_pure _ rfl
  · cases hd
    rfl

theorem dib_sharp (m : Mode) : Sharp Dib.octets (Dib.read m) := by
  unfold Dib.read
  refine sharp_bind (sharp_u8 _) (fun _ b => b.octets - 1) (fun n => ?_) fun _ _ b _ _ => by cases b <;> simp only [Dib.octets] <;> omega
  refine sharp_bind (sharp_u8 _) (fun _ b => b.octets - 2) (fun t => ?_) fun _ _ b _ _ => by cases b <;> simp only [Dib.octets] <;> omega
  refine sharp_bind (sharp_lift _ _) (fun _ b => b.octets - 2) (fun ty => ?_) fun _ _ b _ _ => by omega
  cases ty
  · exact sharp_map (deviceInfo_sharp n) fun _ => rfl
  · exact sharp_map (serviceFamilies_sharp m n) fun _ => by simp only [Dib.octets]; omega
  · exact sharp_map (ipConfig_sharp n) fun _ => rfl
  · exact sharp_map (ipCurrentConfig_sharp n) fun _ => rfl
  · exact sharp_map (knxAddresses_sharp m n) fun _ => by simp only [Dib.octets]; omega
  · exact sharp_map (manufacturerData_sharp n) fun _ => by simp only [Dib.octets]; omega

theorem sharp_failed {α β : Type} {w : β → Nat} (t : Text) (f : α → TRd β) : Sharp w ((TRd.fail t : TRd α) >>= f) := by
  intro d b r h
  cases h

theorem sharp_pure_bind {α β : Type} {w : β → Nat} (a : α) {f : α → TRd β} (h : Sharp w (f a)) : Sharp w ((pure a : TRd α) >>= f) := h

theorem response_sharp (x : StdText) (m : Mode) :
    Sharp (fun a => 70 + 2 * a.serviceFamilies.families.length) (SearchResponse.read x m) := by
  unfold SearchResponse.read
  refine sharp_bind (header_sharp x) (fun _ a => 64 + 2 * a.serviceFamilies.families.length) (fun _ => ?_) fun _ _ _ _ _ => by omega
  refine sharp_bind (sharp_ensure _ _) (fun _ a => 64 + 2 * a.serviceFamilies.families.length) (fun _ => ?_) fun _ _ _ _ _ => by omega
  refine sharp_bind (hpai_sharp x) (fun _ a => 56 + 2 * a.serviceFamilies.families.length) (fun _ => ?_) fun _ _ _ _ _ => by omega
  refine sharp_bind (dib_sharp m) (fun b a => 56 + 2 * a.serviceFamilies.families.length - b.octets) (fun b => ?_) fun b d a r h => ?_
  · cases b
    case deviceInformation i =>
      refine sharp_pure_bind i ?_
      refine sharp_bind (dib_sharp m) (fun b a => 2 + 2 * a.serviceFamilies.families.length - b.octets) (fun b => ?_) fun b d a r h => ?_
      · cases b
        case supportedServiceFamilies s => exact sharp_pure_bind s (sharp_pure _ (Nat.sub_self _))
        all_goals exact sharp_failed _ _
      · cases b
        case supportedServiceFamilies s =>
          cases h
          simp only [Dib.octets]
          omega
        all_goals cases h
    all_goals exact sharp_failed _ _
  · cases b
    case deviceInformation i =>
      simp only [Dib.octets]
      omega
    all_goals cases h

theorem Sharp.exact {α : Type} {w : α → Nat} {p : TRd α} (hp : Sharp w p) {d : Bytes} {a : α} (h : runTRd p d = .ok a) :
    w a ≤ d.length ∧ (∀ n < w a, ∃ t, runTRd p (d.take n) = .err t) ∧ ∀ n, w a ≤ n → ∀ e, runTRd p (d.take n ++ e) = .ok a := by
  unfold runTRd at h
  cases hd : p d with
  | err t => rw [hd] at h; cases h
  | panic => rw [hd] at h; cases h
  | ok ar =>
    obtain ⟨b, r⟩ := ar
    rw [hd] at h
    have h : TRes.ok b = TRes.ok a := h
    cases h
    obtain ⟨u, rfl, hl, he, hc⟩ := hp d a r hd
    refine ⟨by rw [List.length_append]; omega, fun n hn => ?_, fun n hn e => ?_⟩
    · obtain ⟨t, ht⟩ := hc n (by omega)
      exact ⟨t, by rw [runTRd, List.take_append_of_le_length (by omega), ht]⟩
    · rw [runTRd, List.take_append, List.take_of_length_le (by omega), List.append_assoc, he]

/-- C132 for description blocks of every type: the octets a block takes are those of its contents, cut short of them it is rejected, and
what follows them does not matter. -/
theorem C132_dib (m : Mode) {d : Bytes} {b : Dib} (h : runTRd (Dib.read m) d = .ok b) :
    b.octets ≤ d.length ∧ (∀ n < b.octets, ∃ t, runTRd (Dib.read m) (d.take n) = .err t) ∧
    ∀ n, b.octets ≤ n → ∀ e, runTRd (Dib.read m) (d.take n ++ e) = .ok b :=
  (dib_sharp m).exact h

/-- C132 for search responses: they take seventy octets and two for each service family; cut short of them they are rejected, and what
follows them does not matter. -/
theorem C132_response (x : StdText) (m : Mode) {d : Bytes} {a : SearchResponse} (h : runTRd (SearchResponse.read x m) d = .ok a) :
    70 + 2 * a.serviceFamilies.families.length ≤ d.length ∧
    (∀ n < 70 + 2 * a.serviceFamilies.families.length, ∃ t, runTRd (SearchResponse.read x m) (d.take n) = .err t) ∧
    ∀ n, 70 + 2 * a.serviceFamilies.families.length ≤ n → ∀ e, runTRd (SearchResponse.read x m) (d.take n ++ e) = .ok a :=
  (response_sharp x m).exact h

/-- A block with two families, followed by three octets. -/
example (m : Mode) : runTRd (Dib.read m) [6, 2, 2, 1, 4, 1, 9, 9, 9] = .ok (.supportedServiceFamilies ⟨6, .supportedServiceFamilies, [⟨2, 1⟩, ⟨4, 1⟩]⟩) := by
  cases m <;> rfl

example : (Dib.supportedServiceFamilies ⟨6, .supportedServiceFamilies, [⟨2, 1⟩, ⟨4, 1⟩]⟩).octets = 6 := rfl

/-- A search response with one service family. -/
example (x : StdText) (m : Mode) : ∃ a, runTRd (SearchResponse.read x m)
    ([6, 16, 2, 2, 0, 72, 8, 1, 192, 168, 1, 2, 14, 87, 54, 1, 2, 0, 0x11, 0x0b, 0, 0, 1, 2, 3, 4, 5, 6, 224, 0, 23, 12, 1, 2, 3, 4, 5, 6] ++
      List.replicate 30 65 ++ [4, 2, 2, 1]) = .ok a ∧ a.serviceFamilies.families.length = 1 := by
  cases m <;> exact ⟨_, rfl, rfl⟩

end Knx
