import Verif.Props.Emi

/-!
# Property C12: the cEMI frames that are accepted
-/

namespace Knx
open Spec

theorem infosSize_cons (i : AddInfo) (is : List AddInfo) : infosSize (i :: is) = i.value.length + 2 + infosSize is := by
  simp [infosSize]

theorem cemiInfos_stop (m : Mode) (total pos : U8) (r : Bytes) (hp : ¬ pos.toNat < total.toNat) : cemiInfos m total pos r = .ok ([], r) := by
  unfold cemiInfos
  rw [if_neg (by rw [BitVec.lt_def]; exact hp)]

theorem cemiInfos_nil (m : Mode) (total pos : U8) (hp : pos.toNat < total.toNat) : cemiInfos m total pos [] = .err := by
  unfold cemiInfos
  rw [if_pos (by rw [BitVec.lt_def]; exact hp)]

theorem cemiInfos_single (m : Mode) (total pos x : U8) (hp : pos.toNat < total.toNat) : cemiInfos m total pos [x] = .err := by
  unfold cemiInfos
  rw [if_pos (by rw [BitVec.lt_def]; exact hp)]

/-- One iteration of the block loop. -/
theorem cemiInfos_one (m : Mode) (total pos t s : U8) (r : Bytes) (hp : pos.toNat < total.toNat) :
    cemiInfos m total pos (t :: s :: r) =
      match InfoType.ofU8 t with
      | none => .err
      | some ty =>
        if m = .debug ∧ 256 ≤ pos.toNat + s.toNat + 2 then .panic
        else match cemiInfos m total (pos + (s + 2)) (r.drop s.toNat) with
          | .ok (rest, r'') => .ok (⟨ty, padded s.toNat r⟩ :: rest, r'')
          | .err => .err
          | .panic => .panic := by
  conv => lhs; unfold cemiInfos
  rw [if_pos (by rw [BitVec.lt_def]; exact hp)]
  have hv : r.take s.toNat ++ List.replicate (s.toNat - r.length) 0 = padded s.toNat r := by
    simp [padded, List.take_append, List.take_replicate]
  simp only [hv]
  cases InfoType.ofU8 t with
  | none => rfl
  | some ty =>
    simp only
    have h2 : (2 : U8).toNat = 2 := rfl
    by_cases h : pos.toNat + s.toNat + 2 < 256
    · have e1 : addU m s 2 = .ok (s + 2) := addU_of_lt _ _ _ (by rw [h2]; omega)
      have e2 : (s + 2).toNat = s.toNat + 2 := by rw [BitVec.toNat_add, h2]; omega
      have e3 : addU m pos (s + 2) = .ok (pos + (s + 2)) := addU_of_lt _ _ _ (by rw [e2]; omega)
      rw [if_neg (by omega)]
      simp only [e1, e3]
      rfl
    · cases m with
      | debug =>
        rw [if_pos ⟨rfl, by omega⟩]
        by_cases h' : s.toNat + 2 < 256
        · have e1 : addU .debug s 2 = .ok (s + 2) := addU_of_lt _ _ _ (by rw [h2]; omega)
          have e2 : (s + 2).toNat = s.toNat + 2 := by rw [BitVec.toNat_add, h2]; omega
          have e3 : addU .debug pos (s + 2) = .panic := (addU_panic_iff _ _ _).2 ⟨rfl, by rw [e2]; omega⟩
          simp only [e1, e3]
        · have e1 : addU .debug s 2 = .panic := (addU_panic_iff _ _ _).2 ⟨rfl, by rw [h2]; omega⟩
          simp only [e1]
      | release =>
        rw [if_neg (by simp)]
        have e (a b : U8) : addU .release a b = .ok (a + b) := by unfold addU; split <;> rfl
        simp only [e]
        rfl

/-- What the block loop accepts. -/
theorem cemiInfos_ok_iff (m : Mode) (total : U8) : ∀ (is : List AddInfo) (pos : U8) (r rest : Bytes),
    cemiInfos m total pos r = .ok (is, rest) ↔ Blocks is r rest ∧
      (∀ a b, is = a ++ b → b ≠ [] → (pos.toNat + infosSize a) % 256 < total.toNat) ∧
      total.toNat ≤ (pos.toNat + infosSize is) % 256 ∧ (m = .debug → pos.toNat + infosSize is < 256) := by
  intro is
  induction is with
  | nil =>
    intro pos r rest
    have hlt := pos.isLt
    constructor
    · intro h
      by_cases hp : pos.toNat < total.toNat
      · match r with
        | [] => rw [cemiInfos_nil m total pos hp] at h; cases h
        | [x] => rw [cemiInfos_single m total pos x hp] at h; cases h
        | t :: s :: r =>
          rw [cemiInfos_one m total pos t s r hp] at h
          repeat' split at h
          all_goals cases h
      · rw [cemiInfos_stop m total pos r hp] at h
        cases h
        refine ⟨.none _, ?_, ?_, ?_⟩
        · intro a b h1 h2; simp at h1; exact absurd h1.2 h2
        · simp [infosSize]; omega
        · intro _; simp [infosSize]; omega
    · rintro ⟨h1, _, h3, _⟩
      cases h1
      simp [infosSize] at h3
      rw [cemiInfos_stop m total pos _ (by omega)]
  | cons i is ih =>
    intro pos r rest
    have hlt := pos.isLt
    constructor
    · intro h
      by_cases hp : pos.toNat < total.toNat
      · match r with
        | [] => rw [cemiInfos_nil m total pos hp] at h; cases h
        | [x] => rw [cemiInfos_single m total pos x hp] at h; cases h
        | t :: s :: r =>
          rw [cemiInfos_one m total pos t s r hp] at h
          have hs := s.isLt
          split at h
          · cases h
          · rename_i ty hty
            rw [ofU8_iff] at hty
            split at h
            · cases h
            · rename_i hno
              split at h
              · rename_i rest' r'' hrec
                cases h
                obtain ⟨g1, g2, g3, g4⟩ := (ih _ _ _).1 hrec
                have ep : (pos + (s + 2)).toNat = (pos.toNat + (s.toNat + 2)) % 256 := by
                  rw [BitVec.toNat_add, BitVec.toNat_add, show (2 : U8).toNat = 2 from rfl]; omega
                have el : (padded s.toNat r).length = s.toNat := padded_length _ _
                refine ⟨?_, ?_, ?_, ?_⟩
                · by_cases hl : s.toNat ≤ r.length
                  · have e : t :: s :: r = infoBytes ⟨ty, padded s.toNat r⟩ ++ r.drop s.toNat := by
                      have e1 : padded s.toNat r = r.take s.toNat := by
                        simp [padded, List.take_append, Nat.sub_eq_zero_of_le hl]
                      have e2 : byte (r.take s.toNat).length = s := by
                        apply BitVec.eq_of_toNat_eq
                        rw [List.length_take, Nat.min_eq_left hl]; simp [byte]
                      rw [e1, hty, infoBytes]
                      simp only [e2, List.cons_append, List.nil_append, List.take_append_drop]
                    rw [e]
                    exact .block _ _ _ _ (by rw [el]; omega) g1
                  · have e1 : r.drop s.toNat = [] := by simp; omega
                    rw [e1] at g1
                    generalize hb : ([] : Bytes) = b at g1
                    cases g1 with
                    | none =>
                      rw [← hb, hty]
                      exact .short ty s r (by omega)
                    | block i' is' b rest => simp [infoBytes] at hb
                    | short ty' s' v => simp at hb
                · intro a b hab hb
                  cases a with
                  | nil => simp [infosSize]; omega
                  | cons j a =>
                    simp only [List.cons_append, List.cons.injEq] at hab
                    obtain ⟨rfl, hab⟩ := hab
                    have := g2 a b hab hb
                    rw [ep] at this
                    rw [infosSize_cons]
                    simp only [el]
                    omega
                · rw [ep] at g3
                  rw [infosSize_cons]
                  simp only [el]
                  omega
                · intro hm
                  have := g4 hm
                  rw [ep] at this
                  rw [infosSize_cons]
                  simp only [el]
                  simp [hm] at hno
                  omega
              · cases h
              · cases h
      · rw [cemiInfos_stop m total pos r hp] at h
        cases h
    · rintro ⟨h1, h2, h3, h4⟩
      have hp : pos.toNat < total.toNat := by
        have := h2 [] (i :: is) rfl (by simp)
        simp [infosSize] at this
        omega
      have key : ∃ t s r', r = t :: s :: r' ∧ InfoType.ofU8 t = some i.infoType ∧ i.value = padded s.toNat r' ∧ i.value.length = s.toNat ∧
          Blocks is (r'.drop s.toNat) rest := by
        cases h1 with
        | block _ _ b _ hl hb =>
          have e : (byte i.value.length).toNat = i.value.length := byte_toNat hl
          refine ⟨byte (infoCode i.infoType), byte i.value.length, i.value ++ b, by simp [infoBytes], ofU8_iff.2 rfl, ?_, e.symm, ?_⟩
          · rw [e]; simp [padded]
          · rw [e]; simpa using hb
        | short ty s v hl =>
          refine ⟨byte (infoCode ty), s, v, rfl, ofU8_iff.2 rfl, rfl, padded_length _ _, ?_⟩
          rw [show v.drop s.toNat = [] by simp; omega]
          exact .none _
      obtain ⟨t, s, r', rfl, k1, k2, k3, k4⟩ := key
      have hs := s.isLt
      rw [cemiInfos_one m total pos t s r' hp, k1]
      simp only [infosSize_cons, k3] at h2 h3 h4
      simp only
      rw [if_neg (by rintro ⟨g1, g2⟩; have := h4 g1; omega)]
      have ep : (pos + (s + 2)).toNat = (pos.toNat + (s.toNat + 2)) % 256 := by
        rw [BitVec.toNat_add, BitVec.toNat_add, show (2 : U8).toNat = 2 from rfl]; omega
      have := (ih (pos + (s + 2)) (r'.drop s.toNat) rest).2 ⟨k4, by
          intro a b hab hb
          have := h2 (i :: a) b (by rw [hab]; rfl) hb
          rw [infosSize_cons, k3] at this
          rw [ep]; omega, by rw [ep]; omega, by intro hm; have := h4 hm; rw [ep]; omega⟩
      rw [this]
      simp only [← k2]

/-- C12: the frames that are accepted, exactly, in both build modes. The blocks are read as long as their sizes so far, counted modulo 256, are less
than the declared total; so the last block may be longer than declared; and of the last block of the frame bytes may be missing, which count as
zeros. Whatever follows is the service data. -/
theorem C12_accepts (m : Mode) (r : Bytes) (c : Cemi) : Cemi.fromPacket m r = .ok (c, []) ↔
    ∃ total b, r = [c.msgCode, total] ++ b ∧ Blocks c.infos b c.serviceInfo ∧
      (∀ x y, c.infos = x ++ y → y ≠ [] → infosSize x % 256 < total.toNat) ∧
      total.toNat ≤ infosSize c.infos % 256 ∧ (m = .debug → infosSize c.infos < 256) := by
  constructor
  · intro h
    match r with
    | [] => simp [Cemi.fromPacket, Rd.bind_eval, Rd.u8] at h
    | [x] => simp [Cemi.fromPacket, Rd.bind_eval, Rd.u8] at h
    | code :: total :: b =>
      simp only [Cemi.fromPacket, Rd.bind_eval, Rd.u8, Rd.of_eval] at h
      cases hi : cemiInfos m total 0 b with
      | ok x =>
        obtain ⟨is, rest⟩ := x
        rw [hi] at h
        cases h
        have := (cemiInfos_ok_iff m total is 0 b rest).1 hi
        simp only [show (0 : U8).toNat = 0 from rfl, Nat.zero_add] at this
        exact ⟨total, b, rfl, this⟩
      | err => rw [hi] at h; cases h
      | panic => rw [hi] at h; cases h
  · rintro ⟨total, b, rfl, h⟩
    have := (cemiInfos_ok_iff m total c.infos 0 b c.serviceInfo).2 (by
      simpa only [show (0 : U8).toNat = 0 from rfl, Nat.zero_add] using h)
    simp only [Cemi.fromPacket, List.cons_append, List.nil_append, Rd.bind_eval, Rd.u8, Rd.of_eval, this]
    rfl

/-- The declared total may be less than the size of the last block. -/
example (m : Mode) : Cemi.fromPacket m [0x2b, 1, 3, 1, 1, 0xaa] = .ok (⟨0x2b, [⟨.busmonitorStatus, [1]⟩], [0xaa]⟩, []) ∧
    Blocks [⟨.busmonitorStatus, [1]⟩] [3, 1, 1, 0xaa] [0xaa] ∧ infosSize [⟨.busmonitorStatus, [1]⟩] = 3 := by
  have hb : Blocks [⟨.busmonitorStatus, [1]⟩] [3, 1, 1, 0xaa] [0xaa] := .block ⟨.busmonitorStatus, [1]⟩ [] [0xaa] [0xaa] (by decide) (.none _)
  refine ⟨(C12_accepts m _ _).2 ⟨1, [3, 1, 1, 0xaa], rfl, hb, ?_, by decide, fun _ => by decide⟩, hb, rfl⟩
  intro x y hx hy
  cases x with
  | nil => decide
  | cons i x => simp at hx; exact absurd hx.2.2 hy

/-- Bytes missing from the last block count as zeros. -/
example (m : Mode) : Cemi.fromPacket m [0x2b, 4, 3, 2, 7] = .ok (⟨0x2b, [⟨.busmonitorStatus, [7, 0]⟩], []⟩, []) := by
  refine (C12_accepts m _ _).2 ⟨4, [3, 2, 7], rfl, .short .busmonitorStatus 2 [7] (by decide), ?_, by decide, fun _ => by decide⟩
  intro x y hx hy
  cases x with
  | nil => decide
  | cons i x => simp at hx; exact absurd hx.2.2 hy

/-- C09 for every payload: the telegram has the L_Data.req layout, with the length octet modulo 256, or building it panics; the latter exactly in a
debug build when the length of the TPDU is a multiple of 256. -/
theorem C09_layout_any (m : Mode) (dest : KnxAddress) (tpdu : Tpdu) (prio : U8) :
    ((LDataReq.new dest tpdu).setPriority prio).packet m =
      if m = .debug ∧ tpdu.apdu.packet.length % 256 = 0 then .panic
      else .ok (lDataReqFrame prio.toNat dest.toU16.toNat tpdu.apdu.packet) := by
  have hl : 1 ≤ tpdu.apdu.packet.length := by
    rw [Apdu.packet_length]
    split <;> omega
  rw [LDataReq.packet_eq]
  have e : byte (tpdu.apdu.packet.length + 255) = byte (tpdu.apdu.packet.length - 1) := by
    apply BitVec.eq_of_toNat_eq; simp [byte]; omega
  change (if m = .debug ∧ tpdu.apdu.packet.length % 256 = 0 then Res.panic
    else .ok (_ ++ [byte (tpdu.apdu.packet.length + 255)] ++ tpdu.apdu.packet)) = _
  rw [e]; rfl

example (d : Bytes) (h : d.length = 254) :
    (LDataReq.new (.group3 ⟨1, 2, 3⟩) (Tpdu.dataGroup ⟨Apci.groupValueWrite, .big d⟩)).packet .debug = .panic := by
  have := C09_layout_any .debug (.group3 ⟨1, 2, 3⟩) (Tpdu.dataGroup ⟨Apci.groupValueWrite, .big d⟩) 3
  rw [if_pos ⟨rfl, by simp [Tpdu.dataGroup, Apdu.packet_length, h]⟩] at this
  exact this

end Knx
