import Verif.Spec.Services
import Verif.Props.Emi

/-!
# C102: the kind of a telegram is on the wire

Full statement: the frame of a telegram is the one the standard prescribes for its transport service,
its destination (group or individual) and its length. It is false for every service with a control field
of its own, for every individual destination and for more than 15 octets of data.
-/

namespace Knx
open Spec

/-- The seven constructors of tpdu.rs:29-92. -/
def Tpdu.build (a : Apdu) : Service → Tpdu
  | .broadcast => Tpdu.dataBroadcast a
  | .group => Tpdu.dataGroup a
  | .tagGroup => Tpdu.dataTagGroup a
  | .individual => Tpdu.dataIndividual a
  | .connected n => Tpdu.dataConnected a n
  | .connect => Tpdu.connect a
  | .disconnect => Tpdu.disconnect a

/-- The frame of a telegram made with the library. -/
def telegram (m : Mode) (prio : U8) (s : Service) (dest : KnxAddress) (a : Apdu) : Res Bytes :=
  ((LDataReq.new dest (Tpdu.build a s)).setPriority prio).packet m

/-- The payload fits into a telegram. -/
def Fits (a : Apdu) : Prop := ∀ d, a.data = .big d → d.length ≤ 253

theorem build_apdu (a : Apdu) (s : Service) : (Tpdu.build a s).apdu = a := by cases s <;> rfl

theorem telegram_eq (m : Mode) (prio : U8) (s : Service) (dest : KnxAddress) (a : Apdu) (h : Fits a) :
    telegram m prio s dest a = .ok (lDataReqFrame prio.toNat dest.toU16.toNat a.packet) := by
  have := C09_lDataReq_layout m dest (Tpdu.build a s) prio (by rw [build_apdu]; exact h)
  rwa [build_apdu] at this

/-- The first octet of an APDU has only its two low bits set. -/
theorem apdu_head (a : Apdu) : ∃ b c r, a.packet = b :: c :: r ∧ b.toNat < 4 := by
  have hb : ∀ x : U8, ((x &&& 0b1100#8) >>> 2).toNat < 4 := by decide +kernel
  unfold Apdu.packet Apci.packet
  cases a.data <;> cases a.apci.extendedCode <;> exact ⟨_, _, _, rfl, hb _⟩

theorem apdu_short (a : Apdu) (h : Fits a) : 2 ≤ a.packet.length ∧ a.packet.length ≤ 255 := by
  rw [Apdu.packet_length]
  split
  · omega
  · rename_i d hd; have := h d hd; omega

/-- C102, the constructors: different services are different telegrams in the program, except that a
broadcast is built like a group telegram. -/
theorem C102_services (a : Apdu) (s s' : Service) :
    Tpdu.build a s = Tpdu.build a s' ↔
      s = s' ∨ (s = .broadcast ∧ s' = .group) ∨ (s = .group ∧ s' = .broadcast) := by
  cases s <;> cases s' <;>
    simp [Tpdu.build, Tpdu.dataBroadcast, Tpdu.dataGroup, Tpdu.dataTagGroup, Tpdu.dataIndividual,
      Tpdu.dataConnected, Tpdu.connect, Tpdu.disconnect]

/-- C102 refuted: the service is not on the wire. All services, with any number, give the same frame. -/
theorem C102_violated_service (m : Mode) (prio : U8) (s s' : Service) (dest : KnxAddress) (a : Apdu) :
    telegram m prio s dest a = telegram m prio s' dest a := by
  simp only [telegram, LDataReq.packet_eq, LDataReq.setPriority, LDataReq.new, Tpdu.packet, build_apdu]

/-- C102 refuted: the kind of the destination is not on the wire. A telegram to a device is the frame of
a telegram to the group with the same code, for which the standard has another frame. -/
theorem C102_violated_individual (m : Mode) (prio : U8) (s : Service) (i g : KnxAddress) (a : Apdu)
    (hi : isGroup i = false) (hg : isGroup g = true) (hc : i.toU16 = g.toU16) :
    telegram m prio s i a = telegram m prio s g a ∧ stdReq prio.toNat s i a.packet ≠ stdReq prio.toNat s g a.packet := by
  constructor
  · simp only [telegram, LDataReq.packet_eq, LDataReq.setPriority, LDataReq.new, hc]
  · simp only [stdReq, hi, hg]
    simp [byte]

/-- C102, exactly what the frame tells: two telegrams have the same frame exactly if the low two bits of
the priority, the code of the destination and the octets of the APDU are the same. -/
theorem C102_same_iff (m : Mode) (p p' : U8) (s s' : Service) (d d' : KnxAddress) (a a' : Apdu)
    (h : Fits a) (h' : Fits a') :
    telegram m p s d a = telegram m p' s' d' a' ↔
      p.toNat % 4 = p'.toNat % 4 ∧ d.toU16 = d'.toU16 ∧ a.packet = a'.packet := by
  rw [telegram_eq m p s d a h, telegram_eq m p' s' d' a' h']
  simp only [lDataReqFrame, Res.ok.injEq, word, List.cons_append, List.nil_append, List.append_assoc,
    List.cons.injEq, true_and]
  constructor
  · rintro ⟨h1, h2, h3, _, h4⟩
    refine ⟨?_, ?_, h4⟩
    · have := congrArg BitVec.toNat h1
      simp only [byte, BitVec.toNat_ofNat] at this
      omega
    · have e1 := congrArg BitVec.toNat h2
      have e2 := congrArg BitVec.toNat h3
      simp only [byte, BitVec.toNat_ofNat] at e1 e2
      have := d.toU16.isLt
      have := d'.toU16.isLt
      apply BitVec.eq_of_toNat_eq
      omega
  · rintro ⟨h1, h2, h3⟩
    rw [h1, h2, h3]
    simp

/-- C102, exactly when the frame is right: for a service without a control field of its own, a group
destination, and at most 15 octets. -/
theorem C102_exact (m : Mode) (p : U8) (s : Service) (d : KnxAddress) (a : Apdu) (h : Fits a) :
    telegram m p s d a = .ok (stdReq p.toNat s d a.packet) ↔
      (s = .broadcast ∨ s = .group ∨ s = .individual) ∧ isGroup d = true ∧ a.packet.length ≤ 16 := by
  rw [telegram_eq m p s d a h]
  obtain ⟨b, c, r, he, hb⟩ := apdu_head a
  have hl := apdu_short a h
  rw [he] at hl ⊢
  simp only [Res.ok.injEq, lDataReqFrame, stdReq, word, List.cons_append, List.nil_append, List.append_assoc,
    List.cons.injEq, true_and]
  constructor
  · rintro ⟨h1, h2, h3, h4⟩
    have hs : s = .broadcast ∨ s = .group ∨ s = .individual := by
      cases s with
      | broadcast => simp
      | group => simp
      | individual => simp
      | tagGroup =>
        simp only [stdTpdu, isControl, tpci, List.headD_cons, Bool.false_eq_true, if_false, List.cons.injEq] at h4
        have := congrArg BitVec.toNat h4.1
        simp only [byte, BitVec.toNat_ofNat] at this
        omega
      | connected n =>
        simp only [stdTpdu, isControl, tpci, List.headD_cons, Bool.false_eq_true, if_false, List.cons.injEq] at h4
        have := congrArg BitVec.toNat h4.1
        simp only [byte, BitVec.toNat_ofNat] at this
        omega
      | connect => simp [stdTpdu, isControl] at h4
      | disconnect => simp [stdTpdu, isControl] at h4
    refine ⟨hs, ?_, ?_⟩
    · cases hg : isGroup d with
      | true => rfl
      | false =>
        rw [hg] at h2
        simp [byte] at h2
    · have ht : (stdTpdu s (b :: c :: r)).length = (b :: c :: r).length := by
        rcases hs with rfl | rfl | rfl <;> simp [stdTpdu, isControl]
      rw [ht] at h1
      refine Nat.le_of_not_lt fun hn => ?_
      rw [if_neg (by omega)] at h1
      have := congrArg BitVec.toNat h1
      simp only [byte, BitVec.toNat_ofNat] at this
      omega
  · rintro ⟨hs, hg, hn⟩
    have ht : stdTpdu s (b :: c :: r) = b :: c :: r := by
      have : byte (0 + b.toNat % 4) = b := by
        apply BitVec.eq_of_toNat_eq
        simp only [byte, BitVec.toNat_ofNat]
        omega
      rcases hs with rfl | rfl | rfl <;>
        simp only [stdTpdu, isControl, tpci, List.headD_cons, Bool.false_eq_true, if_false, List.tail_cons, this]
    rw [ht, if_pos hg, if_pos (by omega)]
    simp only [Nat.reduceAdd, and_true, true_and]
    rfl

/-- C102 where it holds: group reads and writes of at most 14 octets of data are the frames of the
standard. -/
theorem C102_partial (m : Mode) (p : U8) (d : KnxAddress) (a : Apdu) (hd : isGroup d = true)
    (ha : a = Apdu.groupValueRead ∨ ∃ v small, Apdu.groupValueWrite v small = .ok a ∧ (small = true ∨ v.length ≤ 14)) :
    telegram m p .group d a = .ok (stdReq p.toNat .group d a.packet) := by
  have hl : a.packet.length ≤ 16 ∧ Fits a := by
    rcases ha with rfl | ⟨v, small, ha, hv⟩
    · exact ⟨by decide, fun d h => by cases h⟩
    · cases small with
      | false =>
        simp only [Apdu.groupValueWrite, Bool.false_eq_true, if_false, Res.ok.injEq] at ha
        rw [← ha, Apdu.packet_length]
        simp only [Bool.false_eq_true, false_or] at hv
        exact ⟨by simp; omega, fun d h => by cases h; omega⟩
      | true =>
        cases v with
        | nil => simp [Apdu.groupValueWrite] at ha
        | cons x v =>
          simp only [Apdu.groupValueWrite, if_true, Res.ok.injEq] at ha
          rw [← ha, Apdu.packet_length]
          exact ⟨by simp, fun d h => by cases h⟩
  exact (C102_exact m p .group d a hl.2).2 ⟨by simp, hd, hl.1⟩

/-- A write to 1/2/3 and the same to the device 1.2.3: one frame, and the standard has two. -/
example :
    telegram .debug 3 .group (.group3 ⟨1, 2, 3⟩) ⟨Apci.groupValueWrite, .small 1⟩
      = .ok [0x11, 0, 0xbc, 0xe0, 0, 0, 0x0a, 0x03, 1, 0, 0x81] ∧
    stdReq 3 .group (.group3 ⟨1, 2, 3⟩) [0, 0x81] = [0x11, 0, 0xbc, 0xe0, 0, 0, 0x0a, 0x03, 1, 0, 0x81] ∧
    telegram .debug 3 (.connected 5) (.individual ⟨0, 10, 3⟩) ⟨Apci.groupValueWrite, .small 1⟩
      = .ok [0x11, 0, 0xbc, 0xe0, 0, 0, 0x0a, 0x03, 1, 0, 0x81] ∧
    stdReq 3 (.connected 5) (.individual ⟨0, 10, 3⟩) [0, 0x81] = [0x11, 0, 0xbc, 0x60, 0, 0, 0x0a, 0x03, 1, 0x54, 0x81] ∧
    stdReq 3 .disconnect (.individual ⟨0, 10, 3⟩) [] = [0x11, 0, 0xbc, 0x60, 0, 0, 0x0a, 0x03, 0, 0x81] := by
  decide

end Knx
