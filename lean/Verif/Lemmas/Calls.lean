import Verif.Lemmas.Pairing

/-!
# Lemmas: what a step of the client says about the call in progress
-/

namespace Knx
open Spec

/-- A step that sends, receives, takes or returns something on behalf of a call is a step of the API. -/
theorem step_api {m : Mode} {s s' : Sys} {e : Ev} {o : List Obs} (hs : Knx.step m s e = some (s', o))
    (h : returned o ≠ [] ∨ apiSent o ≠ [] ∨ taken o ≠ [] ∨ apiReceived o ≠ []) : ApiTr m s s' o := by
  cases e with
  | bg e =>
    simp only [Knx.step, Option.map_eq_some_iff, Prod.exists, Prod.mk.injEq] at hs
    obtain ⟨b, o', hb, rfl, rfl⟩ := hs
    have f := (bgStep_tr hb).facts
    simp [f.returned, f.sent, f.taken, f.received] at h
  | delay d => cases hs; simp [returned, apiSent, taken, apiReceived] at h
  | api e => exact apiStep_tr hs

theorem returned_ne {o : List Obs} {r : Ret} (h : Obs.ret r ∈ o) : returned o ≠ [] := by
  intro hn
  have : r ∈ returned o := List.mem_filterMap.2 ⟨_, h, rfl⟩
  rw [hn] at this; cases this

theorem apiSent_ne {o : List Obs} {p : Bytes} (h : Obs.tx .api p ∈ o) : apiSent o ≠ [] := by
  intro hn
  have : p ∈ apiSent o := List.mem_filterMap.2 ⟨_, h, rfl⟩
  rw [hn] at this; cases this

theorem taken_ne {o : List Obs} {i : Nat} {c : Cemi} (h : Obs.taken i c ∈ o) : taken o ≠ [] := by
  intro hn
  have : c ∈ taken o := List.mem_filterMap.2 ⟨_, h, rfl⟩
  rw [hn] at this; cases this

/-- The telegram of a read. -/
theorem readCemi_eq (m : Mode) (addr : KnxAddress) :
    readCemi m addr = .ok (lDataReqFrame 3 addr.toU16.toNat apduRead) := by
  unfold readCemi
  rw [C09_default_priority]
  · rw [show (Tpdu.dataGroup Apdu.groupValueRead).apdu.packet = apduRead from C07_apdu_bytes.1]
  · intro d hd; cases hd

/-- The telegram of a write of at most 253 bytes. -/
theorem writeCemi_eq (m : Mode) (addr : KnxAddress) (v : Bytes) (small : Bool) (h1 : small = true → v ≠ [])
    (h2 : small = false → v.length ≤ 253) :
    writeCemi m addr v small
      = .ok (lDataReqFrame 3 addr.toU16.toNat (if small then apduWriteSmall (v.headD 0) else apduWriteBig v)) := by
  unfold writeCemi
  have h3 := C08_write_panics_iff v small
  cases ha : Apdu.groupValueWrite v small with
  | ok a =>
    have h4 := h3.2.2 a ha
    simp only
    rw [C09_default_priority, show (Tpdu.dataGroup a).apdu = a from rfl, h4]
    intro d hd
    change a.data = _ at hd
    cases small
    · simp only [Bool.false_eq_true, if_false] at h4
      have := congrArg List.length h4
      rw [Apdu.packet_length, hd] at this
      simp [apduWriteBig] at this
      have := h2 rfl
      omega
    · simp only [if_true] at h4
      have := congrArg List.length h4
      rw [Apdu.packet_length, hd] at this
      simp [apduWriteSmall] at this
      simp [this]
  | err => exact absurd ha h3.2.1
  | panic => exact absurd (h3.1.1 ha).2 (h1 (h3.1.1 ha).1)

/-- The telegram of a write of any length, when one is built: of a long value the length octet is what is left of the length. -/
theorem writeCemi_ok {m : Mode} {addr : KnxAddress} {v cemi : Bytes} {small : Bool} (h : writeCemi m addr v small = .ok cemi) :
    cemi = lDataReqFrame 3 addr.toU16.toNat (if small then apduWriteSmall (v.headD 0) else apduWriteBig v) := by
  unfold writeCemi at h
  have h3 := C08_write_panics_iff v small
  cases ha : Apdu.groupValueWrite v small with
  | ok a =>
    have h4 := h3.2.2 a ha
    have h5 : 2 ≤ a.packet.length := by rw [Apdu.packet_length]; split <;> omega
    rw [ha] at h
    simp only at h
    rw [LDataReq.packet_eq] at h
    split at h
    · cases h
    · cases h
      rw [← h4]
      have e : byte (a.packet.length + 255) = byte (a.packet.length - 1) := by
        apply BitVec.eq_of_toNat_eq; simp [byte]; omega
      change _ ++ [byte (a.packet.length + 255)] ++ a.packet = _
      rw [e]; rfl
  | err => exact absurd ha h3.2.1
  | panic => rw [ha] at h; cases h

/-- A value of 300 bytes is sent by both builds, with a length octet of 301 - 256. -/
example (m : Mode) : writeCemi m (.group3 ⟨1, 0, 1⟩) (List.replicate 300 5) false
    = .ok ([0x11, 0, 0xbc, 0xe0, 0, 0, 8, 1, 45, 0, 0x80] ++ List.replicate 300 5) := by cases m <;> decide +kernel

end Knx
