import Verif.Spec.Claims
import Verif.Props.DpMore

/-!
# What the messages about rejected data say (C114)
-/

namespace Knx

open Spec

/-! ## The texts do not change the functions -/

theorem PdtScaled.fromBytesT_erase (b : Bytes) : (PdtScaled.fromBytesT b).erase = PdtScaled.fromBytes b := by cases b <;> rfl
theorem PdtByte.fromBytesT_erase (b : Bytes) : (PdtByte.fromBytesT b).erase = PdtByte.fromBytes b := by cases b <;> rfl
theorem PdtBit.fromBytesT_erase (b : Bytes) : (PdtBit.fromBytesT b).erase = PdtBit.fromBytes b := by cases b <;> rfl
theorem PdtB1U3.fromBytesT_erase (b : Bytes) : (PdtB1U3.fromBytesT b).erase = PdtB1U3.fromBytes b := by cases b <;> rfl

theorem PdtInt.fromBytesT_erase (b : Bytes) : (PdtInt.fromBytesT b).erase = PdtInt.fromBytes b := by
  unfold PdtInt.fromBytesT PdtInt.fromBytes
  cases Rd.u16 b <;> rfl

theorem PdtWord.fromBytesT_erase (b : Bytes) : (PdtWord.fromBytesT b).erase = PdtWord.fromBytes b := by
  unfold PdtWord.fromBytesT PdtWord.fromBytes
  cases Rd.u16 b <;> rfl

theorem PdtULong.fromBytesT_erase (b : Bytes) : (PdtULong.fromBytesT b).erase = PdtULong.fromBytes b := by
  unfold PdtULong.fromBytesT PdtULong.fromBytes
  cases Rd.u32 b <;> rfl

theorem PdtFloat.fromBytesT_erase (m : Mode) (b : Bytes) : (PdtFloat.fromBytesT m b).erase = PdtFloat.fromBytes m b := by
  unfold PdtFloat.fromBytesT PdtFloat.fromBytes bytesToFloatT
  cases bytesToFloat m b <;> rfl

theorem PdtFloat.tempFromBytesT_erase (m : Mode) (b : Bytes) : (PdtFloat.tempFromBytesT m b).erase = PdtFloat.tempFromBytes m b := by
  unfold PdtFloat.tempFromBytesT PdtFloat.tempFromBytes bytesToFloatT
  cases bytesToFloat m b <;> rfl

/-! ## The messages -/

/-- The message of a function. -/
def dpMessage : Decoder → Text
  | .scaled => "At least one byte is needed".toList
  | .int => "Unable to get first byte {e}".toList
  | .float => "Wrong bytes count, TryFromSliceError(())".toList
  | .temperature => "Wrong bytes count, TryFromSliceError(())".toList
  | .byte => "One byte is needes".toList
  | .word => "Unable to get 2 bytes {e}".toList
  | .ulong => "Unable to get 4 bytes {e}".toList
  | .bit => "Should have at least one byte".toList
  | .b1u3 => "Should have at least one byte".toList

theorem u16_cases (b : Bytes) : (b.length < 2 ∧ Rd.u16 b = .err) ∨ (2 ≤ b.length ∧ ∃ v r, Rd.u16 b = .ok (v, r)) := by
  match b with
  | [] => exact .inl ⟨by decide, rfl⟩
  | [_] => exact .inl ⟨by simp, rfl⟩
  | _ :: _ :: _ => exact .inr ⟨by simp, _, _, rfl⟩

theorem u32_cases (b : Bytes) : (b.length < 4 ∧ Rd.u32 b = .err) ∨ (4 ≤ b.length ∧ ∃ v r, Rd.u32 b = .ok (v, r)) := by
  match b with
  | [] => exact .inl ⟨by decide, rfl⟩
  | [_] => exact .inl ⟨by simp, rfl⟩
  | [_, _] => exact .inl ⟨by simp, rfl⟩
  | [_, _, _] => exact .inl ⟨by simp, rfl⟩
  | _ :: _ :: _ :: _ :: _ => exact .inr ⟨by simp, _, _, rfl⟩

theorem floatMant_ne_err (m : Mode) (v : U16) : floatMant m v ≠ .err := by
  have hs : subU m (v &&& 0x07ff#16) 1 ≠ .err := by unfold subU; split <;> (try cases m) <;> simp
  unfold floatMant
  dsimp only
  split
  · cases h : subU m (v &&& 0x07ff#16) 1 <;> simp_all
  · simp

theorem float_cases (m : Mode) (b : Bytes) : bytesToFloat m b = .err ↔ b.length ≠ 2 := by
  match b with
  | [] => simp [bytesToFloat]
  | [_] => simp [bytesToFloat]
  | [x, y] =>
    simp only [List.length_cons, List.length_nil, ne_eq, not_true, iff_false]
    unfold bytesToFloat
    have := floatMant_ne_err m (ofBe16 x y)
    cases h : floatMant m (ofBe16 x y) <;> simp_all
  | _ :: _ :: _ :: _ => simp [bytesToFloat]

theorem reject1 {α : Type} {f : Bytes → TRes α} {t : Text} (h0 : f [] = .err t) (h1 : ∀ a r, ∃ v, f (a :: r) = .ok v) (b : Bytes) (t' : Text) :
    (f b).error? = some t' ↔ t' = t ∧ b.length < 1 := by
  cases b with
  | nil => simp [h0, TRes.error?, eq_comm]
  | cons a r =>
    obtain ⟨v, h⟩ := h1 a r
    simp [h, TRes.error?]

theorem reject2 {α β : Type} {n : Nat} {x : Res β} {f : TRes α} {t : Text} {b : Bytes}
    (h : (b.length < n ∧ x = .err) ∨ (n ≤ b.length ∧ ∃ v, x = .ok v)) (h0 : x = .err → f = .err t) (h1 : ∀ v, x = .ok v → ∃ w, f = .ok w) (t' : Text) :
    f.error? = some t' ↔ t' = t ∧ b.length < n := by
  rcases h with ⟨h, e⟩ | ⟨h, v, e⟩
  · simp [h0 e, TRes.error?, h, eq_comm]
  · obtain ⟨w, hw⟩ := h1 v e
    simp [hw, TRes.error?, Nat.not_lt.2 h]

theorem rejectF {α : Type} {m : Mode} {b : Bytes} {f : TRes α} {t : Text} (h0 : bytesToFloat m b = .err → f = .err t)
    (h1 : ∀ v, bytesToFloat m b = .ok v → ∃ w, f = .ok w) (h2 : bytesToFloat m b = .panic → f = .panic) (t' : Text) :
    f.error? = some t' ↔ t' = t ∧ b.length ≠ 2 := by
  rw [← float_cases m b]
  cases h : bytesToFloat m b with
  | ok v => obtain ⟨w, hw⟩ := h1 v h; simp [hw, TRes.error?]
  | err => simp [h0 h, TRes.error?, eq_comm]
  | panic => simp [h2 h, TRes.error?]

/-- Which bytes are rejected, and with which message: a message per function. -/
theorem C114_exact (m : Mode) (d : Decoder) (b : Bytes) (t : Text) :
    d.message m b = some t ↔ t = dpMessage d ∧ (if d = .float ∨ d = .temperature then b.length ≠ d.size else b.length < d.size) := by
  cases d
  · exact reject1 (f := PdtScaled.fromBytesT) rfl (fun _ _ => ⟨_, rfl⟩) b t
  · refine reject2 (x := Rd.u16 b) ?_ (fun h => by unfold PdtInt.fromBytesT; rw [h]; rfl) (fun v h => ⟨_, by unfold PdtInt.fromBytesT; rw [h]⟩) t
    rcases u16_cases b with ⟨h, e⟩ | ⟨h, v, r, e⟩
    · exact .inl ⟨h, e⟩
    · exact .inr ⟨h, _, e⟩
  · exact rejectF (m := m) (fun h => by unfold PdtFloat.fromBytesT bytesToFloatT; rw [h]; rfl)
      (fun v h => ⟨_, by unfold PdtFloat.fromBytesT bytesToFloatT; rw [h]⟩) (fun h => by unfold PdtFloat.fromBytesT bytesToFloatT; rw [h]) t
  · exact rejectF (m := m) (fun h => by unfold PdtFloat.tempFromBytesT bytesToFloatT; rw [h]; rfl)
      (fun v h => ⟨_, by unfold PdtFloat.tempFromBytesT bytesToFloatT; rw [h]⟩) (fun h => by unfold PdtFloat.tempFromBytesT bytesToFloatT; rw [h]) t
  · exact reject1 (f := PdtByte.fromBytesT) rfl (fun _ _ => ⟨_, rfl⟩) b t
  · refine reject2 (x := Rd.u16 b) ?_ (fun h => by unfold PdtWord.fromBytesT; rw [h]; rfl) (fun v h => ⟨_, by unfold PdtWord.fromBytesT; rw [h]⟩) t
    rcases u16_cases b with ⟨h, e⟩ | ⟨h, v, r, e⟩
    · exact .inl ⟨h, e⟩
    · exact .inr ⟨h, _, e⟩
  · refine reject2 (x := Rd.u32 b) ?_ (fun h => by unfold PdtULong.fromBytesT; rw [h]; rfl) (fun v h => ⟨_, by unfold PdtULong.fromBytesT; rw [h]⟩) t
    rcases u32_cases b with ⟨h, e⟩ | ⟨h, v, r, e⟩
    · exact .inl ⟨h, e⟩
    · exact .inr ⟨h, _, e⟩
  · exact reject1 (f := PdtBit.fromBytesT) rfl (fun _ _ => ⟨_, rfl⟩) b t
  · exact reject1 (f := PdtB1U3.fromBytesT) rfl (fun _ _ => ⟨_, rfl⟩) b t

/-- The phrase each message begins with, and no other. -/
def dpClaim : Decoder → Claim
  | .scaled | .byte | .bit | .b1u3 => .fewer 1
  | .int => .noFirst
  | .float | .temperature => .wrong
  | .word => .fewer 2
  | .ulong => .fewer 4

theorem dpMessage_says (d : Decoder) (c : Claim) : Says (dpMessage d) c ↔ c = dpClaim d := by
  have key : ∀ d : Decoder, phrases.filter (fun p => p.1.toList.isPrefixOf (dpMessage d)) ≠ [] ∧
      (phrases.filter (fun p => p.1.toList.isPrefixOf (dpMessage d))).all (fun p => p.2 = dpClaim d) = true := by
    intro d; cases d <;> decide +kernel
  obtain ⟨h1, h2⟩ := key d
  rw [List.all_eq_true] at h2
  constructor
  · rintro ⟨p, hp, rfl, hx⟩
    have := h2 p (List.mem_filter.2 ⟨hp, List.isPrefixOf_iff_prefix.2 hx⟩)
    simpa using this
  · rintro rfl
    obtain ⟨p, hp⟩ := List.exists_mem_of_ne_nil _ h1
    have := h2 p hp
    rw [List.mem_filter] at hp
    exact ⟨p, hp.1, by simpa using this, List.isPrefixOf_iff_prefix.1 hp.2⟩

/-- C114, partial: whatever is rejected, by every function but that of 16-bit integers, the message says of the number of bytes is said once and is
true: it tells the number that is needed, or (floats) that the number is wrong. -/
theorem C114_partial (m : Mode) (d : Decoder) (hd : d ≠ .int) (b : Bytes) (t : Text) (h : d.message m b = some t) :
    ∃ c, Says t c ∧ (∀ c', Says t c' → c' = c) ∧ c.true d.size b := by
  obtain ⟨rfl, h⟩ := (C114_exact m d b t).1 h
  refine ⟨dpClaim d, (dpMessage_says d _).2 rfl, fun c' hc => (dpMessage_says d c').1 hc, ?_⟩
  cases d <;> simp_all [dpClaim, Claim.true, Decoder.size]

/-- C114: for 16-bit integers, the message says that the first byte is missing; that is so exactly if there are no bytes at all. -/
theorem C114_int (m : Mode) (b : Bytes) (t : Text) (h : Decoder.int.message m b = some t) :
    (∀ c, Says t c ↔ c = .noFirst) ∧ (Claim.noFirst.true 2 b ↔ b.length = 0) ∧ b.length ≤ 1 := by
  obtain ⟨rfl, h1⟩ := (C114_exact m .int b t).1 h
  refine ⟨fun c => dpMessage_says .int c, by simp [Claim.true], ?_⟩
  have h1 : b.length < 2 := h1
  omega

/-- C114 is violated: of every single byte it is said that the first byte is missing. -/
theorem C114_violated (m : Mode) (a : U8) :
    ∃ t, Decoder.int.message m [a] = some t ∧ (∀ c, Says t c → ¬ c.true Decoder.int.size [a]) := by
  refine ⟨dpMessage .int, (C114_exact m .int [a] _).2 ⟨rfl, by simp [Decoder.size]⟩, ?_⟩
  intro c hc
  rw [(dpMessage_says .int c).1 hc]
  simp [dpClaim, Claim.true]

/-- C114: the messages of three functions show a placeholder instead of the cause: exactly those of integers of 16 and 32 bits. -/
theorem C114_placeholder (m : Mode) (d : Decoder) (b : Bytes) (t : Text) (h : d.message m b = some t) :
    "{e}".toList <:+: t ↔ d = .int ∨ d = .word ∨ d = .ulong := by
  obtain ⟨rfl, -⟩ := (C114_exact m d b t).1 h
  have key : ∀ d : Decoder, decide ("{e}".toList <:+: dpMessage d) = decide (d = .int ∨ d = .word ∨ d = .ulong) := by
    intro d; cases d <;> decide +kernel
  rw [← decide_eq_true_iff (p := "{e}".toList <:+: dpMessage d), key d, decide_eq_true_iff]

/-- Non-vacuity: a single byte as a word, three as a float, none as a bit. -/
example (m : Mode) : (∃ t, Decoder.word.message m [7] = some t) ∧ (∃ t, Decoder.float.message m [1, 2, 3] = some t) ∧ ∃ t, Decoder.bit.message m [] = some t :=
  ⟨⟨_, (C114_exact m .word [7] _).2 ⟨rfl, by decide⟩⟩, ⟨_, (C114_exact m .float [1, 2, 3] _).2 ⟨rfl, by decide⟩⟩,
    ⟨_, (C114_exact m .bit [] _).2 ⟨rfl, by decide⟩⟩⟩

end Knx
