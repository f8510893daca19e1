import Verif.Lemmas.Emi

/-!
# Properties C07-C15: APDU, L_Data and cEMI
-/

namespace Knx

open Spec

/-! ## C07 -/

theorem smallByte (d : U8) : (0b10#8 &&& 0b11#8) <<< 6 ||| (d &&& 0x3f#8) = byte (0x80 + d.toNat % 64) := by
  revert d; decide +kernel

/-- The bytes of the three group APDUs. -/
theorem C07_apdu_bytes :
    Apdu.groupValueRead.packet = apduRead ∧
    (∀ d v, ∃ a, Apdu.groupValueWrite (d :: v) true = .ok a ∧ a.packet = apduWriteSmall d) ∧
    (∀ v, ∃ a, Apdu.groupValueWrite v false = .ok a ∧ a.packet = apduWriteBig v) := by
  refine ⟨by decide, fun d v => ⟨_, rfl, ?_⟩, fun v => ⟨_, rfl, ?_⟩⟩
  · simp only [Apdu.packet, Apci.packet, Apci.groupValueWrite, apduWriteSmall, ← smallByte]
    rfl
  · simp [Apdu.packet, Apci.packet, Apci.groupValueWrite, apduWriteBig]

/-- C07: the bytes of a write built from a data point of any type: a large one gives the bytes of its value, a small one its first byte
(zero if its value is empty); it panics iff the type cannot tell whether it is small. -/
theorem C07_typed_bytes (v : Bytes) :
    (∃ a, Apdu.groupValueWritePd (.ok false) v = .ok a ∧ a.packet = apduWriteBig v) ∧
    (∃ a, Apdu.groupValueWritePd (.ok true) v = .ok a ∧ a.packet = apduWriteSmall ((v ++ [0]).getD 0 0)) ∧
    Apdu.groupValueWritePd .panic v = .panic := by
  refine ⟨⟨_, rfl, ?_⟩, ?_, rfl⟩
  · simp [Apdu.packet, Apci.packet, Apci.groupValueWrite, apduWriteBig]
  · refine ⟨_, rfl, ?_⟩
    simp only [Apdu.packet, Apci.packet, Apci.groupValueWrite, apduWriteSmall, ← smallByte]
    cases v <;> rfl

example : ∃ a, Apdu.groupValueWritePd (.ok true) [] = .ok a ∧ a.packet = [0, 0x80] := ⟨_, rfl, by decide⟩

/-- C07: no write APDU (small or large, any value) equals the read APDU, and equal write APDUs
carry equal values (small values below 64; large values without restriction). -/
theorem C07_read_write_distinct (v w : Bytes) (a b : Apdu) (s : Bool) :
    (Apdu.groupValueWrite v s = .ok a → a.packet ≠ Apdu.groupValueRead.packet) ∧
    (Apdu.groupValueWrite v false = .ok a → Apdu.groupValueWrite w false = .ok b →
      a.packet = b.packet → v = w) ∧
    (∀ x y : U8, x.toNat < 64 → y.toNat < 64 → Apdu.groupValueWrite [x] true = .ok a →
      Apdu.groupValueWrite [y] true = .ok b → a.packet = b.packet → x = y) := by
  refine ⟨?_, ?_, ?_⟩
  · intro h
    rw [C07_apdu_bytes.1]
    cases s with
    | false =>
      obtain ⟨a', h1, h2⟩ := C07_apdu_bytes.2.2 v
      rw [h1] at h; cases h; rw [h2]
      simp [apduWriteBig, apduRead]
    | true =>
      cases v with
      | nil => simp [Apdu.groupValueWrite] at h
      | cons d v =>
        obtain ⟨a', h1, h2⟩ := C07_apdu_bytes.2.1 d v
        rw [h1] at h; cases h; rw [h2]
        simp only [apduWriteSmall, apduRead, byte, ne_eq, List.cons.injEq, and_true, true_and]
        intro hh
        have := congrArg BitVec.toNat hh
        simp at this; omega
  · intro h1 h2 h3
    obtain ⟨a', e1, e2⟩ := C07_apdu_bytes.2.2 v
    obtain ⟨b', f1, f2⟩ := C07_apdu_bytes.2.2 w
    rw [e1] at h1; cases h1
    rw [f1] at h2; cases h2
    rw [e2, f2] at h3
    simpa [apduWriteBig] using h3
  · intro x y hx hy h1 h2 h3
    obtain ⟨a', e1, e2⟩ := C07_apdu_bytes.2.1 x []
    obtain ⟨b', f1, f2⟩ := C07_apdu_bytes.2.1 y []
    rw [e1] at h1; cases h1
    rw [f1] at h2; cases h2
    rw [e2, f2] at h3
    simp only [apduWriteSmall, byte, List.cons.injEq, and_true, true_and] at h3
    have := congrArg BitVec.toNat h3
    simp only [BitVec.toNat_ofNat] at this
    apply BitVec.eq_of_toNat_eq
    omega

example : (∃ a, Apdu.groupValueWrite [1, 2] false = .ok a ∧ a.packet = [0, 0x80, 1, 2]) ∧
    (∃ a, Apdu.groupValueWrite [0x7f] true = .ok a ∧ a.packet = [0, 0xbf]) :=
  ⟨⟨_, rfl, by decide⟩, ⟨_, rfl, by decide⟩⟩

/-! ## C08 -/

/-- C08: building a group write panics exactly for an empty value with `small`, never returns an
error, and otherwise returns the write APDU. -/
theorem C08_write_panics_iff (v : Bytes) (small : Bool) :
    (Apdu.groupValueWrite v small = .panic ↔ small = true ∧ v = []) ∧
    Apdu.groupValueWrite v small ≠ .err ∧
    (∀ a, Apdu.groupValueWrite v small = .ok a →
      a.packet = if small then apduWriteSmall (v.headD 0) else apduWriteBig v) := by
  cases small with
  | false =>
    obtain ⟨a, h1, h2⟩ := C07_apdu_bytes.2.2 v
    simp only [h1]
    refine ⟨by simp, by simp, ?_⟩
    intro b hb; cases hb; simpa using h2
  | true =>
    cases v with
    | nil => simp [Apdu.groupValueWrite]
    | cons d v =>
      obtain ⟨a, h1, h2⟩ := C07_apdu_bytes.2.1 d v
      simp only [h1]
      refine ⟨by simp, by simp, ?_⟩
      intro b hb; cases hb; simpa using h2

example : Apdu.groupValueWrite [] true = .panic ∧ Apdu.groupValueWrite [] false ≠ .panic := by decide

/-! ## C09, C10 -/

theorem controlByte (p : U8) :
    (0 : U8) ||| (1#8 <<< 7) ||| (1#8 <<< 5) ||| (1#8 <<< 4) ||| ((p &&& 0x3#8) <<< 2)
      = byte (0xB0 + 4 * (p.toNat % 4)) := by
  revert p; decide +kernel

theorem Apdu.packet_length (a : Apdu) :
    a.packet.length = match a.data with
      | .small _ => 2
      | .big d => d.length + 2 := by
  unfold Apdu.packet
  split <;> simp_all

/-- `LDataReq.packet` in terms of the specification, for every TPDU size. -/
theorem LDataReq.packet_eq (m : Mode) (r : LDataReq) :
    r.packet m = if m = .debug ∧ r.tpdu.packet.length % 256 = 0 then .panic
      else .ok ([0x11, 0x00, byte (0xB0 + 4 * (r.priority.toNat % 4)), 0xE0, 0x00, 0x00]
        ++ word r.dest.toU16.toNat ++ [byte (r.tpdu.packet.length + 255)] ++ r.tpdu.packet) := by
  unfold LDataReq.packet
  simp only [controlByte, be16_eq_word]
  have e : BitVec.ofNat 8 r.tpdu.packet.length - 1 = byte (r.tpdu.packet.length + 255) := by
    apply BitVec.eq_of_toNat_eq; simp [byte]; omega
  split
  · rename_i len h
    rw [if_neg]
    · have : len = byte (r.tpdu.packet.length + 255) := by
        rw [← e]
        unfold subU at h
        split at h
        · cases h; rfl
        · cases m <;> cases h; rfl
      rw [this]; rfl
    · rintro ⟨hm, hz⟩
      have : subU m (BitVec.ofNat 8 r.tpdu.packet.length) 1 = .panic :=
        (subU_panic_iff _ _ _).2 ⟨hm, by simp; omega⟩
      rw [this] at h; cases h
  · rename_i h; exact absurd h (subU_ne_err _ _ _)
  · rename_i h
    have := (subU_panic_iff _ _ _).1 h
    rw [if_pos ⟨this.1, by have := this.2; simp at this; omega⟩]

/-- C09: the telegram of an APDU with at most 253 payload bytes has the L_Data.req layout; only
the two low bits of the priority matter and they only affect bits 2-3 of the control byte
(visible in `lDataReqFrame`). -/
theorem C09_lDataReq_layout (m : Mode) (dest : KnxAddress) (tpdu : Tpdu) (prio : U8)
    (h : ∀ d, tpdu.apdu.data = .big d → d.length ≤ 253) :
    ((LDataReq.new dest tpdu).setPriority prio).packet m
      = .ok (lDataReqFrame prio.toNat dest.toU16.toNat tpdu.apdu.packet) := by
  have hl : 2 ≤ tpdu.apdu.packet.length ∧ tpdu.apdu.packet.length ≤ 255 := by
    rw [Apdu.packet_length]
    split
    · omega
    · rename_i d hd; have := h d hd; omega
  rw [LDataReq.packet_eq,
    if_neg (by rintro ⟨_, hz⟩; change tpdu.apdu.packet.length % 256 = 0 at hz; omega)]
  have e : byte (tpdu.apdu.packet.length + 255) = byte (tpdu.apdu.packet.length - 1) := by
    apply BitVec.eq_of_toNat_eq; simp [byte]; omega
  change Res.ok (_ ++ [byte (tpdu.apdu.packet.length + 255)] ++ tpdu.apdu.packet) = _
  rw [e]; rfl

/-- The default priority is 3 (low). -/
theorem C09_default_priority (m : Mode) (dest : KnxAddress) (tpdu : Tpdu)
    (h : ∀ d, tpdu.apdu.data = .big d → d.length ≤ 253) :
    (LDataReq.new dest tpdu).packet m = .ok (lDataReqFrame 3 dest.toU16.toNat tpdu.apdu.packet) := by
  have := C09_lDataReq_layout m dest tpdu 3 h
  simpa [LDataReq.setPriority, LDataReq.new] using this

example : (LDataReq.new (.group3 ⟨1, 2, 3⟩) (Tpdu.dataGroup Apdu.groupValueRead)).packet .debug
    = .ok [0x11, 0, 0xbc, 0xe0, 0, 0, 0x0a, 0x03, 1, 0, 0] := by decide

/-- C10, full statement: for every payload `d` (large APDU) and both overflow modes the telegram
is built and its length octet (byte 8) is the payload length plus one. -/
def C10_statement : Prop :=
  ∀ (m : Mode) (dest : KnxAddress) (prio : U8) (apci : Apci) (d : Bytes),
    ∃ p, LDataReq.packet m ⟨prio, dest, Tpdu.dataGroup ⟨apci, .big d⟩⟩ = .ok p ∧
      ∃ l, p[8]? = some l ∧ l.toNat = d.length + 1

/-- C10 for payloads of at most 253 bytes (the part that holds in both modes). -/
theorem C10_length_octet_partial (m : Mode) (dest : KnxAddress) (prio : U8) (apci : Apci) (d : Bytes)
    (h : d.length ≤ 253) :
    ∃ p, LDataReq.packet m ⟨prio, dest, Tpdu.dataGroup ⟨apci, .big d⟩⟩ = .ok p ∧
      ∃ l, p[8]? = some l ∧ l.toNat = d.length + 1 := by
  have hlen : (Tpdu.dataGroup ⟨apci, .big d⟩).packet.length = d.length + 2 := by
    simp [Tpdu.packet, Tpdu.dataGroup, Apdu.packet_length]
  refine ⟨_, by rw [LDataReq.packet_eq, if_neg (by rintro ⟨_, hz⟩; simp only [hlen] at hz; omega)],
    byte (d.length + 2 + 255), by simp [word, hlen], ?_⟩
  simp [byte]; omega

/-- C10, exact behaviour for every payload length `n`: a debug build panics iff `n + 2` is a
multiple of 256; otherwise the length octet is `(n + 1) mod 256`. -/
theorem C10_exact (m : Mode) (dest : KnxAddress) (prio : U8) (apci : Apci) (d : Bytes) :
    (LDataReq.packet m ⟨prio, dest, Tpdu.dataGroup ⟨apci, .big d⟩⟩ = .panic ↔
      m = .debug ∧ (d.length + 2) % 256 = 0) ∧
    (∀ p, LDataReq.packet m ⟨prio, dest, Tpdu.dataGroup ⟨apci, .big d⟩⟩ = .ok p →
      ∃ l, p[8]? = some l ∧ l.toNat = (d.length + 1) % 256) ∧
    LDataReq.packet m ⟨prio, dest, Tpdu.dataGroup ⟨apci, .big d⟩⟩ ≠ .err := by
  have hlen : (Tpdu.dataGroup ⟨apci, .big d⟩).packet.length = d.length + 2 := by
    simp [Tpdu.packet, Tpdu.dataGroup, Apdu.packet_length]
  rw [LDataReq.packet_eq]
  simp only [hlen]
  split
  · rename_i h; simp [h.1, h.2]
  · rename_i h
    refine ⟨by simp only [reduceCtorEq, false_iff]; exact h, ?_, by simp⟩
    intro p hp
    cases hp
    refine ⟨byte (d.length + 2 + 255), by simp [word], ?_⟩
    simp [byte]; omega

/-- C10 refuted: 255 payload bytes give a length octet of 0 in both modes. -/
theorem C10_violated : ¬ C10_statement := by
  intro h
  obtain ⟨p, hp, l, hl, hv⟩ := h .release (.group1 ⟨1⟩) 0 Apci.groupValueWrite (List.replicate 255 0)
  obtain ⟨l', hl', hv'⟩ := (C10_exact .release (.group1 ⟨1⟩) 0 Apci.groupValueWrite (List.replicate 255 0)).2.1 p hp
  rw [hl] at hl'; cases hl'
  rw [List.length_replicate] at hv hv'
  omega

/-! ## C11 -/

theorem lDataInd_eval (c : Cemi) (c1 c2 s1 s2 d1 d2 l a b : U8) (rest : Bytes)
    (h : c.serviceInfo = c1 :: c2 :: s1 :: s2 :: d1 :: d2 :: l :: a :: b :: rest) :
    LDataInd.fromCemi c = .ok ⟨c, LData.ofControl (ofBe16 s1 s2) (ofBe16 d1 d2) c1,
      if 2 ≤ l.toNat then padded (l.toNat - 1) rest else [b &&& 0x3f#8]⟩ := by
  have hlow : (ofBe16 a b &&& 0x3f#16).setWidth 8 = b &&& 0x3f#8 := by
    unfold ofBe16; bits8
  unfold LDataInd.fromCemi
  simp only [h, Rd.bind_eval, Rd.u8, Rd.u16]
  by_cases h2 : 2 ≤ l.toNat
  · have e1 : (0 : U8) < l := by rw [BitVec.lt_def]; simp; omega
    have e2 : (l - 1).toNat = l.toNat - 1 := by
      have := l.isLt
      rw [BitVec.toNat_sub]; simp; omega
    have e3 : (0 : U8) < l - 1 := by rw [BitVec.lt_def, e2]; simp; omega
    simp only [GT.gt, e1, if_true, e3, e2, h2]
    simp only [Rd.bind_eval, Rd.fill, fill_eq_padded, Rd.pure_eval]
  · have : l = 0 ∨ l = 1 := by
      have : l.toNat = 0 ∨ l.toNat = 1 := by omega
      rcases this with h | h
      · left; exact BitVec.eq_of_toNat_eq h
      · right; exact BitVec.eq_of_toNat_eq h
    rcases this with rfl | rfl <;> simp [hlow, Rd.bind_eval]

/-- The frame produced for TPDU `t` parses as a cEMI frame with the expected service data. -/
theorem cemi_of_lDataReqFrame (m : Mode) (prio dest : Nat) (t : Bytes) :
    Cemi.fromPacket m (lDataReqFrame prio dest t) = .ok (⟨0x11, [],
      [byte (0xB0 + 4 * (prio % 4)), 0xE0, 0, 0] ++ word dest ++ [byte (t.length - 1)] ++ t⟩, []) := by
  unfold Cemi.fromPacket lDataReqFrame
  simp only [Rd.bind_eval, Rd.u8, List.cons_append, List.nil_append, Rd.of_eval]
  have : cemiInfos m 0 0 = fun r => .ok ([], r) := by
    funext r; unfold cemiInfos; simp
  rw [this]
  simp [Rd.bind_eval, Rd.toEnd]

/-- C11, large writes: the telegram for a write of `v` (1 to 253 bytes) to `dest` decodes to
destination `dest` and value `v`, source 0. -/
theorem C11_write_decodes_big (m m' : Mode) (dest : KnxAddress) (v : Bytes) (hv : 1 ≤ v.length)
    (hv' : v.length ≤ 253) :
    ∃ apdu frame cemi ind, Apdu.groupValueWrite v false = .ok apdu ∧
      (LDataReq.new dest (Tpdu.dataGroup apdu)).packet m = .ok frame ∧
      Cemi.fromPacket m' frame = .ok (cemi, []) ∧ LDataInd.fromCemi cemi = .ok ind ∧
      ind.lData.dest = dest.toU16 ∧ ind.lData.src = 0 ∧ ind.value = v ∧ cemi.msgCode = 0x11 ∧ cemi.infos = [] := by
  obtain ⟨apdu, ha, hp⟩ := C07_apdu_bytes.2.2 v
  have hd : apdu.data = .big v := by simp [Apdu.groupValueWrite] at ha; rw [← ha]
  have hf := C09_default_priority m dest (Tpdu.dataGroup apdu) (by
    intro d h; simp only [Tpdu.dataGroup] at h; rw [hd] at h; cases h; exact hv')
  simp only [Tpdu.dataGroup] at hf
  rw [hp] at hf
  refine ⟨apdu, _, _, _, ha, hf, cemi_of_lDataReqFrame m' _ _ _,
    lDataInd_eval _ _ _ _ _ _ _ _ _ _ v rfl, ?_, ?_, ?_, rfl, rfl⟩
  · have := ofBe16_be16 dest.toU16
    have e := be16_eq_word dest.toU16
    simp only [be16, word, List.cons.injEq, and_true] at e
    rw [e.1, e.2] at this
    simpa [LData.ofControl] using this
  · simp [LData.ofControl, ofBe16]
  · have : (byte ((apduWriteBig v).length - 1)).toNat = v.length + 1 := by
      rw [byte_toNat] <;> simp [apduWriteBig]; omega
    rw [if_pos (by rw [this]; omega), this, Nat.add_sub_cancel]
    have := padded_append_self v []
    simpa using this

example : 1 ≤ ([1, 2, 3] : Bytes).length ∧ ([1, 2, 3] : Bytes).length ≤ 253 := by decide

/-- C11, small writes: the decoded value is the low six bits of the first byte. -/
theorem C11_write_decodes_small (m m' : Mode) (dest : KnxAddress) (d : U8) (v : Bytes) :
    ∃ apdu frame cemi ind, Apdu.groupValueWrite (d :: v) true = .ok apdu ∧
      (LDataReq.new dest (Tpdu.dataGroup apdu)).packet m = .ok frame ∧
      Cemi.fromPacket m' frame = .ok (cemi, []) ∧ LDataInd.fromCemi cemi = .ok ind ∧
      ind.lData.dest = dest.toU16 ∧ ind.lData.src = 0 ∧ ind.value = [byte (d.toNat % 64)] ∧
      cemi.msgCode = 0x11 ∧ cemi.infos = [] := by
  obtain ⟨apdu, ha, hp⟩ := C07_apdu_bytes.2.1 d v
  have hd : ∃ x, apdu.data = .small x := by simp [Apdu.groupValueWrite] at ha; exact ⟨d, by rw [← ha]⟩
  obtain ⟨x, hd⟩ := hd
  have hf := C09_default_priority m dest (Tpdu.dataGroup apdu) (by
    intro y h; simp only [Tpdu.dataGroup] at h; rw [hd] at h; cases h)
  simp only [Tpdu.dataGroup] at hf
  rw [hp] at hf
  refine ⟨apdu, _, _, _, ha, hf, cemi_of_lDataReqFrame m' _ _ _,
    lDataInd_eval _ _ _ _ _ _ _ _ _ _ [] rfl, ?_, ?_, ?_, rfl, rfl⟩
  · have := ofBe16_be16 dest.toU16
    have e := be16_eq_word dest.toU16
    simp only [be16, word, List.cons.injEq, and_true] at e
    rw [e.1, e.2] at this
    simpa [LData.ofControl] using this
  · simp [LData.ofControl, ofBe16]
  · have : (byte ((apduWriteSmall d).length - 1)).toNat = 1 := by
      rw [byte_toNat] <;> simp [apduWriteSmall]
    rw [if_neg (by rw [this]; omega)]
    have : ∀ d : U8, [byte (0x80 + d.toNat % 64) &&& 0x3f#8] = [byte (d.toNat % 64)] := by decide +kernel
    exact this d

/-! ## C12 -/

/-- C12: a well-formed cEMI frame (total size of the blocks fits the size byte) is parsed to
exactly its message code, blocks and service data; nothing is left unread. -/
theorem C12_cemi_exact (m : Mode) (c : Cemi) (h : infosSize c.infos < 256) :
    Cemi.fromPacket m (cemiFrame c) = .ok (c, []) := by
  unfold Cemi.fromPacket cemiFrame
  simp only [Rd.bind_eval, Rd.u8, List.cons_append, List.nil_append, Rd.of_eval]
  rw [cemiInfos_enc m c.infos _ 0 _ (by rw [byte_toNat h]; simp)]
  rfl

example : infosSize [⟨.busmonitorStatus, [1]⟩, ⟨.timestampRelative, [2, 3]⟩] = 7 ∧
    Cemi.fromPacket .debug [0x2b, 7, 3, 1, 1, 4, 2, 2, 3, 0xaa]
      = .ok (⟨0x2b, [⟨.busmonitorStatus, [1]⟩, ⟨.timestampRelative, [2, 3]⟩], [0xaa]⟩, []) :=
  ⟨rfl, C12_cemi_exact .debug ⟨0x2b, [⟨.busmonitorStatus, [1]⟩, ⟨.timestampRelative, [2, 3]⟩], [0xaa]⟩
    (by decide)⟩

/-! ## C13 -/

/-- C13: parsing a cEMI frame terminates on every byte string (it is a total function of the
model; the loop is accepted by well-founded recursion on the unread bytes). It never panics in a
release build. In a debug build it panics exactly when, before the declared total is reached, a
block of known type starts whose end would be beyond byte 255 of the additional information. -/
theorem C13_cemi_panic_iff :
    (∀ r, Cemi.fromPacket .release r ≠ .panic) ∧
    (∀ r, Cemi.fromPacket .debug r = .panic ↔
      ∃ code total is ty s rest, r = [code, total] ++ infosBytes is ++ [byte (infoCode ty), s] ++ rest ∧
        infosSize is < total.toNat ∧ 255 < infosSize is + 2 + s.toNat) := by
  constructor
  · intro r h
    simp only [Cemi.fromPacket, Rd.bind_panic_iff, Rd.u8_panic_iff, Rd.toEnd_panic_iff, Rd.pure_panic_iff,
      Rd.of_eval, cemiInfos_panic_release] at h
    simp at h
  · intro r
    simp only [Cemi.fromPacket, Rd.bind_panic_iff, Rd.u8_panic_iff, Rd.toEnd_panic_iff, Rd.pure_panic_iff,
      Rd.u8_ok_iff, Rd.of_eval, cemiInfos_debug_panic_iff]
    simp only [false_or, and_false, exists_false, or_false, BitVec.toNat_zero, Nat.zero_add,
      show (0 : U8).toNat = 0 from rfl]
    constructor
    · rintro ⟨code, r1, rfl, total, r2, rfl, is, ty, s, rest, rfl, h1, h2⟩
      exact ⟨code, total, is, ty, s, rest, by simp, h1, h2⟩
    · rintro ⟨code, total, is, ty, s, rest, rfl, h1, h2⟩
      exact ⟨code, _, rfl, total, _, rfl, is, ty, s, rest, by simp, h1, h2⟩

/-- A debug-build panic: one block with size byte 254. -/
example : Cemi.fromPacket .debug [0x29, 1, 3, 254] = .panic :=
  (C13_cemi_panic_iff.2 _).2 ⟨0x29, 1, [], .busmonitorStatus, 254, [], by decide, by decide, by decide⟩

/-! ## C14, C15 -/

theorem bit_eq_getLsbD (b : U8) (i : Nat) : bit b i = b.getLsbD i := by
  unfold bit BitVec.getLsbD Nat.testBit
  rw [Nat.shiftRight_eq_div_pow, Nat.one_and_eq_mod_two]
  rcases Nat.mod_two_eq_zero_or_one (b.toNat / 2 ^ i) with h | h <;> simp [h]

theorem flags (c1 : U8) :
    (decide ((c1 &&& 0x80#8) > 0) = bit c1 7) ∧ (decide ((c1 &&& (1#8 <<< 5)) > 0) = bit c1 5) ∧
    (decide ((c1 &&& (1#8 <<< 4)) > 0) = bit c1 4) ∧ (decide ((c1 &&& (1#8 <<< 1)) > 0) = bit c1 1) ∧
    (decide ((c1 &&& 1#8) = 0) = !bit c1 0) := by
  revert c1; decide +kernel

/-- The L_Data fields carried by control byte `c1`, source and destination bytes. -/
def LDataFields (l : LData) (c1 : U8) (src dest : Bytes) : Prop :=
  l.src.toNat = value src ∧ l.dest.toNat = value dest ∧ l.frameType = bit c1 7 ∧
    l.repetition = bit c1 5 ∧ l.systemBroadcast = bit c1 4 ∧ l.ackRequest = bit c1 1

theorem lDataFields_ofControl (c1 s1 s2 d1 d2 : U8) :
    LDataFields (LData.ofControl (ofBe16 s1 s2) (ofBe16 d1 d2) c1) c1 [s1, s2] [d1, d2] := by
  have := flags c1
  refine ⟨?_, ?_, this.1, this.2.1, this.2.2.1, this.2.2.2.1⟩
  · simp [LData.ofControl, value, ofBe16_toNat]; omega
  · simp [LData.ofControl, value, ofBe16_toNat]; omega

/-- C14: decoding an indication never panics, succeeds iff there are at least nine bytes of
service data, and then: the fields are those at their offsets; with length octet `L >= 2` the
value has exactly `L - 1` bytes, the frame's payload bytes followed by zeros only if the frame is
too short; with `L <= 1` it is the low six bits of the second APDU byte. -/
theorem C14_lDataInd_total (c : Cemi) :
    LDataInd.fromCemi c ≠ .panic ∧
    ((∃ i, LDataInd.fromCemi c = .ok i) ↔ 9 ≤ c.serviceInfo.length) ∧
    (∀ c1 c2 s1 s2 d1 d2 l a b rest i,
      c.serviceInfo = [c1, c2, s1, s2, d1, d2, l, a, b] ++ rest → LDataInd.fromCemi c = .ok i →
      i.cemi = c ∧ LDataFields i.lData c1 [s1, s2] [d1, d2] ∧
      i.value.length = max 1 (l.toNat - 1) ∧
      (2 ≤ l.toNat → i.value = padded (l.toNat - 1) rest) ∧
      (2 ≤ l.toNat → l.toNat - 1 ≤ rest.length → i.value = rest.take (l.toNat - 1)) ∧
      (l.toNat ≤ 1 → i.value = [byte (b.toNat % 64)])) := by
  have key : ∀ c1 c2 s1 s2 d1 d2 l a b rest,
      c.serviceInfo = [c1, c2, s1, s2, d1, d2, l, a, b] ++ rest → _ :=
    fun c1 c2 s1 s2 d1 d2 l a b rest h => lDataInd_eval c c1 c2 s1 s2 d1 d2 l a b rest (by simpa using h)
  have short : ¬ 9 ≤ c.serviceInfo.length → LDataInd.fromCemi c = .err := by
    intro h
    unfold LDataInd.fromCemi
    match hs : c.serviceInfo with
    | [] => rfl
    | [_] => rfl
    | [_, _] => rfl
    | [_, _, _] => rfl
    | [_, _, _, _] => rfl
    | [_, _, _, _, _] => rfl
    | [_, _, _, _, _, _] => rfl
    | [_, _, _, _, _, _, _] => rfl
    | [_, _, _, _, _, _, _, _] => rfl
    | _ :: _ :: _ :: _ :: _ :: _ :: _ :: _ :: _ :: _ => rw [hs] at h; simp at h
  have long : 9 ≤ c.serviceInfo.length → ∃ i, LDataInd.fromCemi c = .ok i := by
    intro h
    match hs : c.serviceInfo with
    | [] | [_] | [_, _] | [_, _, _] | [_, _, _, _] | [_, _, _, _, _] | [_, _, _, _, _, _]
    | [_, _, _, _, _, _, _] | [_, _, _, _, _, _, _, _] => rw [hs] at h; simp at h
    | c1 :: c2 :: s1 :: s2 :: d1 :: d2 :: l :: a :: b :: rest =>
      exact ⟨_, key c1 c2 s1 s2 d1 d2 l a b rest (by simpa using hs)⟩
  refine ⟨?_, ⟨?_, long⟩, ?_⟩
  · intro h
    by_cases h9 : 9 ≤ c.serviceInfo.length
    · obtain ⟨i, hi⟩ := long h9; rw [hi] at h; cases h
    · rw [short h9] at h; cases h
  · rintro ⟨i, hi⟩
    by_cases h9 : 9 ≤ c.serviceInfo.length
    · exact h9
    · rw [short h9] at hi; cases hi
  · intro c1 c2 s1 s2 d1 d2 l a b rest i hs hi
    rw [key _ _ _ _ _ _ _ _ _ _ hs] at hi
    cases hi
    refine ⟨rfl, lDataFields_ofControl _ _ _ _ _, ?_, ?_, ?_, ?_⟩
    · simp only; split
      · rw [padded_length]; omega
      · simp; omega
    · intro h2; simp [h2]
    · intro h2 h3; simp [h2, padded_of_le h3]
    · intro h1
      simp only [show ¬ 2 ≤ l.toNat by omega, if_false]
      have : ∀ b : U8, [b &&& 0x3f#8] = [byte (b.toNat % 64)] := by decide +kernel
      exact this b

example : LDataInd.fromCemi ⟨0x29, [], [0xbc, 0xe0, 0x11, 0x01, 0x0a, 0x03, 3, 0, 0x80, 0x0c, 0x1a]⟩
    = .ok ⟨⟨0x29, [], [0xbc, 0xe0, 0x11, 0x01, 0x0a, 0x03, 3, 0, 0x80, 0x0c, 0x1a]⟩,
        ⟨0x1101, 0x0a03, true, true, true, false⟩, [0x0c, 0x1a]⟩ := by decide

/-- C15: decoding a confirmation never panics, succeeds iff there are at least six bytes of
service data, and reports the fields at their offsets; `confirm` is true iff bit 0 of the first
control byte is 0 (no error). -/
theorem C15_lDataCon (c : Cemi) :
    LDataCon.fromCemi c ≠ .panic ∧
    ((∃ i, LDataCon.fromCemi c = .ok i) ↔ 6 ≤ c.serviceInfo.length) ∧
    (∀ c1 c2 s1 s2 d1 d2 rest i,
      c.serviceInfo = [c1, c2, s1, s2, d1, d2] ++ rest → LDataCon.fromCemi c = .ok i →
      i.cemi = c ∧ LDataFields i.lData c1 [s1, s2] [d1, d2] ∧ i.confirm = !bit c1 0) := by
  have key : ∀ c1 c2 s1 s2 d1 d2 rest, c.serviceInfo = [c1, c2, s1, s2, d1, d2] ++ rest →
      LDataCon.fromCemi c = .ok ⟨c, LData.ofControl (ofBe16 s1 s2) (ofBe16 d1 d2) c1,
        decide ((c1 &&& 1#8) = 0)⟩ := by
    intro c1 c2 s1 s2 d1 d2 rest h
    unfold LDataCon.fromCemi
    rw [h]; rfl
  have short : ¬ 6 ≤ c.serviceInfo.length → LDataCon.fromCemi c = .err := by
    intro h
    unfold LDataCon.fromCemi
    match hs : c.serviceInfo with
    | [] => rfl
    | [_] => rfl
    | [_, _] => rfl
    | [_, _, _] => rfl
    | [_, _, _, _] => rfl
    | [_, _, _, _, _] => rfl
    | _ :: _ :: _ :: _ :: _ :: _ :: _ => rw [hs] at h; simp at h
  have long : 6 ≤ c.serviceInfo.length → ∃ i, LDataCon.fromCemi c = .ok i := by
    intro h
    match hs : c.serviceInfo with
    | [] | [_] | [_, _] | [_, _, _] | [_, _, _, _] | [_, _, _, _, _] => rw [hs] at h; simp at h
    | c1 :: c2 :: s1 :: s2 :: d1 :: d2 :: rest =>
      exact ⟨_, key c1 c2 s1 s2 d1 d2 rest (by simpa using hs)⟩
  refine ⟨?_, ⟨?_, long⟩, ?_⟩
  · intro h
    by_cases h9 : 6 ≤ c.serviceInfo.length
    · obtain ⟨i, hi⟩ := long h9; rw [hi] at h; cases h
    · rw [short h9] at h; cases h
  · rintro ⟨i, hi⟩
    by_cases h9 : 6 ≤ c.serviceInfo.length
    · exact h9
    · rw [short h9] at hi; cases hi
  · intro c1 c2 s1 s2 d1 d2 rest i hs hi
    rw [key _ _ _ _ _ _ _ hs] at hi
    cases hi
    exact ⟨rfl, lDataFields_ofControl _ _ _ _ _, (flags c1).2.2.2.2⟩

example : (LDataCon.fromCemi ⟨0x2e, [], [0xbd, 0xe0, 0x11, 0x01, 0x0a, 0x03]⟩)
    = .ok ⟨⟨0x2e, [], [0xbd, 0xe0, 0x11, 0x01, 0x0a, 0x03]⟩,
        ⟨0x1101, 0x0a03, true, true, true, false⟩, false⟩ := by decide

end Knx
