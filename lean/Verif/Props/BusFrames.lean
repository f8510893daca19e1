import Verif.Spec.BusFrames
import Verif.Props.Monitor

/-!
# C108: what the monitor shows and what was on the bus
-/

namespace Knx
open Spec

theorem word16_inj {a b : U16} (h : word a.toNat = word b.toNat) : a = b := by
  simp only [word, List.cons.injEq, and_true] at h
  have h1 := congrArg BitVec.toNat h.1
  have h2 := congrArg BitVec.toNat h.2
  simp [byte] at h1 h2
  apply BitVec.eq_of_toNat_eq
  omega

theorem word_pair (a : U16) : ∃ x y, word a.toNat = [x, y] := ⟨_, _, rfl⟩

theorem shown_step {m : Mode} {s s' : MSys} {tr : List Obs} {e : MEv} {i : Nat} {c : Cemi} {r : Ret} (h : MExec m s tr)
    (hs : mstep m s e = some (s', [.taken i c, .nret i r])) : isIndication c = true ∧ Shown c r := by
  rcases (C61_caller h hs (i := i) (r := r) (by simp)).2 with ⟨c', h1, h2, h3⟩ | ⟨h1, -⟩
  · simp at h1; subst h1; exact ⟨h2, h3⟩
  · simp at h1

/-- What is shown of service data of nine octets or more. -/
theorem shown_long {c : Cemi} {r : Ret} {c1 c2 l a b : U8} {src dest : U16} {rest : Bytes} (h : Shown c r)
    (he : c.serviceInfo = [c1, c2] ++ word src.toNat ++ word dest.toNat ++ [l, a, b] ++ rest) :
    Tells src dest (if 2 ≤ l.toNat then padded (l.toNat - 1) rest else [byte (b.toNat % 64)]) r := by
  rcases h with ⟨h, -⟩ | ⟨i, c1', c2', s1, s2, d1, d2, l', a', b', rest', rfl, h1, h2, h3, h4, h5⟩
  · rw [he] at h; simp [word] at h; omega
  · rw [he] at h1
    refine ⟨i, rfl, word16_inj ?_, word16_inj ?_, ?_⟩
    · rw [h3]; simp [word] at h1 ⊢; exact ⟨h1.2.2.1.symm, h1.2.2.2.1.symm⟩
    · rw [h4]; simp [word] at h1 ⊢; exact ⟨h1.2.2.2.2.1.symm, h1.2.2.2.2.2.1.symm⟩
    · simp [word] at h1
      obtain ⟨-, -, -, -, -, -, rfl, -, rfl, rfl⟩ := h1
      exact h5

theorem byte_len {n : Nat} (h : n < 256) : (byte n).toNat = n := by simp [byte]; omega

theorem data_shown {tpdu rest : Bytes} (h2 : 2 ≤ tpdu.length) (hl : tpdu.length ≤ 255) : ∃ a b t, tpdu = a :: b :: t ∧
    (if 2 ≤ (byte (tpdu.length - 1)).toNat then padded ((byte (tpdu.length - 1)).toNat - 1) (t ++ rest) else [byte (b.toNat % 64)]) =
      tpduData tpdu := by
  match tpdu, h2 with
  | a :: b :: t, _ =>
    refine ⟨a, b, t, rfl, ?_⟩
    simp only [List.length_cons, Nat.add_sub_cancel] at hl ⊢
    rw [byte_len (by omega)]
    cases t with
    | nil => rfl
    | cons x t =>
      simp only [List.length_cons]
      rw [if_pos (by omega)]
      exact padded_append_self (x :: t) rest

/-- C108: an L_Data.ind with an APCI is shown with the source, the destination and the data it has, and whole in `cemi`. -/
theorem C108_indication_partial {m : Mode} {s s' : MSys} {tr : List Obs} {e : MEv} {i : Nat} {c : Cemi} {r : Ret} {c1 c2 : U8}
    {src dest : U16} {tpdu : Bytes} (h : MExec m s tr) (hs : mstep m s e = some (s', [.taken i c, .nret i r]))
    (hc : c.serviceInfo = indBytes c1 c2 src dest tpdu) (h2 : 2 ≤ tpdu.length) (hl : tpdu.length ≤ 255) :
    Tells src dest (tpduData tpdu) r := by
  have hsh := (shown_step h hs).2
  obtain ⟨a, b, t, ht, hd⟩ := data_shown (rest := []) h2 hl
  rw [← hd, List.append_nil]
  refine shown_long (c1 := c1) (c2 := c2) (a := a) hsh ?_
  rw [hc, indBytes]
  conv => lhs; rhs; rw [ht]
  simp

/-- C108: the same for an extended frame in an L_Busmon.ind. -/
theorem C108_extended_partial {m : Mode} {s s' : MSys} {tr : List Obs} {e : MEv} {i : Nat} {c : Cemi} {r : Ret} {c1 c2 check : U8}
    {src dest : U16} {tpdu : Bytes} (h : MExec m s tr) (hs : mstep m s e = some (s', [.taken i c, .nret i r]))
    (hc : c.serviceInfo = extendedFrame c1 c2 src dest tpdu check) (h2 : 2 ≤ tpdu.length) (hl : tpdu.length ≤ 255) :
    Tells src dest (tpduData tpdu) r := by
  have hsh := (shown_step h hs).2
  obtain ⟨a, b, t, ht, hd⟩ := data_shown (rest := [check]) h2 hl
  rw [← hd]
  refine shown_long (c1 := c1) (c2 := c2) (a := a) hsh ?_
  rw [hc, extendedFrame]
  conv => lhs; lhs; rhs; rw [ht]
  simp

/-- C108, what is shown of a standard frame in an L_Busmon.ind, exactly: everything is looked for one octet too late. As source the
second octet of the source and the first of the destination are shown, as destination the second octet of the destination and the
octet with hop count and length; the first octet of the TPDU is taken for the length. For the services of group communication
(`t0 = 0`) the data shown are six bits of the octet after the APCI, the check octet if the data are in the APCI. -/
theorem C108_standard_exact {m : Mode} {s s' : MSys} {tr : List Obs} {e : MEv} {i : Nat} {c : Cemi} {r : Ret} {ctrl check t0 t1 x : U8}
    {src dest : U16} {npci : Nat} {t rest : Bytes} (h : MExec m s tr) (hs : mstep m s e = some (s', [.taken i c, .nret i r]))
    (hc : c.serviceInfo = standardFrame ctrl src dest npci (t0 :: t1 :: t) check) (hx : t ++ [check] = x :: rest) :
    ∃ src' dest' : U16, src'.toNat = src.toNat % 256 * 256 + dest.toNat / 256 ∧
      dest'.toNat = dest.toNat % 256 * 256 + (npci * 16 + (t.length + 1)) % 256 ∧
      Tells src' dest' (if 2 ≤ t0.toNat then padded (t0.toNat - 1) rest else [byte (x.toNat % 64)]) r := by
  have hsh := (shown_step h hs).2
  have e16 : ∀ n, n < 65536 → (BitVec.ofNat 16 n).toNat = n := fun n hn => by simp; omega
  refine ⟨BitVec.ofNat 16 (src.toNat % 256 * 256 + dest.toNat / 256),
    BitVec.ofNat 16 (dest.toNat % 256 * 256 + (npci * 16 + (t.length + 1)) % 256), e16 _ (by omega), e16 _ (by omega), ?_⟩
  refine shown_long (c1 := ctrl) (c2 := byte (src.toNat / 256)) (a := t1) hsh ?_
  rw [hc, standardFrame, e16 _ (by omega), e16 _ (by omega)]
  have h1 : ∀ a b : Nat, b < 256 → a < 256 → word (a * 256 + b) = [byte a, byte b] := by
    intro a b hb ha
    simp only [word, List.cons.injEq, and_true]
    constructor <;> (apply BitVec.eq_of_toNat_eq; simp [byte]; try omega)
  rw [h1 _ _ (by omega) (by omega), h1 _ _ (by omega) (by omega)]
  have h2 : byte ((npci * 16 + (t.length + 1)) % 256) = byte (npci * 16 + (t.length + 1)) := by
    apply BitVec.eq_of_toNat_eq; simp [byte]
  rw [h2]
  simp only [List.append_assoc, List.cons_append, List.nil_append, hx, word, List.length_cons, Nat.add_sub_cancel]

/-- C108: hence the addresses shown are those of the telegram only by coincidence: exactly if all four octets of the addresses and the
one after them are equal. -/
theorem C108_standard_addresses {m : Mode} {s s' : MSys} {tr : List Obs} {e : MEv} {i : Nat} {c : Cemi} {r : Ret} {ctrl check t0 t1 : U8}
    {src dest : U16} {npci : Nat} {t : Bytes} (h : MExec m s tr) (hs : mstep m s e = some (s', [.taken i c, .nret i r]))
    (hc : c.serviceInfo = standardFrame ctrl src dest npci (t0 :: t1 :: t) check) :
    (∃ v, Tells src dest v r) ↔ src.toNat / 256 = src.toNat % 256 ∧ src.toNat % 256 = dest.toNat / 256 ∧
      dest.toNat / 256 = dest.toNat % 256 ∧ dest.toNat % 256 = (npci * 16 + (t.length + 1)) % 256 := by
  obtain ⟨x, rest, hx⟩ : ∃ x rest, t ++ [check] = x :: rest := by cases t <;> exact ⟨_, _, rfl⟩
  obtain ⟨src', dest', h1, h2, j, rfl, h3, h4, h5⟩ := C108_standard_exact h hs hc hx
  constructor
  · rintro ⟨v, j', hj, h6, h7, -⟩
    cases hj
    rw [h3] at h6; rw [h4] at h7
    subst h6 h7
    omega
  · intro hh
    refine ⟨_, j, rfl, ?_, ?_, rfl⟩
    · rw [h3]; apply BitVec.eq_of_toNat_eq; omega
    · rw [h4]; apply BitVec.eq_of_toNat_eq; omega

/-- C108 is violated for telegrams without APCI (connecting, disconnecting and acknowledging of point-to-point connections): an
L_Data.ind with one of them is shown as an error. -/
theorem C108_violated_control {m : Mode} {s s' : MSys} {tr : List Obs} {e : MEv} {i : Nat} {c : Cemi} {r : Ret} {c1 c2 t0 : U8}
    {src dest : U16} (h : MExec m s tr) (hs : mstep m s e = some (s', [.taken i c, .nret i r]))
    (hc : c.serviceInfo = indBytes c1 c2 src dest [t0]) : r = .err := by
  rcases (shown_step h hs).2 with ⟨-, h⟩ | ⟨i, c1', c2', s1, s2, d1, d2, l', a', b', rest', rfl, h1, -⟩
  · exact h
  · rw [hc] at h1
    have := congrArg List.length h1
    simp [indBytes, word] at this

/-- 1.1.2 writes 1 to the group 1/0/1, as it is on the wire. -/
def wire7 : Bytes := standardFrame 0xbc 0x1102 0x0801 0xe [0, 0x81] 0x15

def busmon7 : Cemi := ⟨0x2b, [], wire7⟩

/-- The datagram with it. -/
def busreq7 : Bytes := frame TUNNELING_REQUEST ([4, 7, 0, 0, 0x2b, 0] ++ wire7)

/-- C108 is violated: 1.1.2 has written 1 to the group 1/0/1, and shown are the source 0.2.8, the destination 0/1/225 and the value 21. -/
theorem C108_violated_standard (m : Mode) : ∃ s s' tr r, MExec m s tr ∧ mstep m s (.api (.nrun 3)) = some (s', [.taken 3 busmon7, .nret 3 r]) ∧
    busmon7.msgCode = L_BUSMON_IND ∧ busmon7.serviceInfo = standardFrame 0xbc 0x1102 0x0801 0xe [0, 0x81] 0x15 ∧
    Tells 0x0208 0x01e1 [0x15] r ∧ ∀ v, ¬ Tells 0x1102 0x0801 v r := by
  obtain ⟨s, tr, h1, h2⟩ := mexec_of_evs (m := m) (evs := [.bg .run, .bg .sendOk, .bg (.dgram grant7), .bg .sendOk, .bg .run, .bg .run,
      .api (.ncall 3), .bg (.dgram busreq7), .bg .sendOk, .bg .run])
    (f := fun x => (mstep m x.1 (.api (.nrun 3))).map Prod.snd)
    (y := some [.taken 3 busmon7, .nret 3 (.ind ⟨busmon7, LData.ofControl 0x0208 0x01e1 0xbc, [0x15]⟩)])
    (by cases m <;> decide +kernel)
  simp only [Option.map_eq_some_iff, Prod.exists] at h2
  obtain ⟨s', o, h2, rfl⟩ := h2
  refine ⟨s, s', tr, _, h1, h2, rfl, rfl, ⟨_, rfl, rfl, rfl, rfl⟩, ?_⟩
  rintro v ⟨j, hj, h3, -⟩
  cases hj
  exact absurd h3 (by decide)

/-- The case of the others: an L_Data.ind with the same telegram, and with a disconnect. -/
example (m : Mode) : ∃ s s' tr r, MExec m s tr ∧ mstep m s (.api (.nrun 3)) = some (s', [.taken 3 tel7, .nret 3 r]) ∧
    tel7.serviceInfo = indBytes 0xbc 0xe0 0x1102 0x0801 [0, 0x81] := by
  obtain ⟨s, tr, h1, h2⟩ := mexec_of_evs (m := m) (evs := [.bg .run, .bg .sendOk, .bg (.dgram grant7), .bg .sendOk, .bg .run, .bg .run,
      .api (.ncall 3), .bg (.dgram req7), .bg .sendOk, .bg .run])
    (f := fun x => (mstep m x.1 (.api (.nrun 3))).map Prod.snd)
    (y := some [.taken 3 tel7, .nret 3 (.ind ⟨tel7, LData.ofControl 0x1102 0x0801 0xbc, [1]⟩)])
    (by cases m <;> decide +kernel)
  simp only [Option.map_eq_some_iff, Prod.exists] at h2
  obtain ⟨s', o, h2, rfl⟩ := h2
  exact ⟨s, s', tr, _, h1, h2, rfl⟩

def control7 : Cemi := ⟨0x29, [], indBytes 0xbc 0x60 0x1102 0x1103 [0x81]⟩

def controlReq7 : Bytes := frame TUNNELING_REQUEST ([4, 7, 0, 0, 0x29, 0] ++ control7.serviceInfo)

example (m : Mode) : ∃ s s' tr, MExec m s tr ∧ mstep m s (.api (.nrun 3)) = some (s', [.taken 3 control7, .nret 3 .err]) := by
  obtain ⟨s, tr, h1, h2⟩ := mexec_of_evs (m := m) (evs := [.bg .run, .bg .sendOk, .bg (.dgram grant7), .bg .sendOk, .bg .run, .bg .run,
      .api (.ncall 3), .bg (.dgram controlReq7), .bg .sendOk, .bg .run])
    (f := fun x => (mstep m x.1 (.api (.nrun 3))).map Prod.snd) (y := some [.taken 3 control7, .nret 3 .err])
    (by cases m <;> decide +kernel)
  simp only [Option.map_eq_some_iff, Prod.exists] at h2
  obtain ⟨s', o, h2, rfl⟩ := h2
  exact ⟨s, s', tr, h1, h2⟩

def extended7 : Cemi := ⟨0x2b, [], extendedFrame 0x3c 0xe0 0x1102 0x0801 [0, 0x80, 1, 2, 3] 0x55⟩

def extendedReq7 : Bytes := frame TUNNELING_REQUEST ([4, 7, 0, 0, 0x2b, 0] ++ extended7.serviceInfo)

example (m : Mode) : ∃ s s' tr r, MExec m s tr ∧ mstep m s (.api (.nrun 3)) = some (s', [.taken 3 extended7, .nret 3 r]) ∧
    Tells 0x1102 0x0801 [1, 2, 3] r := by
  obtain ⟨s, tr, h1, h2⟩ := mexec_of_evs (m := m) (evs := [.bg .run, .bg .sendOk, .bg (.dgram grant7), .bg .sendOk, .bg .run, .bg .run,
      .api (.ncall 3), .bg (.dgram extendedReq7), .bg .sendOk, .bg .run])
    (f := fun x => (mstep m x.1 (.api (.nrun 3))).map Prod.snd)
    (y := some [.taken 3 extended7, .nret 3 (.ind ⟨extended7, LData.ofControl 0x1102 0x0801 0x3c, [1, 2, 3]⟩)])
    (by cases m <;> decide +kernel)
  simp only [Option.map_eq_some_iff, Prod.exists] at h2
  obtain ⟨s', o, h2, rfl⟩ := h2
  exact ⟨s, s', tr, _, h1, h2, C108_extended_partial h1 h2 rfl (by decide) (by decide)⟩

end Knx
