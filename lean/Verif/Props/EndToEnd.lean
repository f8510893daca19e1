import Verif.Spec.Bus
import Verif.Props.Calls

/-!
# Properties of two clients on one bus, and of what answers a read (C82–C83)
-/

namespace Knx
open Spec

/-! ## Delivery of an indication -/

theorem cemi_plain (m : Mode) (code : U8) (t : Bytes) : runRd (Cemi.fromPacket m) id (code :: 0 :: t) = .ok ⟨code, [], t⟩ := by
  unfold runRd Cemi.fromPacket
  simp only [Rd.bind_eval, Rd.u8, Rd.of_eval]
  have : cemiInfos m 0 0 = fun r => .ok ([], r) := by
    funext r; unfold cemiInfos; simp
  rw [this]
  simp [Rd.bind_eval, Rd.toEnd]

/-- What remains of an indication in the receive buffer: of its data the first 79 bytes, the others become zero. -/
theorem cut_ind (x1 x2 x3 x4 x5 x6 x7 x8 x9 x10 x11 : U8) (rest : Bytes) :
    cut (x1 :: x2 :: x3 :: x4 :: x5 :: x6 :: x7 :: x8 :: x9 :: x10 :: x11 :: rest)
      = x1 :: x2 :: x3 :: x4 :: x5 :: x6 :: x7 :: x8 :: x9 :: x10 :: x11 :: padded rest.length (rest.take 79) := by
  have e : padded rest.length (rest.take 79) = rest.take 79 ++ List.replicate (rest.length - 79) 0 := by
    rw [padded_eq, List.take_of_length_le (by rw [List.length_take]; exact Nat.min_le_right _ _), List.length_take,
      show rest.length - min 79 rest.length = rest.length - 79 by omega]
  rw [cut, e, show (90 : Nat) = 79 + 1 + 1 + 1 + 1 + 1 + 1 + 1 + 1 + 1 + 1 + 1 from rfl]
  simp only [List.take_succ_cons, List.cons_append, List.length_cons, Nat.add_sub_add_right]

/-- The datagram with which an interface delivers an indication. -/
def indication (ch seq : U8) (c1 c2 s1 s2 d1 d2 l a b : U8) (rest : Bytes) : Bytes :=
  frame TUNNELING_REQUEST ([4, ch, seq, 0] ++ ([0x29, 0, c1, c2, s1, s2, d1, d2, l, a, b] ++ rest))

/-- The telegram that it is turned into. -/
def indCemi (c1 c2 s1 s2 d1 d2 l a b : U8) (rest : Bytes) : Cemi :=
  ⟨0x29, [], [c1, c2, s1, s2, d1, d2, l, a, b] ++ padded rest.length (rest.take 79)⟩

theorem indCemi_for (dest : U16) (c1 c2 s1 s2 d1 d2 l a b : U8) (rest : Bytes) (hd : [d1, d2] = word dest.toNat) :
    IndicationFor dest (indCemi c1 c2 s1 s2 d1 d2 l a b rest)
      (if 2 ≤ l.toNat then padded (l.toNat - 1) (padded rest.length (rest.take 79)) else [byte (b.toNat % 64)]) :=
  ⟨rfl, c1, c2, s1, s2, d1, d2, l, a, b, _, rfl, hd, rfl⟩

theorem bg_indication (k : Kind) (m : Mode) (s : Bg) (ch seq : U8) (c1 c2 s1 s2 d1 d2 l a b : U8) (rest : Bytes)
    (hl : rest.length ≤ 65000) (hpc : s.pc = .recv) (hr : s.rxOpen = true) (hq : s.queue.length < 100) :
    bgRun k m s [.dgram (indication ch seq c1 c2 s1 s2 d1 d2 l a b rest), .sendOk, .run]
      = some ({ s with queue := s.queue ++ [indCemi c1 c2 s1 s2 d1 d2 l a b rest] },
        [.rx (indication ch seq c1 c2 s1 s2 d1 d2 l a b rest), .tx .task (frame TUNNELING_ACK [4, ch, seq, 0]),
          .queued (indCemi c1 c2 s1 s2 d1 d2 l a b rest)]) := by
  refine (C41_datagram_exact k m s ch seq 0 _ (indCemi c1 c2 s1 s2 d1 d2 l a b rest) (by simp; omega) hpc hr hq ?_).1
  simp only [List.cons_append, List.nil_append]
  rw [cut_ind, cemi_plain]
  rfl

/-- A call waiting for the answer to a read of `dest` returns the value of the indication for `dest` that arrives next. -/
theorem delivered (m : Mode) (s : Sys) (dest : U16) (dl : Nat) (ch seq : U8) (c1 c2 s1 s2 d1 d2 l a b : U8) (rest : Bytes)
    (ha : s.api = .reading dest dl) (hpc : s.bg.pc = .recv) (hr : s.bg.rxOpen = true) (hq : s.bg.queue = [])
    (hl : rest.length ≤ 65000) (hd : [d1, d2] = word dest.toNat) :
    ∃ s', PromptRun m s [.rx (indication ch seq c1 c2 s1 s2 d1 d2 l a b rest), .tx .task (frame TUNNELING_ACK [4, ch, seq, 0]),
        .queued (indCemi c1 c2 s1 s2 d1 d2 l a b rest), .taken 0 (indCemi c1 c2 s1 s2 d1 d2 l a b rest),
        .ret (.value (if 2 ≤ l.toNat then padded (l.toNat - 1) (padded rest.length (rest.take 79)) else [byte (b.toNat % 64)]))]
      s' ∧ s'.api = .idle ∧ s'.bg.now = s.bg.now := by
  have h1 := bgRun_prompt (s := s) (bg_indication .client m s.bg ch seq c1 c2 s1 s2 d1 d2 l a b rest hl hpc hr (by simp [hq]))
  obtain ⟨hc, i, hi, hdd, hv⟩ := indication_iff.1 (indCemi_for dest c1 c2 s1 s2 d1 d2 l a b rest hd)
  rw [← hv]
  have hne : ¬ codeLDataInd = codeLDataCon := by decide
  have h2 := h1.trans (PromptRun.step (.api .run) trivial
    (s' := { bg := { s.bg with queue := [] }, api := .idle })
    (o := [.taken 0 (indCemi c1 c2 s1 s2 d1 d2 l a b rest), .ret (.value i.value)])
    (by simp [step, apiStep, ha, chanRecv, hq, readMsg, hne, hc,  hi, hdd, finish]) (.nil _))
  exact ⟨_, h2, rfl, rfl⟩

theorem MPromptRun.trans {m : Mode} {s s' s'' : MSys} {t1 t2 : List Obs} (h1 : MPromptRun m s t1 s') (h2 : MPromptRun m s' t2 s'') :
    MPromptRun m s (t1 ++ t2) s'' := by
  induction h1 with
  | nil _ => exact h2
  | step e hp hs _ ih => rw [List.append_assoc]; exact .step e hp hs (ih h2)

theorem bgRun_mprompt {m : Mode} {s : MSys} {b : Bg} {evs : List BgEv} {tr : List Obs}
    (h : bgRun .monitor m s.bg evs = some (b, tr)) : MPromptRun m s tr { s with bg := b } := by
  induction evs generalizing s tr with
  | nil => simp only [bgRun, Option.some.injEq, Prod.mk.injEq] at h; obtain ⟨rfl, rfl⟩ := h; exact .nil _
  | cons e es ih =>
    simp only [bgRun] at h
    split at h
    · cases h
    · rename_i s1 o hs
      simp only [Option.map_eq_some_iff, Prod.exists, Prod.mk.injEq] at h
      obtain ⟨b', tr', hb, rfl, rfl⟩ := h
      exact .step (s' := { s with bg := s1 }) (.bg e) trivial (by simp [mstep, hs]) (ih (s := { s with bg := s1 }) hb)

theorem mdelivered (m : Mode) (s : MSys) (dest src : U16) (i : Nat) (ch seq : U8) (c1 c2 s1 s2 d1 d2 l a b : U8) (rest : Bytes)
    (hi : i ∈ s.waiting) (hpc : s.bg.pc = .recv) (hr : s.bg.rxOpen = true) (hq : s.bg.queue = [])
    (hl : rest.length ≤ 65000) (hd : [d1, d2] = word dest.toNat) (hs : [s1, s2] = word src.toNat) :
    ∃ s' x, MPromptRun m s [.rx (indication ch seq c1 c2 s1 s2 d1 d2 l a b rest), .tx .task (frame TUNNELING_ACK [4, ch, seq, 0]),
        .queued (indCemi c1 c2 s1 s2 d1 d2 l a b rest), .taken i (indCemi c1 c2 s1 s2 d1 d2 l a b rest), .nret i (.ind x)] s' ∧ s'.bg.now = s.bg.now ∧
      x.lData.dest = dest ∧ x.lData.src = src ∧
      x.value = if 2 ≤ l.toNat then padded (l.toNat - 1) (padded rest.length (rest.take 79)) else [byte (b.toNat % 64)] := by
  have h1 := bgRun_mprompt (s := s) (bg_indication .monitor m s.bg ch seq c1 c2 s1 s2 d1 d2 l a b rest hl hpc hr (by simp [hq]))
  obtain ⟨hc, x, hx, hdd, hv⟩ := indication_iff.1 (indCemi_for dest c1 c2 s1 s2 d1 d2 l a b rest hd)
  have hne : ¬ codeLDataInd = codeLDataCon := by decide
  have h2 := h1.trans (MPromptRun.step (.api (.nrun i)) trivial
    (s' := { s with bg := { s.bg with queue := [] }, waiting := s.waiting.filter (· ≠ i) })
    (o := [.taken i (indCemi c1 c2 s1 s2 d1 d2 l a b rest), .nret i (.ind x)])
    (by simp [mstep, mapiStep, hi, hq, nextMsg, hne, hc, hx, nfinish]) (.nil _))
  refine ⟨_, x, h2, rfl, hdd, ?_, hv⟩
  have := lDataInd_eval (indCemi c1 c2 s1 s2 d1 d2 l a b rest) c1 c2 s1 s2 d1 d2 l a b _ rfl
  rw [hx] at this
  cases this
  have e := be16_eq_word src
  rw [← hs] at e
  have e2 := ofBe16_be16 src
  simp only [be16, List.cons.injEq, and_true] at e
  rw [e.1, e.2] at e2
  simpa [LData.ofControl] using e2

/-! ## C83 -/

/-- The datagram by which a write reaches the other clients. -/
theorem forwards_write {addr : KnxAddress} {v cemi p d : Bytes} {small : Bool} {ch0 n0 ch seq : U8} {src : U16}
    (ht : TelegramOf (.write addr v small) cemi) (hp : RequestPacket ch0 n0 cemi p) (hf : Forwards src ch seq p d)
    (hv : small = false → 1 ≤ v.length ∧ v.length ≤ 253) :
    ∃ s1 s2 d1 d2 l a b rest, d = indication ch seq 0xbc 0xe0 s1 s2 d1 d2 l a b rest ∧ [s1, s2] = word src.toNat ∧
      [d1, d2] = word addr.toU16.toNat ∧ rest.length ≤ 253 ∧
      (if 2 ≤ l.toNat then padded (l.toNat - 1) (padded rest.length (rest.take 79)) else [byte (b.toNat % 64)])
        = padded (onBus v small).length ((onBus v small).take 79) := by
  obtain ⟨len, rfl⟩ := hp
  obtain ⟨ch1, n1, len', c1, c2, s1, s2, tail, h1, rfl⟩ := hf
  have h2 := (List.append_inj h1 (by simp [header, word])).2
  have bits : ∀ x : U8, byte ((byte (0x80 + x.toNat % 64)).toNat % 64) = byte (x.toNat % 64) := by decide +kernel
  cases small with
  | true =>
    obtain ⟨_, rfl⟩ := ht
    simp only [lDataReqFrame, apduWriteSmall, word, List.cons_append, List.nil_append, List.cons.injEq] at h2
    obtain ⟨-, -, rfl, rfl, -, -, rfl⟩ := h2
    refine ⟨_, _, _, _, byte ([0x00, byte (0x80 + (v.headD 0).toNat % 64)].length - 1), 0, byte (0x80 + (v.headD 0).toNat % 64), [],
      ?_, rfl, rfl, by simp, ?_⟩
    · simp only [indication, word, List.cons_append, List.nil_append]
      rfl
    · have : (byte ([0x00, byte (0x80 + (v.headD 0).toNat % 64)].length - 1)).toNat = 1 := by rw [byte_toNat] <;> simp
      rw [if_neg (by rw [this]; omega), bits]
      rfl
  | false =>
    obtain ⟨h3, h4⟩ := hv rfl
    simp only [TelegramOf] at ht
    subst ht
    simp only [lDataReqFrame, apduWriteBig, word, List.cons_append, List.nil_append, List.cons.injEq] at h2
    obtain ⟨-, -, rfl, rfl, -, -, rfl⟩ := h2
    refine ⟨_, _, _, _, byte ((0x00 :: 0x80 :: v).length - 1), 0, 0x80, v, ?_, rfl, rfl, h4, ?_⟩
    · simp only [indication, word, List.cons_append, List.nil_append]
      rfl
    · have : (byte ((0x00 :: 0x80 :: v).length - 1)).toNat = v.length + 1 := by rw [byte_toNat] <;> simp; omega
      rw [if_pos (by rw [this]; omega), this, Nat.add_sub_cancel]
      simp only [onBus, Bool.false_eq_true, if_false]
      rw [padded_eq v.length (padded _ _), List.take_of_length_le (by simp [padded_length]), padded_length, Nat.sub_self]
      simp

/-- C83: a client sends a write; the interface forwards it; another client is waiting for an answer from that address. Then the
other client can return, without any time passing, the value that was written; of a value of more than 79 bytes, however, only
the first 79 bytes, and zeros for the others. -/
theorem C83_exact {m m' : Mode} {s s1 r : Sys} {tr o tr' : List Obs} {e : Ev} {p d v : Bytes} {addr : KnxAddress} {small : Bool}
    {src : U16} {ch seq : U8} {dl : Nat} (h : Exec m s tr) (hs : step m s e = some (s1, o)) (hp : Obs.tx .api p ∈ o)
    (hc : lastCall tr = some (.write addr v small)) (hv : small = false → 1 ≤ v.length ∧ v.length ≤ 253)
    (hf : Forwards src ch seq p d) (_h' : Exec m' r tr') (ha : r.api = .reading addr.toU16 dl) (hpc : r.bg.pc = .recv)
    (hr : r.bg.rxOpen = true) (hq : r.bg.queue = []) :
    ∃ r' c, PromptRun m' r [.rx d, .tx .task (frame TUNNELING_ACK [4, ch, seq, 0]), .queued c, .taken 0 c,
      .ret (.value (padded (onBus v small).length ((onBus v small).take 79)))] r' := by
  obtain ⟨c, h1, _, h2⟩ := C70_client h hs hp
  rw [hc] at h1
  cases h1
  rcases h2 with ⟨ch0, n, cemi, _, h3, h4⟩ | ⟨h3, _⟩ | ⟨h3, _⟩
  · obtain ⟨x1, x2, d1, d2, l, a, b, rest, rfl, h5, h6, h7, h8⟩ := forwards_write h3 h4 hf hv
    obtain ⟨r', h9, _⟩ := delivered m' r addr.toU16 dl ch seq 0xbc 0xe0 x1 x2 d1 d2 l a b rest ha hpc hr hq (by omega) h6
    rw [h8] at h9
    exact ⟨_, _, h9⟩
  · cases h3
  · cases h3

/-- C83, the part that holds: of a value of at most 79 bytes nothing is lost. -/
theorem C83_partial {m m' : Mode} {s s1 r : Sys} {tr o tr' : List Obs} {e : Ev} {p d v : Bytes} {addr : KnxAddress} {small : Bool}
    {src : U16} {ch seq : U8} {dl : Nat} (h : Exec m s tr) (hs : step m s e = some (s1, o)) (hp : Obs.tx .api p ∈ o)
    (hc : lastCall tr = some (.write addr v small)) (hv : small = false → 1 ≤ v.length ∧ v.length ≤ 79)
    (hf : Forwards src ch seq p d) (h' : Exec m' r tr') (ha : r.api = .reading addr.toU16 dl) (hpc : r.bg.pc = .recv)
    (hr : r.bg.rxOpen = true) (hq : r.bg.queue = []) :
    ∃ r' c, PromptRun m' r [.rx d, .tx .task (frame TUNNELING_ACK [4, ch, seq, 0]), .queued c, .taken 0 c,
      .ret (.value (onBus v small))] r' := by
  have hx := C83_exact h hs hp hc (fun hh => ⟨(hv hh).1, by have := (hv hh).2; omega⟩) hf h' ha hpc hr hq
  have hl : (onBus v small).length ≤ 79 := by
    cases small with
    | true => simp [onBus]
    | false => simpa [onBus] using (hv rfl).2
  have : padded (onBus v small).length ((onBus v small).take 79) = onBus v small := by
    rw [List.take_of_length_le hl, padded_eq, Nat.sub_self, List.take_of_length_le (Nat.le_refl _)]
    simp
  rwa [this] at hx

/-- C83: the monitor shows the value written, who sent it and to which address. -/
theorem C83_monitor_exact {m m' : Mode} {s s1 : Sys} {r : MSys} {tr o tr' : List Obs} {e : Ev} {p d v : Bytes} {addr : KnxAddress} {small : Bool}
    {src : U16} {ch seq : U8} {i : Nat} (h : Exec m s tr) (hs : step m s e = some (s1, o)) (hp : Obs.tx .api p ∈ o)
    (hc : lastCall tr = some (.write addr v small)) (hv : small = false → 1 ≤ v.length ∧ v.length ≤ 253)
    (hf : Forwards src ch seq p d) (_h' : MExec m' r tr') (ha : i ∈ r.waiting) (hpc : r.bg.pc = .recv)
    (hr : r.bg.rxOpen = true) (hq : r.bg.queue = []) :
    ∃ r' c x, MPromptRun m' r [.rx d, .tx .task (frame TUNNELING_ACK [4, ch, seq, 0]), .queued c, .taken i c, .nret i (.ind x)] r' ∧
      x.lData.src = src ∧ x.lData.dest = addr.toU16 ∧
      x.value = padded (onBus v small).length ((onBus v small).take 79) := by
  obtain ⟨c, h1, _, h2⟩ := C70_client h hs hp
  rw [hc] at h1
  cases h1
  rcases h2 with ⟨ch0, n, cemi, _, h3, h4⟩ | ⟨h3, _⟩ | ⟨h3, _⟩
  · obtain ⟨x1, x2, d1, d2, l, a, b, rest, rfl, h5, h6, h7, h8⟩ := forwards_write h3 h4 hf hv
    obtain ⟨r', x, h9, -, g1, g2, g3⟩ := mdelivered m' r addr.toU16 src i ch seq 0xbc 0xe0 x1 x2 d1 d2 l a b rest ha hpc hr hq
      (by omega) h6 h5
    rw [h8] at g3
    exact ⟨_, _, x, h9, g2, g1, g3⟩
  · cases h3
  · cases h3

/-- C83 is refuted for long values: if one of the bytes after the 79th is not zero, what the other client returns is not what
was written (it has the same length). -/
theorem C83_violated {m m' : Mode} {s s1 r : Sys} {tr o tr' : List Obs} {e : Ev} {p d v : Bytes} {addr : KnxAddress}
    {src : U16} {ch seq : U8} {dl : Nat} {x : U8} (h : Exec m s tr) (hs : step m s e = some (s1, o)) (hp : Obs.tx .api p ∈ o)
    (hc : lastCall tr = some (.write addr v false)) (hv : v.length ≤ 253) (hx : x ∈ v.drop 79) (hn : x ≠ 0)
    (hf : Forwards src ch seq p d) (h' : Exec m' r tr') (ha : r.api = .reading addr.toU16 dl) (hpc : r.bg.pc = .recv)
    (hr : r.bg.rxOpen = true) (hq : r.bg.queue = []) :
    ∃ r' c w, PromptRun m' r [.rx d, .tx .task (frame TUNNELING_ACK [4, ch, seq, 0]), .queued c, .taken 0 c, .ret (.value w)] r' ∧
      w.length = v.length ∧ w ≠ v := by
  have hl : 1 ≤ v.length := by
    cases v with
    | nil => simp at hx
    | cons a v => simp
  obtain ⟨r', c, h1⟩ := C83_exact h hs hp hc (fun _ => ⟨hl, hv⟩) hf h' ha hpc hr hq
  refine ⟨r', c, _, h1, by simp [onBus, padded_length], fun he => ?_⟩
  simp only [onBus, Bool.false_eq_true, if_false] at he
  rw [padded_eq, List.take_take, Nat.min_def] at he
  have h2 : 79 ≤ v.length := by
    by_contra hh
    rw [List.drop_eq_nil_of_le (by omega)] at hx
    cases hx
  have h3 : v.take 79 ++ v.drop 79 = v := List.take_append_drop _ _
  have h4 : (if v.length ≤ 79 then v.length else 79) = 79 := by split <;> omega
  rw [h4] at he
  conv at he => rhs; rw [← h3]
  have h5 := List.append_cancel_left he
  rw [← h5] at hx
  exact hn (List.eq_of_mem_replicate hx)

/-- The client that writes eighty times the byte 1 to 1/0/1. -/
theorem writer80 (m : Mode) : ∃ s s1 tr o p, Exec m s tr ∧ step m s (.api .sendOk) = some (s1, o) ∧ Obs.tx .api p ∈ o ∧
    lastCall tr = some (.write (.group3 ⟨1, 0, 1⟩) (List.replicate 80 1) false) ∧ p =
      header TUNNELING_REQUEST 101 ++ [4, 7, 0, 0] ++ ([0x11, 0, 0xbc, 0xe0, 0, 0] ++ ([8, 1, 81, 0, 0x80] ++ List.replicate 80 1)) := by
  obtain ⟨s, tr, h1, h2⟩ := exec_of_evs (m := m) (evs := [.bg .run, .bg .sendOk, .bg (.dgram grant7), .bg .run,
      .api (.call (.write (.group3 ⟨1, 0, 1⟩) (List.replicate 80 1) false)), .api .run, .api .run])
    (f := fun x => (lastCall x.2, (step m x.1 (.api .sendOk)).map fun y => apiSent y.2))
    (y := (some (.write (.group3 ⟨1, 0, 1⟩) (List.replicate 80 1) false),
      some [header TUNNELING_REQUEST 101 ++ [4, 7, 0, 0] ++ ([0x11, 0, 0xbc, 0xe0, 0, 0] ++ ([8, 1, 81, 0, 0x80] ++ List.replicate 80 1))]))
    (by cases m <;> decide +kernel)
  simp only [Prod.mk.injEq, Option.map_eq_some_iff] at h2
  obtain ⟨h2, ⟨s1, o⟩, h3, h4⟩ := h2
  refine ⟨s, s1, tr, o, _, h1, h3, ?_, h2, rfl⟩
  have : (header TUNNELING_REQUEST 101 ++ [4, 7, 0, 0] ++ ([0x11, 0, 0xbc, 0xe0, 0, 0] ++ ([8, 1, 81, 0, 0x80] ++ List.replicate 80 1))) ∈ apiSent o := by
    rw [h4]; exact List.mem_singleton.2 rfl
  obtain ⟨x, hx, hy⟩ := List.mem_filterMap.1 this
  split at hy <;> simp_all

/-- The client that waits for an answer from 1/0/1. -/
theorem reader7 (m : Mode) : ∃ r tr dl, Exec m r tr ∧ r.api = .reading (KnxAddress.group3 ⟨1, 0, 1⟩).toU16 dl ∧ r.bg.pc = .recv ∧
    r.bg.rxOpen = true ∧ r.bg.queue = [] := by
  obtain ⟨s, tr, h1, h2⟩ := exec_of_evs (m := m) (evs := [.bg .run, .bg .sendOk, .bg (.dgram grant7), .bg .run,
      .api (.call (.read (.group3 ⟨1, 0, 1⟩))), .api .run, .api .run, .api .sendOk])
    (f := fun x => (x.1.api, x.1.bg.pc, x.1.bg.rxOpen, x.1.bg.queue))
    (y := (.reading (KnxAddress.group3 ⟨1, 0, 1⟩).toU16 apiTimeout, .recv, true, []))
    (by cases m <;> decide +kernel)
  simp only [Prod.mk.injEq] at h2
  exact ⟨s, tr, _, h1, h2.1, h2.2.1, h2.2.2.1, h2.2.2.2⟩

/-- The case of C83: eighty times 1 is written, seventy-nine times 1 and a 0 is read. -/
example (m m' : Mode) : ∃ s s1 r tr o tr' e p d dl, Exec m s tr ∧ step m s e = some (s1, o) ∧ Obs.tx .api p ∈ o ∧
    lastCall tr = some (.write (.group3 ⟨1, 0, 1⟩) (List.replicate 80 1) false) ∧ (1 : U8) ∈ (List.replicate 80 (1 : U8)).drop 79 ∧
    Forwards 0x1102 9 0 p d ∧ Exec m' r tr' ∧ r.api = .reading (KnxAddress.group3 ⟨1, 0, 1⟩).toU16 dl ∧ r.bg.pc = .recv ∧
    r.bg.rxOpen = true ∧ r.bg.queue = [] := by
  obtain ⟨s, s1, tr, o, p, h1, h2, h3, h4, h5⟩ := writer80 m
  obtain ⟨r, tr', dl, g⟩ := reader7 m'
  exact ⟨s, s1, r, tr, o, tr', _, p, _, dl, h1, h2, h3, h4, by decide +kernel, ⟨7, 0, 101, 0xbc, 0xe0, 0, 0, _, h5, rfl⟩, g⟩

/-- The case of the monitor: a caller is waiting for the next message. -/
example (m : Mode) : ∃ r tr, MExec m r tr ∧ 3 ∈ r.waiting ∧ r.bg.pc = .recv ∧ r.bg.rxOpen = true ∧ r.bg.queue = [] := by
  obtain ⟨s, tr, h1, h2⟩ := mexec_of_evs (m := m) (evs := [.bg .run, .bg .sendOk, .bg (.dgram grant7), .bg .sendOk, .bg .run, .bg .run,
      .api (.ncall 3)])
    (f := fun x => (x.1.waiting, x.1.bg.pc, x.1.bg.rxOpen, x.1.bg.queue)) (y := ([3], .recv, true, []))
    (by cases m <;> decide +kernel)
  simp only [Prod.mk.injEq] at h2
  exact ⟨s, tr, h1, by simp [h2.1], h2.2⟩

/-- C83: the same when the write is sent by a monitor. -/
theorem C83_from_monitor {m m' : Mode} {s s1 : MSys} {r : Sys} {tr o tr' : List Obs} {e : MEv} {p d v : Bytes} {addr : KnxAddress} {small : Bool}
    {src : U16} {ch seq : U8} {dl : Nat} (h : MExec m s tr) (hs : mstep m s e = some (s1, o)) (hp : Obs.tx .api p ∈ o)
    (hc : lastCall tr = some (.write addr v small)) (hv : small = false → 1 ≤ v.length ∧ v.length ≤ 253)
    (hf : Forwards src ch seq p d) (_h' : Exec m' r tr') (ha : r.api = .reading addr.toU16 dl) (hpc : r.bg.pc = .recv)
    (hr : r.bg.rxOpen = true) (hq : r.bg.queue = []) :
    ∃ r' c, PromptRun m' r [.rx d, .tx .task (frame TUNNELING_ACK [4, ch, seq, 0]), .queued c, .taken 0 c,
      .ret (.value (padded (onBus v small).length ((onBus v small).take 79)))] r' := by
  obtain ⟨c, h1, _, h2⟩ := C70_monitor h hs hp
  rw [hc] at h1
  cases h1
  rcases h2 with ⟨ch0, n, cemi, _, h3, h4⟩ | ⟨h3, _⟩
  · obtain ⟨x1, x2, d1, d2, l, a, b, rest, rfl, h5, h6, h7, h8⟩ := forwards_write h3 h4 hf hv
    obtain ⟨r', h9, _⟩ := delivered m' r addr.toU16 dl ch seq 0xbc 0xe0 x1 x2 d1 d2 l a b rest ha hpc hr hq (by omega) h6
    rw [h8] at h9
    exact ⟨_, _, h9⟩
  · cases h3

/-- C83: the same between two monitors. -/
theorem C83_monitors {m m' : Mode} {s s1 r : MSys} {tr o tr' : List Obs} {e : MEv} {p d v : Bytes} {addr : KnxAddress} {small : Bool}
    {src : U16} {ch seq : U8} {i : Nat} (h : MExec m s tr) (hs : mstep m s e = some (s1, o)) (hp : Obs.tx .api p ∈ o)
    (hc : lastCall tr = some (.write addr v small)) (hv : small = false → 1 ≤ v.length ∧ v.length ≤ 253)
    (hf : Forwards src ch seq p d) (_h' : MExec m' r tr') (ha : i ∈ r.waiting) (hpc : r.bg.pc = .recv)
    (hr : r.bg.rxOpen = true) (hq : r.bg.queue = []) :
    ∃ r' c x, MPromptRun m' r [.rx d, .tx .task (frame TUNNELING_ACK [4, ch, seq, 0]), .queued c, .taken i c, .nret i (.ind x)] r' ∧
      x.lData.src = src ∧ x.lData.dest = addr.toU16 ∧
      x.value = padded (onBus v small).length ((onBus v small).take 79) := by
  obtain ⟨c, h1, _, h2⟩ := C70_monitor h hs hp
  rw [hc] at h1
  cases h1
  rcases h2 with ⟨ch0, n, cemi, _, h3, h4⟩ | ⟨h3, _⟩
  · obtain ⟨x1, x2, d1, d2, l, a, b, rest, rfl, h5, h6, h7, h8⟩ := forwards_write h3 h4 hf hv
    obtain ⟨r', x, h9, -, g1, g2, g3⟩ := mdelivered m' r addr.toU16 src i ch seq 0xbc 0xe0 x1 x2 d1 d2 l a b rest ha hpc hr hq
      (by omega) h6 h5
    rw [h8] at g3
    exact ⟨_, _, x, h9, g2, g1, g3⟩
  · cases h3

/-- The case of a monitor that writes 1 to 1/0/1. -/
example (m : Mode) : ∃ s s1 tr o p d, MExec m s tr ∧ mstep m s (.api .sendOk) = some (s1, o) ∧ Obs.tx .api p ∈ o ∧
    lastCall tr = some (.write (.group3 ⟨1, 0, 1⟩) [1] true) ∧ Forwards 0x1102 9 0 p d := by
  obtain ⟨s, tr, h1, h2⟩ := mexec_of_evs (m := m) (evs := [.bg .run, .bg .sendOk, .bg (.dgram grant7), .bg .sendOk, .bg .run, .bg .run,
      .api (.call (.write (.group3 ⟨1, 0, 1⟩) [1] true)), .api .run, .api .run])
    (f := fun x => (lastCall x.2, (mstep m x.1 (.api .sendOk)).map fun y => y.2))
    (y := (some (.write (.group3 ⟨1, 0, 1⟩) [1] true),
      some [.tx .api (header TUNNELING_REQUEST 21 ++ [4, 7, 1, 0] ++ ([0x11, 0, 0xbc, 0xe0, 0, 0] ++ [8, 1, 1, 0, 0x81])), .ret .unit]))
    (by cases m <;> decide +kernel)
  simp only [Prod.mk.injEq, Option.map_eq_some_iff] at h2
  obtain ⟨h2, ⟨s1, o⟩, h3, h4⟩ := h2
  simp only at h4
  subst h4
  exact ⟨s, s1, tr, _, _, _, h1, h3, List.mem_cons_self, h2, ⟨7, 1, 21, 0xbc, 0xe0, 0, 0, _, rfl, rfl⟩⟩

/-! ## C82 -/

theorem forall₂_mem {α β : Type} {R : α → β → Prop} {a : List α} {b : List β} {y : β} (h : List.Forall₂ R a b) (hy : y ∈ b) :
    ∃ x ∈ a, R x y := by
  induction h with
  | nil => cases hy
  | cons hr _ ih =>
    rcases List.mem_cons.1 hy with rfl | hy
    · exact ⟨_, List.mem_cons_self .., hr⟩
    · obtain ⟨x, hx, hr'⟩ := ih hy
      exact ⟨x, List.mem_cons_of_mem _ hx, hr'⟩

/-- C82, the part that holds: a value returned by a read comes from a received and acknowledged tunneling request that carries an
L_Data.ind whose destination field is the address that was read. -/
theorem C82_partial {m : Mode} {s s' : Sys} {tr o : List Obs} {e : Ev} {v : Bytes} (h : Exec m s tr)
    (hs : step m s e = some (s', o)) (hv : Obs.ret (.value v) ∈ o) :
    ∃ addr d c, lastCall (tr ++ o) = some (.read addr) ∧ d ∈ received (tr ++ o) ∧ d ∈ acked (tr ++ o) ∧ Carries m d c ∧
      IndicationFor addr.toU16 c v := by
  obtain ⟨addr, p, ch, n, cs, c, h1, _, _, h4, h5, _⟩ := C53_value h hs hv
  obtain ⟨g1, _, ds, g2, g3, g4⟩ := C43_fifo (.client (h.step e hs))
  have hc : c ∈ taken (tr ++ o) := by
    have : c ∈ taken (since isCall (tr ++ o)) := by rw [h4]; simp
    exact ((since_suffix _ _).sublist.filterMap _).subset this
  obtain ⟨d, hd, hcar⟩ := forall₂_mem g4 (g1.subset hc)
  exact ⟨addr, d, c, h1, g3.subset (g2.subset hd), g2.subset hd, hcar, h5⟩

/-- C82 is refuted: a read does not look at the address type, at the transport or at the application control field. Whatever the
two control bytes `c1`, `c2` (bit 7 of `c2` is clear for a telegram to an individual address) and the two bytes `a`, `b` with
TPCI and APCI (which tell a group value response from, say, a memory access or a connection request) of the indication that
arrives next: if its destination field has the value of the group address read, the read returns. -/
theorem C82_violated {m : Mode} {s : Sys} {tr : List Obs} {addr : KnxAddress} {dl : Nat} (_h : Exec m s tr)
    (ha : s.api = .reading addr.toU16 dl) (hpc : s.bg.pc = .recv) (hr : s.bg.rxOpen = true) (hq : s.bg.queue = [])
    (ch seq c1 c2 s1 s2 d1 d2 l a b : U8) (rest : Bytes) (hl : rest.length ≤ 79) (hd : [d1, d2] = word addr.toU16.toNat) :
    ∃ s' c, PromptRun m s [.rx (frame TUNNELING_REQUEST ([4, ch, seq, 0] ++ ([0x29, 0, c1, c2, s1, s2, d1, d2, l, a, b] ++ rest))),
        .tx .task (frame TUNNELING_ACK [4, ch, seq, 0]), .queued c, .taken 0 c,
        .ret (.value (if 2 ≤ l.toNat then padded (l.toNat - 1) rest else [byte (b.toNat % 64)]))] s' := by
  obtain ⟨s', h1, _⟩ := delivered m s addr.toU16 dl ch seq c1 c2 s1 s2 d1 d2 l a b rest ha hpc hr hq (by omega) hd
  have : padded rest.length (rest.take 79) = rest := by
    rw [List.take_of_length_le hl, padded_eq, Nat.sub_self, List.take_of_length_le (Nat.le_refl _)]
    simp
  rw [this] at h1
  exact ⟨_, _, h1⟩

/-- C82: a telegram to the device with the individual address 0.8.1 is returned as the value of the group 1/0/1. -/
theorem C82_violated_individual (m : Mode) : ∃ s tr, Exec m s tr ∧ lastCall tr = some (.read (.group3 ⟨1, 0, 1⟩)) ∧
    received tr = [[6, 0x10, 4, 0x20, 0, 23, 4, 7, 0, 0, 0x29, 0, 0xb0, 0x60, 0x11, 2, 8, 1, 3, 0x02, 0x80, 0x12, 0x34]] ∧
    returned tr = [.value [0x12, 0x34]] := by
  obtain ⟨s, tr, h1, h2⟩ := exec_of_evs (m := m) (evs := [.bg .run, .bg .sendOk, .bg (.dgram grant7), .bg .run,
      .api (.call (.read (.group3 ⟨1, 0, 1⟩))), .api .run, .api .run, .api .sendOk,
      .bg (.dgram [6, 0x10, 4, 0x20, 0, 23, 4, 7, 0, 0, 0x29, 0, 0xb0, 0x60, 0x11, 2, 8, 1, 3, 0x02, 0x80, 0x12, 0x34]), .bg .sendOk, .bg .run,
      .api .run])
    (f := fun x => (lastCall x.2, received x.2, returned x.2))
    (y := (some (.read (.group3 ⟨1, 0, 1⟩)),
      [[6, 0x10, 4, 0x20, 0, 23, 4, 7, 0, 0, 0x29, 0, 0xb0, 0x60, 0x11, 2, 8, 1, 3, 0x02, 0x80, 0x12, 0x34]], [.value [0x12, 0x34]]))
    (by cases m <;> decide +kernel)
  simp only [Prod.mk.injEq] at h2
  exact ⟨s, tr, h1, h2.1, h2.2.1, h2.2.2⟩

example (m : Mode) : ∃ s tr addr dl, Exec m s tr ∧ s.api = .reading (KnxAddress.toU16 addr) dl ∧ s.bg.pc = .recv ∧ s.bg.rxOpen = true ∧
    s.bg.queue = [] ∧ [(8 : U8), 1] = word addr.toU16.toNat := by
  obtain ⟨r, tr', dl, h1, h2, h3, h4, h5⟩ := reader7 m
  exact ⟨r, tr', _, dl, h1, h2, h3, h4, h5, by decide +kernel⟩

end Knx
