import Verif.Spec.Memory
import Verif.Props.EmiExact
import Verif.Props.Monitor

/-!
# Properties C124 and C125: what the library keeps in memory
-/

namespace Knx
open Spec

/-! ## C124 -/

/-- The blocks take as many bytes as they had on the wire, unless the last one is short. -/
theorem blocks_size {is : List AddInfo} {r rest : Bytes} (h : Blocks is r rest) :
    infosSize is + rest.length = r.length ∨
      ∃ pre ty s v, r = pre ++ [byte (infoCode ty), s] ++ v ∧ v.length < s.toNat ∧ infosSize is = pre.length + 2 + s.toNat ∧
        rest = [] := by
  induction h with
  | none b => left; simp [infosSize]
  | block i is b rest hi hb ih =>
    rcases ih with h | ⟨pre, ty, s, v, h1, h2, h3, h4⟩
    · left
      rw [infosSize_cons]
      simp only [infoBytes, List.cons_append, List.nil_append, List.length_cons, List.length_append]
      omega
    · right
      refine ⟨infoBytes i ++ pre, ty, s, v, ?_, h2, ?_, h4⟩
      · rw [h1]; simp
      · rw [infosSize_cons, h3]
        simp only [infoBytes, List.cons_append, List.nil_append, List.length_cons, List.length_append]
        omega
  | short ty s v hv =>
    right
    refine ⟨[], ty, s, v, rfl, hv, ?_, rfl⟩
    simp [infosSize, padded_length]
    omega

theorem infoCode_ne_zero (ty : InfoType) : byte (infoCode ty) ≠ 0 := by
  cases ty <;> decide

theorem seen_len (d : Bytes) : (seen d).length = 100 := padded_length _ _

theorem statedLength_header (svc len : Nat) (x : Bytes) (h : len < 65536) : statedLength (header svc len ++ x) = len := by
  simp only [statedLength, header, word, List.cons_append, List.nil_append, List.getD_cons_succ, List.getD_cons_zero, byte]
  simp only [BitVec.toNat_ofNat]
  omega

/-- A telegram brought by a datagram, its length field and the bytes after the header. -/
theorem carries_shape {m : Mode} {d : Bytes} {c : Cemi} (h : Carries m d c) :
    ∃ total b rest, 10 ≤ statedLength (seen d) ∧ statedLength (seen d) < 65536 ∧ rest.length = 90 ∧
      padded (statedLength (seen d) - 10) rest = [c.msgCode, total] ++ b ∧ Blocks c.infos b c.serviceInfo := by
  obtain ⟨t, h1, h2⟩ := h
  generalize hd : seen d = x at h1
  cases h1 with
  | tunnelingRequest ch sq pad len rest hl hu =>
    have hlen := seen_len d
    rw [hd] at hlen
    have e : statedLength (header TUNNELING_REQUEST len ++ [4, ch, sq, pad] ++ rest) = len := by
      rw [List.append_assoc]; exact statedLength_header _ _ _ hu
    rw [e]
    have hr : rest.length = 90 := by
      simp [header, word] at hlen; omega
    have h3 : ∃ y, Cemi.fromPacket m (padded (len - 10) rest) = .ok (c, y) := by
      unfold runRd at h2
      simp only [id] at h2
      split at h2 <;> simp at h2
      rename_i y hy
      exact ⟨_, by rw [hy, h2]⟩
    obtain ⟨y, h3⟩ := h3
    have hy : y = [] := by
      simp only [Cemi.fromPacket, Rd.bind_eval] at h3
      repeat' split at h3
      all_goals (try cases h3)
      all_goals (simp_all [Rd.toEnd, Rd.pure_eval])
    subst hy
    obtain ⟨total, b, k1, k2, _⟩ := (C12_accepts m _ c).1 h3
    exact ⟨total, b, rest, hl, hu, hr, k1, k2⟩

/-- C124, exactly: a telegram takes as many bytes as the length field of the datagram that brought it announces (whatever the size of that
datagram); except that if a block of additional information is cut short it may take more, but then no more than 346. -/
theorem C124_exact {m : Mode} {d : Bytes} {c : Cemi} (h : Carries m d c) :
    telegramSize c + 10 = statedLength (seen d) ∨
      (statedLength (seen d) < telegramSize c + 10 ∧ telegramSize c ≤ 346 ∧ c.serviceInfo = []) := by
  obtain ⟨total, b, rest, h1, h2, h3, h4, h5⟩ := carries_shape h
  have hl := congrArg List.length h4
  rw [padded_length] at hl
  simp only [List.length_append, List.length_cons, List.length_nil] at hl
  rcases blocks_size h5 with h6 | ⟨pre, ty, s, v, k1, k2, k3, k4⟩
  · left
    unfold telegramSize
    omega
  · right
    have hb := congrArg List.length k1
    simp only [List.length_append, List.length_cons, List.length_nil] at hb
    refine ⟨?_, ?_, k4⟩
    · simp only [telegramSize, k3, k4, List.length_nil]
      omega
    · have hs := s.isLt
      have hp : pre.length < 88 := by
        by_contra hge
        have e : (padded (statedLength (seen d) - 10) rest)[pre.length + 2]? = some 0 := by
          unfold padded
          rw [List.getElem?_take_of_lt (by omega), List.getElem?_append_right (by omega), List.getElem?_replicate,
            if_pos (by omega)]
        rw [h4, k1] at e
        simp only [List.cons_append, List.nil_append, List.append_assoc, List.getElem?_cons_succ] at e
        rw [List.getElem?_append_right (Nat.le_refl _)] at e
        simp only [Nat.sub_self, List.getElem?_cons_zero, Option.some.injEq] at e
        exact infoCode_ne_zero ty e
      simp only [telegramSize, k3, k4, List.length_nil]
      omega

theorem C124_telegram {m : Mode} {d : Bytes} {c : Cemi} (h : Carries m d c) : telegramSize c ≤ 65525 := by
  obtain ⟨_, _, _, _, h2, _⟩ := carries_shape h
  rcases C124_exact h with h | h <;> omega

theorem sum_replicate_nat (n a : Nat) : (List.replicate n a).sum = n * a := by
  induction n with
  | zero => simp
  | succ n ih => rw [List.replicate_succ, List.sum_cons, ih, Nat.succ_mul, Nat.add_comm]

theorem roomFor_le {cs : List Cemi} {n : Nat} (h : ∀ c ∈ cs, telegramSize c ≤ n) : roomFor cs ≤ cs.length * n := by
  induction cs with
  | nil => simp [roomFor]
  | cons c cs ih =>
    have h1 := h c (List.mem_cons_self ..)
    have h2 := ih fun x hx => h x (List.mem_cons_of_mem _ hx)
    simp only [roomFor, List.map_cons, List.sum_cons, List.length_cons, Nat.succ_mul] at h2 ⊢
    omega

theorem statedLength_seen (d : Bytes) : statedLength (seen d) = statedLength d := by
  have h (i : Nat) (hi : i < 100) : (seen d).getD i 0 = d.getD i 0 := by
    simp only [seen, padded, List.getD_eq_getElem?_getD]
    rw [List.getElem?_take_of_lt hi]
    by_cases hd : i < d.length
    · rw [List.getElem?_append_left hd]
    · rw [List.getElem?_append_right (by omega), List.getElem?_replicate, if_pos (by omega), List.getElem?_eq_none (by omega)]
      rfl
  simp only [statedLength, h 4 (by omega), h 5 (by omega)]

/-- C124, what holds: of a datagram whose length field is right, the telegram takes no more bytes than the datagram, or at most 346. -/
theorem C124_honest_partial {m : Mode} {d : Bytes} {c : Cemi} (h : Carries m d c) (hd : statedLength d = d.length) :
    telegramSize c + 10 ≤ d.length ∨ telegramSize c ≤ 346 := by
  have := C124_exact h
  rw [statedLength_seen, hd] at this
  omega

/-- C124, what holds: whatever is received, the telegrams that wait to be taken never take more than 6552500 bytes. -/
theorem C124_bounded_partial {m : Mode} {k : Kind} {s : Bg} {tr : List Obs} (h : Reaches m k s tr) : roomFor s.queue ≤ 6552500 := by
  have h1 := C45_bounded h
  obtain ⟨_, h2, ds, hsub, _, h3⟩ := C43_fifo h
  by_cases hd : Obs.dropped ∈ tr
  · have h4 := h.gexec.channel
    cases hr : s.rxOpen with
    | true => exact absurd hd (h4.opened hr).2
    | false => rw [(h4.closed hr).1]; simp [roomFor]
  · have h4 : ∀ c ∈ s.queue, telegramSize c ≤ 65525 := fun c hc => by
      have hm : c ∈ queued tr := by rw [← h2 hd]; exact List.mem_append_right _ hc
      obtain ⟨d, _, hc⟩ : ∃ d, d ∈ ds ∧ Carries m d c := by
        generalize queued tr = qs at hm h3
        clear h2 hsub
        induction h3 with
        | nil => simp at hm
        | cons hx _ ih =>
          rcases List.mem_cons.1 hm with rfl | hm
          · exact ⟨_, List.mem_cons_self .., hx⟩
          · obtain ⟨d, k1, k2⟩ := ih hm
            exact ⟨d, List.mem_cons_of_mem _ k1, k2⟩
      exact C124_telegram hc
    have := roomFor_le h4
    have h5 : s.queue.length * 65525 ≤ 100 * 65525 := Nat.mul_le_mul_right _ h1
    omega

/-- A tunneling request of twelve bytes that claims to have 65535. -/
def bloated : Bytes := [6, 0x10, 4, 0x20, 0xff, 0xff, 4, 7, 0, 0, 0x29, 0]

/-- The telegram it brings. -/
def bloat : Cemi := ⟨0x29, [], List.replicate 65523 0⟩

theorem bloat_size : telegramSize bloat = 65525 := by
  have h : bloat.serviceInfo.length = 65523 := List.length_replicate
  rw [telegramSize, h]
  rfl

theorem carries_bloated (m : Mode) : Carries m bloated bloat := by
  have e : seen bloated = header TUNNELING_REQUEST 65535 ++ [4, 7, 0, 0] ++ ([0x29, 0] ++ List.replicate 88 0) := by decide
  have h1 : Decodes (seen bloated) (.tunnelingRequest ⟨7, 0, padded (65535 - 10) ([0x29, 0] ++ List.replicate 88 0)⟩) := by
    rw [e]
    exact .tunnelingRequest 7 0 0 65535 _ (by omega) (by omega)
  refine ⟨_, h1, ?_⟩
  have e2 : padded (65535 - 10) ([0x29, 0] ++ List.replicate 88 0) = [0x29, 0] ++ List.replicate 65523 (0 : U8) := by
    unfold padded
    rw [List.append_assoc, List.replicate_append_replicate]
    simp only [List.cons_append, List.nil_append, List.take_succ_cons, List.take_replicate]
    rfl
  simp only [e2]
  have := (C12_accepts m ([0x29, 0] ++ List.replicate 65523 (0 : U8)) bloat).2
    ⟨0, List.replicate 65523 0, rfl, .none _, fun x y hxy hy => by
      rw [show bloat.infos = [] from rfl] at hxy
      simp at hxy; exact absurd hxy.2 hy, Nat.zero_le _, fun _ => show infosSize [] < 256 by decide⟩
  unfold runRd
  rw [this]
  rfl

/-- A telegram is received, acknowledged and queued. -/
theorem deliver_any (k : Kind) (m : Mode) (s : Bg) {d : Bytes} {c : Cemi} (h : Carries m d c) (hpc : s.pc = .recv)
    (hr : s.rxOpen = true) (hq : s.queue.length < 100) :
    ∃ a, bgRun k m s [.dgram d, .sendOk, .run] = some ({ s with queue := s.queue ++ [c] }, [.rx d, .tx .task a, .queued c]) := by
  obtain ⟨t, h1, h2⟩ := h
  refine ⟨(TunnelingAck.mk t.channel t.seq 0).packet, ?_⟩
  simp only [bgRun, bgStep, hpc, onDatagram_request h1, endObs, reduceCtorEq, if_false, h2, Option.map_some, hr, hq, if_true,
    Bool.true_eq_false]
  cases s
  simp_all

/-- C124 is refuted: for every `n` up to 100, `n` datagrams of twelve bytes each fill 65525 bytes each. -/
theorem C124_violated (m : Mode) (k : Kind) (n : Nat) (hn : n ≤ 100) : ∃ s tr, Reaches m k s tr ∧ s.conn.isSome ∧
    received tr = List.replicate n bloated ∧ receivedBytes tr = 12 * n ∧ s.queue.length = n ∧ roomFor s.queue = 65525 * n := by
  obtain ⟨s, tr, h1, h2, h3, h4, h5, h6⟩ : ∃ s tr, Reaches m k s tr ∧ s.conn.isSome ∧ received tr = List.replicate n bloated ∧
      s.queue = List.replicate n bloat ∧ s.pc = .recv ∧ s.rxOpen = true := by
    induction n with
    | zero => exact ⟨_, _, reaches_link m k grants7, by cases k <;> rfl, by cases k <;> rfl, by cases k <;> rfl,
        by cases k <;> rfl, by cases k <;> rfl⟩
    | succ n ih =>
      obtain ⟨s, tr, h1, h2, h3, h4, h5, h6⟩ := ih (by omega)
      obtain ⟨a, ha⟩ := deliver_any k m s (carries_bloated m) h5 h6 (by rw [h4, List.length_replicate]; omega)
      refine ⟨_, _, h1.append ha, h2, ?_, ?_, h5, h6⟩
      · rw [received_append, h3, List.replicate_succ']
        rfl
      · show s.queue ++ [bloat] = _
        rw [h4, List.replicate_succ']
  refine ⟨s, tr, h1, h2, h3, ?_, by rw [h4, List.length_replicate], ?_⟩
  · rw [receivedBytes, h3, List.map_replicate, sum_replicate_nat, show bloated.length = 12 from rfl, Nat.mul_comm]
  · rw [roomFor, h4, List.map_replicate, sum_replicate_nat, bloat_size, Nat.mul_comm]

/-- A datagram whose length field is right brings a telegram that takes ten bytes less; one with a block cut short brings one that takes
more than the datagram. -/
example (m : Mode) : (Carries m req7 tel7 ∧ statedLength req7 = req7.length ∧ telegramSize tel7 + 10 = req7.length) ∧
    ∃ d c, Carries m d c ∧ statedLength d = d.length ∧ d.length < telegramSize c := by
  refine ⟨⟨carries7 m, by decide, by decide⟩, [6, 0x10, 4, 0x20, 0, 14, 4, 7, 0, 0, 0x29, 3, 1, 200], ⟨0x29, [⟨.plMedium, List.replicate 200 0⟩], []⟩, ?_, by decide, by decide +kernel⟩
  refine ⟨⟨7, 0, [0x29, 3, 1, 200]⟩, ?_, ?_⟩
  · have h := Decodes.tunnelingRequest 7 0 0 14 ([0x29, 3, 1, 200] ++ List.replicate 86 0) (by omega) (by omega)
    exact h
  · cases m <;> decide +kernel

/-! ## C125 -/

/-- What the task does to the list of subscribers. -/
theorem bg_subs {m : Mode} {b b' : Bg} {o : List Obs} {e : BgEv} (h : bgStep .monitor m b e = some (b', o)) :
    subscribedIds o = [] ∧ (b'.subs = b.subs ∨ b.pc = .notify [] b'.subs) ∧
      (notNotify b.pc → o.any isUp = false → b'.subs = b.subs ∧ notifiedIds o = [] ∧ notNotify b'.pc) := by
  have ht := bgStep_tr h
  cases ht
  case storeClient hk => cases hk
  case notifyEnd a hpc => exact ⟨rfl, .inr hpc, fun hn => by rw [hpc] at hn; exact hn.elim⟩
  case notifyClosed hpc ho => exact ⟨rfl, .inl rfl, fun hn => by rw [hpc] at hn; exact hn.elim⟩
  case notifyOpen hpc ho hl => exact ⟨rfl, .inl rfl, fun hn => by rw [hpc] at hn; exact hn.elim⟩
  case storeMonitor => exact ⟨rfl, .inl rfl, fun _ h => by simp [isUp] at h⟩
  case recvEmpty => exact ⟨rfl, .inl rfl, fun hn _ => ⟨rfl, rfl, hn⟩⟩
  case recvAck => exact ⟨rfl, .inl rfl, fun hn _ => ⟨rfl, rfl, hn⟩⟩
  case recvStateOk => exact ⟨rfl, .inl rfl, fun hn _ => ⟨rfl, rfl, hn⟩⟩
  all_goals exact ⟨rfl, .inl rfl, fun _ _ => ⟨rfl, rfl, trivial⟩⟩

/-- C125, what holds: no more subscriptions are kept than have been made. -/
theorem C125_bound_partial {m : Mode} {s : MSys} {tr : List Obs} (h : MExec m s tr) : s.bg.subs.length ≤ (subscribedIds tr).length := by
  induction h with
  | init => exact Nat.le_refl 0
  | @step s s' tr o e hx hs ih =>
    rw [subscribedIds_append, List.length_append]
    cases e with
    | delay d => cases hs; simpa [subscribedIds] using ih
    | api e =>
      rcases (mapiStep_tr hs).facts.subs with ⟨h1, h2⟩ | ⟨id, h1, h2, _⟩
      · rw [h1]; omega
      · rw [h1, h2]; simp only [List.length_append, List.length_singleton]; omega
    | bg e =>
      simp only [Knx.mstep, Option.map_eq_some_iff, Prod.exists, Prod.mk.injEq] at hs
      obtain ⟨b, o', hb, rfl, rfl⟩ := hs
      rcases (bg_subs hb).2.1 with h1 | h1
      · show b.subs.length ≤ _; rw [h1]; omega
      · obtain ⟨_, _, old, h2, h3⟩ := hx.subsInv.notif _ _ h1
        rw [List.append_nil] at h2
        have := h3.length_le
        rw [← h2] at this
        show b.subs.length ≤ _
        omega

/-- C125, exactly: until a further connection is established, no subscription is forgotten, whether its receiver is alive or not. -/
theorem C125_exact {m : Mode} {s s' : MSys} {tr : List Obs} (hl : connLocked .monitor s.bg = false) (hr : MRun m s tr s')
    (hno : tr.any isUp = false) : s'.bg.subs = s.bg.subs ++ subscribedIds tr := by
  rw [notNotify_iff] at hl
  induction hr with
  | nil => simp [subscribedIds]
  | @step s s1 s2 o tr e hs _ ih =>
    rw [List.any_append, Bool.or_eq_false_iff] at hno
    have : s1.bg.subs = s.bg.subs ++ subscribedIds o ∧ notNotify s1.bg.pc := by
      cases e with
      | delay d => cases hs; exact ⟨by simp [subscribedIds], hl⟩
      | api e =>
        have f := (mapiStep_tr hs).facts
        refine ⟨?_, by rw [f.pc]; exact hl⟩
        rcases f.subs with ⟨h1, h2⟩ | ⟨id, h1, h2, _⟩
        · rw [h1, h2, List.append_nil]
        · rw [h1, h2]
      | bg e =>
        simp only [Knx.mstep, Option.map_eq_some_iff, Prod.exists, Prod.mk.injEq] at hs
        obtain ⟨b, o', hb, rfl, rfl⟩ := hs
        obtain ⟨h1, _, h3⟩ := bg_subs hb
        obtain ⟨h4, _, h5⟩ := h3 hl hno.1
        exact ⟨by rw [h1, List.append_nil]; exact h4, h5⟩
    rw [ih this.2 hno.2, this.1, subscribedIds_append, List.append_assoc]

/-- C125, what holds: once a further connection has been announced, a subscription whose receiver had been dropped before is forgotten
(unless it has been made again). -/
theorem C125_forgotten_partial {m : Mode} {s0 s1 s2 : MSys} {tr0 tr o : List Obs} {e : MEv} {r : ConnectionResponse}
    (h : MExec m s0 tr0) (hs : mstep m s0 e = some (s1, o)) (hu : Obs.up r ∈ o) (hr : MRun m s1 tr s2) (hno : tr.any isUp = false)
    (hl : connLocked .monitor s2.bg = false) {id : Nat} (hid : id ∈ s0.bg.subs) (hc : (s0.bg.chans id).isOpen = false)
    (hagain : id ∉ subscribedIds tr) : id ∉ s2.bg.subs := by
  obtain ⟨_, _, h3⟩ := C62_notified h hs hu hr hno hl
  obtain ⟨rfl, _, _, k3⟩ := up_step h hs hu
  have h4 := C62_registered ((h.step e hs).append hr) hl
  rw [h4, registered, since_task _ hno, since_up, List.nil_append, List.mem_append]
  rintro (h5 | h5)
  · exact h3 id (k3 ▸ hid) hc h5
  · exact hagain h5

/-- Connected, with `n` subscriptions whose receivers have been dropped. -/
def ghosts (n : Nat) : MSys :=
  ⟨{ linkUp .monitor conn7 with subs := List.range n, chans := fun i => if i < n then ⟨1, 0, false⟩ else ⟨0, 0, false⟩ }, .idle, []⟩

/-- Three subscriptions, the receivers of the second and third dropped; after the next connection only the first is left. -/
example (m : Mode) : ∃ s tr, MExec m s tr ∧ subscribedIds tr = [1, 2, 3] ∧ s.bg.subs = [1] ∧ (s.bg.chans 2).isOpen = false := by
  obtain ⟨s, tr, h1, h2⟩ := mexec_of_evs (m := m) (evs := [.api (.mkChan 1 1), .api (.mkChan 2 1), .api (.mkChan 3 1),
      .api (.call (.subscribe 1)), .api .run, .api (.call (.subscribe 2)), .api .run, .api (.call (.subscribe 3)), .api .run,
      .api (.closeChan 2), .api (.closeChan 3), .bg .run, .bg .sendOk, .bg (.dgram grant7), .bg .sendOk, .bg .run, .bg .run, .bg .run,
      .bg .run, .bg .run])
    (f := fun x => (subscribedIds x.2, x.1.bg.subs, (x.1.bg.chans 2).isOpen))
    (y := ([1, 2, 3], [1], false)) (by cases m <;> decide +kernel)
  simp only [Prod.mk.injEq] at h2
  exact ⟨s, tr, h1, h2⟩

/-- C125 is refuted: for every `n` the monitor, connected all the time, can be brought to keep `n` subscriptions although the receiver of
every channel there has ever been is gone; and it keeps them, whatever happens, until a further connection is established. -/
theorem C125_violated (m : Mode) (n : Nat) : ∃ s tr, MExec m s tr ∧ upNow tr = true ∧ subscribedIds tr = List.range n ∧
    (∀ id, (s.bg.chans id).isOpen = false) ∧ s.bg.subs.length = n ∧
    ∀ tr' s', MRun m s tr' s' → tr'.any isUp = false → n ≤ s'.bg.subs.length := by
  have start : ∀ n, ∃ tr, MExec m (ghosts n) tr ∧ upNow tr = true ∧ subscribedIds tr = List.range n := by
    intro n
    induction n with
    | zero =>
      refine ⟨_, mexec_link m grants7, by rfl, by rfl⟩
    | succ n ih =>
      obtain ⟨tr, h1, h2, h3⟩ := ih
      have h : mrunEvs m (ghosts n) [.api (.mkChan n 1), .api (.call (.subscribe n)), .api .run, .api (.closeChan n)] =
          some (ghosts (n + 1), [.call (.subscribe n), .subscribed n, .ret .unit]) := by
        simp [mrunEvs, mstep, mapiStep, mcallStep, mapiCall, ghosts, linkUp, Bg.init, setChan, connLocked, mfinish, List.range_succ]
        funext i
        by_cases hi : i = n
        · simp [hi]
        · by_cases hj : i < n
          · simp [hi, hj]; omega
          · simp [hi, hj]; omega
      refine ⟨_, h1.append (mrunEvs_run h), ?_, ?_⟩
      · rw [upNow_append, h2]; rfl
      · rw [subscribedIds_append, h3, List.range_succ]; rfl
  obtain ⟨tr, h1, h2, h3⟩ := start n
  refine ⟨_, tr, h1, h2, h3, fun id => ?_, by simp [ghosts], fun tr' s' hr hno => ?_⟩
  · simp only [ghosts]; split <;> rfl
  · rw [C125_exact (by rfl) hr hno]
    simp [ghosts]

end Knx
