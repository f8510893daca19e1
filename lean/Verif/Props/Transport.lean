import Verif.Lemmas.Runs

/-!
# Properties of the background task (C41–C52)

They hold for the client's and for the monitor's task (`Reaches m k s tr`: the task of kind `k` can reach
state `s` having made the observations `tr`, whatever the network, the scheduler and the callers of the API
do).
-/

namespace Knx
open Spec

/-! ## C41 -/

/-- What survives of a cEMI in a 100-byte receive buffer: its first 90 bytes, the others become zero. -/
def cut (cemi : Bytes) : Bytes := cemi.take 90 ++ List.replicate (cemi.length - 90) 0

theorem padded_eq (n : Nat) (b : Bytes) : padded n b = b.take n ++ List.replicate (n - b.length) 0 := by
  unfold padded
  rw [List.take_append, List.take_replicate, Nat.min_eq_left (Nat.sub_le _ _)]

theorem padded_padded (cemi : Bytes) : padded cemi.length (padded 90 cemi) = cut cemi := by
  rw [padded_eq, padded_eq, cut]
  rcases Nat.le_total cemi.length 90 with h | h
  · rw [List.take_of_length_le h, Nat.sub_eq_zero_of_le h]
    rw [List.take_append, List.take_of_length_le (Nat.le_refl _), Nat.sub_self]
    simp
  · rw [Nat.sub_eq_zero_of_le h]
    simp only [List.replicate_zero, List.append_nil, List.length_take, List.take_take]
    rw [Nat.min_eq_right h, Nat.min_eq_left h]

theorem decodes_request (channel seq res : U8) (cemi : Bytes) (h : cemi.length ≤ 65525) :
    Decodes (seen (frame TUNNELING_REQUEST ([4, channel, seq, res] ++ cemi)))
      (.tunnelingRequest ⟨channel, seq, cut cemi⟩) := by
  have e : seen (frame TUNNELING_REQUEST ([4, channel, seq, res] ++ cemi))
      = header TUNNELING_REQUEST (10 + cemi.length) ++ [4, channel, seq, res] ++ padded 90 cemi := by
    unfold seen padded frame header word
    have : 6 + ([4, channel, seq, res] ++ cemi).length = 10 + cemi.length := by simp; omega
    rw [this]
    simp only [List.cons_append, List.nil_append, List.append_assoc, List.take_succ_cons]
    rw [List.take_append, List.take_append, List.take_replicate, List.take_replicate,
      Nat.min_eq_left (Nat.sub_le _ _), Nat.min_eq_left (Nat.le_trans (Nat.sub_le _ _) (by decide))]
  rw [e]
  have := Decodes.tunnelingRequest channel seq res (10 + cemi.length) (padded 90 cemi) (by omega) (by omega)
  rwa [show 10 + cemi.length - 10 = cemi.length by omega, padded_padded] at this

theorem seen_length (d : Bytes) : (seen d).length = 100 := by simp [seen, padded]

theorem onDatagram_request {d : Bytes} {t : TunnelingRequest} (h : Decodes (seen d) (.tunnelingRequest t)) :
    onDatagram d = .ackReq t.channel t.seq t.cemi := by
  unfold onDatagram
  have hn : d ≠ [] := by rintro rfl; exact decodes_nil h
  rw [if_neg (by simpa using hn), buffer_eq_seen, (C21_dispatch_exact _ _).2 h]

/-- C41: a tunneling request datagram carrying the cEMI bytes `cemi` is acknowledged with its channel and
sequence number, and exactly the telegram denoted by `cemi` is put into the message channel, if the whole datagram
has at most 100 bytes; if it is longer, the bytes beyond 100 have been replaced by zeros. -/
theorem C41_datagram_exact (k : Kind) (m : Mode) (s : Bg) (channel seq res : U8) (cemi : Bytes) (c : Cemi)
    (hl : cemi.length ≤ 65525) (hpc : s.pc = .recv) (hr : s.rxOpen = true) (hq : s.queue.length < 100)
    (hc : runRd (Cemi.fromPacket m) id (cut cemi) = .ok c) :
    bgRun k m s [.dgram (frame TUNNELING_REQUEST ([4, channel, seq, res] ++ cemi)), .sendOk, .run]
      = some ({ s with queue := s.queue ++ [c] },
        [.rx (frame TUNNELING_REQUEST ([4, channel, seq, res] ++ cemi)),
          .tx .task (frame TUNNELING_ACK [4, channel, seq, 0]), .queued c]) ∧
    (cemi.length ≤ 90 → cut cemi = cemi) := by
  refine ⟨?_, ?_⟩
  · have h1 := onDatagram_request (decodes_request channel seq res cemi hl)
    simp only [bgRun, bgStep, hpc]
    simp only [h1, endObs, reduceCtorEq, if_false, bgRun, bgStep, hc, hr, hq, if_true, Option.map_some]
    rw [ack_packet]
    cases s; simp_all
  · intro h
    rw [cut, List.take_of_length_le h, Nat.sub_eq_zero_of_le h]
    simp

example : ∃ s tr, Reaches .debug .client s tr ∧ s.pc = .recv ∧ s.rxOpen = true ∧ s.queue.length < 100 ∧
    runRd (Cemi.fromPacket .debug) id (cut [0x29, 0, 0xbc, 0xe0, 0x11, 2, 8, 1, 1, 0, 0x81])
      = .ok ⟨0x29, [], [0xbc, 0xe0, 0x11, 2, 8, 1, 1, 0, 0x81]⟩ :=
  ⟨_, _, reaches_link .debug .client grants7, rfl, rfl, by simp [linkUp, Bg.init], by decide +kernel⟩

/-! ## C42 -/

theorem forall₂_length {α β : Type} {R : α → β → Prop} {a : List α} {b : List β} (h : List.Forall₂ R a b) :
    a.length = b.length := h.length_eq

/-- C42: in every execution the tunneling acks sent are, in order, the acks (same channel, same sequence number,
status 0) of different received datagrams, each a tunneling request or a feature response, and apart from the
datagram in progress as many acks are missing at most as there were interrupts by the heart beat and failed sends. -/
theorem C42_acks {m : Mode} {k : Kind} {s : Bg} {tr : List Obs} (h : Reaches m k s tr) :
    (∃ ds, ds.Sublist (received tr) ∧ List.Forall₂ AckFor (acksSent tr) ds) ∧
    needing (received tr) ≤ (acksSent tr).length + interrupts tr + ackFailures tr + 1 := by
  have h1 := h.gexec.ledger
  have h2 := h.gexec.complete
  refine ⟨⟨acked tr, (List.sublist_append_left _ _).trans h1.sub, h1.acks⟩, ?_⟩
  have := h2.acks
  have := (pendAck_le_busy s.pc).1
  have := forall₂_length h1.acks
  omega

open Classical in
/-- C42: when the task waits for the next datagram and there were neither interrupts nor failed acks, every received
tunneling request and feature response has been acknowledged exactly once, in order. -/
theorem C42_none_missing {m : Mode} {k : Kind} {s : Bg} {tr : List Obs} (h : Reaches m k s tr) (hpc : s.pc = .recv)
    (hi : Obs.interrupt ∉ tr) (hf : ackFailures tr = 0) :
    List.Forall₂ AckFor (acksSent tr) ((received tr).filter fun d => ∃ p, AckFor p d) := by
  have h1 := h.gexec.ledger
  have h2 := h.gexec.complete.acks
  have hi' : interrupts tr = 0 := by
    unfold interrupts
    rw [List.countP_eq_zero]
    intro x hx
    cases x <;> simp
    exact hi hx
  have hsub : (acked tr).Sublist ((received tr).filter fun d => ∃ p, AckFor p d) := by
    have : (acked tr).filter (fun d => ∃ p, AckFor p d) = acked tr := by
      rw [List.filter_eq_self]
      intro d hd
      obtain ⟨hl, hg⟩ := List.forall₂_iff_get.1 h1.acks
      obtain ⟨i, hi, rfl⟩ := List.getElem_of_mem hd
      rw [acked_eq] at hi
      have := hg i (by omega) hi
      simpa using ⟨_, this⟩
    rw [← this]
    exact ((List.sublist_append_left _ _).trans h1.sub).filter _
  have hlen : ((received tr).filter fun d => ∃ p, AckFor p d).length ≤ (acked tr).length := by
    rw [← List.countP_eq_length_filter]
    rw [hpc, hi', hf] at h2
    have e : needing (received tr) = (received tr).countP fun d => ∃ p, AckFor p d := by
      unfold needing NeedsAck; congr
    rw [e] at h2
    rw [acked_eq]
    simpa [pendAck] using h2
  rw [← hsub.eq_of_length_le hlen]
  exact h1.acks

/-- A tunneling request on channel 7 carrying a group write of 1 to 1/0/1. -/
def req7 : Bytes := [6, 0x10, 4, 0x20, 0, 21, 4, 7, 0, 0, 0x29, 0, 0xbc, 0xe0, 0x11, 2, 8, 1, 1, 0, 0x81]

/-- The telegram in it. -/
def tel7 : Cemi := ⟨0x29, [], [0xbc, 0xe0, 0x11, 2, 8, 1, 1, 0, 0x81]⟩

theorem req7_eq : req7 = frame TUNNELING_REQUEST ([4, 7, 0, 0] ++ [0x29, 0, 0xbc, 0xe0, 0x11, 2, 8, 1, 1, 0, 0x81]) := by
  decide

theorem tel7_eq (m : Mode) : runRd (Cemi.fromPacket m) id (cut [0x29, 0, 0xbc, 0xe0, 0x11, 2, 8, 1, 1, 0, 0x81]) = .ok tel7 := by
  cases m <;> decide +kernel

theorem carries7 (m : Mode) : Carries m req7 tel7 := by
  rw [req7_eq]
  exact ⟨_, decodes_request 7 0 0 _ (by simp), tel7_eq m⟩

/-- A state waiting for datagrams, after one request has been received, acknowledged and delivered. -/
theorem reaches7 (m : Mode) (k : Kind) : ∃ s tr, Reaches m k s tr ∧ s.pc = .recv ∧ s.queue = [tel7] ∧
    tr = linkTrace k grant7 conn7 ++ [.rx req7, .tx .task (frame TUNNELING_ACK [4, 7, 0, 0]), .queued tel7] := by
  have h := (C41_datagram_exact k m (linkUp k conn7) 7 0 0 _ tel7 (by simp) rfl rfl (by simp [linkUp, Bg.init]) (tel7_eq m)).1
  rw [← req7_eq] at h
  exact ⟨_, _, (reaches_link m k grants7).append h, rfl, rfl, rfl⟩

example : ∃ s tr, Reaches .release .monitor s tr ∧ s.pc = .recv ∧ Obs.interrupt ∉ tr ∧ ackFailures tr = 0 ∧
    received tr = [req7] ∧ acksSent tr = [frame TUNNELING_ACK [4, 7, 0, 0]] := by
  obtain ⟨s, tr, h, hpc, _, rfl⟩ := reaches7 .release .monitor
  exact ⟨s, _, h, hpc, by decide, by decide, by decide, by decide +kernel⟩

/-! ## C43 -/

/-- C43: in every execution the telegrams taken by the application are the first of those put into the message channel,
the rest is still in the channel unless the client has been dropped, and what was put in is, in order, carried by
different received (and acknowledged) tunneling requests. -/
theorem C43_fifo {m : Mode} {k : Kind} {s : Bg} {tr : List Obs} (h : Reaches m k s tr) :
    taken tr <+: queued tr ∧
    (Obs.dropped ∉ tr → taken tr ++ s.queue = queued tr) ∧
    ∃ ds, ds.Sublist (acked tr) ∧ (acked tr).Sublist (received tr) ∧ List.Forall₂ (Carries m) ds (queued tr) := by
  have h1 := h.gexec.ledger
  have h2 := h.gexec.channel
  obtain ⟨ds, hd, hp⟩ := h1.del
  refine ⟨?_, ?_, ds, hp.sublist, (List.sublist_append_left _ _).trans h1.sub, hd⟩
  · cases hr : s.rxOpen
    · exact (h2.closed hr).2.1
    · exact ⟨s.queue, (h2.opened hr).1⟩
  · intro hd
    cases hr : s.rxOpen
    · exact absurd (h2.closed hr).2.2 hd
    · exact (h2.opened hr).1

example : ∃ s tr, Reaches .debug .client s tr ∧ Obs.dropped ∉ tr ∧ queued tr = [tel7] ∧ received tr = [req7] := by
  obtain ⟨s, tr, h, hpc, _, rfl⟩ := reaches7 .debug .client
  exact ⟨s, _, h, by decide, by decide, by decide⟩

/-! ## C44 -/

open Classical in
/-- C44, the part that holds: when the task waits for the next datagram, no heart beat has interrupted the handler and
the channel has not been found closed, the telegrams put into the channel are exactly those carried by the acknowledged
datagrams. -/
theorem C44_no_loss_partial {m : Mode} {k : Kind} {s : Bg} {tr : List Obs} (h : Reaches m k s tr) (hpc : s.pc = .recv)
    (hi : Obs.interrupt ∉ tr) (hc : Obs.closed ∉ tr) :
    List.Forall₂ (Carries m) ((acked tr).filter fun d => ∃ c, Carries m d c) (queued tr) := by
  have h1 := h.gexec.ledger
  have h2 := h.gexec.complete.del
  have hi' : interrupts tr = 0 := by
    unfold interrupts
    rw [List.countP_eq_zero]
    intro x hx
    cases x <;> simp
    exact hi hx
  have hc' : closings tr = 0 := by
    unfold closings
    rw [List.countP_eq_zero]
    intro x hx
    cases x <;> simp
    exact hc hx
  obtain ⟨ds, hd, hp⟩ := h1.del
  have hsub : ds.Sublist ((acked tr).filter fun d => ∃ c, Carries m d c) := by
    have : ds.filter (fun d => ∃ c, Carries m d c) = ds := by
      rw [List.filter_eq_self]
      intro d hdm
      obtain ⟨hl, hg⟩ := List.forall₂_iff_get.1 hd
      obtain ⟨i, hi, rfl⟩ := List.getElem_of_mem hdm
      have := hg i hi (by omega)
      simpa using ⟨_, this⟩
    rw [← this]
    exact hp.sublist.filter _
  have hlen : ((acked tr).filter fun d => ∃ c, Carries m d c).length ≤ ds.length := by
    rw [← List.countP_eq_length_filter, forall₂_length hd]
    rw [hpc, hi', hc'] at h2
    have e : carrying m (acked tr) = (acked tr).countP fun d => ∃ c, Carries m d c := by
      unfold carrying HasTelegram; congr
    rw [acked_eq] at e ⊢
    rw [e] at h2
    simpa [pendPush] using h2
  rw [← hsub.eq_of_length_le hlen]
  exact hd

/-- C44, in general: at most as many acknowledged telegrams are missing from the channel as there were interrupts and
findings of a closed channel, plus the one in progress. -/
theorem C44_loss_bound {m : Mode} {k : Kind} {s : Bg} {tr : List Obs} (h : Reaches m k s tr) :
    carrying m (acked tr) ≤ (queued tr).length + interrupts tr + closings tr + 1 := by
  have := h.gexec.complete.del
  have := (pendAck_le_busy s.pc).2
  rw [acked_eq]
  omega

/-- `n` times the same request. -/
def times (n : Nat) (o : List Obs) : List Obs := (List.replicate n o).flatten

theorem reaches_fill (m : Mode) (k : Kind) (n : Nat) (hn : n ≤ 100) :
    Reaches m k { linkUp k conn7 with queue := List.replicate n tel7 }
      (linkTrace k grant7 conn7 ++ times n [.rx req7, .tx .task (frame TUNNELING_ACK [4, 7, 0, 0]), .queued tel7]) := by
  induction n with
  | zero =>
    rw [show times 0 _ = [] from rfl, List.append_nil]
    exact reaches_link m k grants7
  | succ n ih =>
    have h := (C41_datagram_exact k m { linkUp k conn7 with queue := List.replicate n tel7 } 7 0 0 _ tel7 (by simp) rfl rfl
      (by simp; omega) (tel7_eq m)).1
    rw [← req7_eq] at h
    have := (ih (by omega)).append h
    simp only [List.append_assoc] at this
    rw [show times (n + 1) [Obs.rx req7, .tx .task (frame TUNNELING_ACK [4, 7, 0, 0]), .queued tel7]
      = times n [.rx req7, .tx .task (frame TUNNELING_ACK [4, 7, 0, 0]), .queued tel7]
        ++ [.rx req7, .tx .task (frame TUNNELING_ACK [4, 7, 0, 0]), .queued tel7] by
      simp [times, List.replicate_succ', List.flatten_append], List.replicate_succ']
    exact this

theorem acked_times (n : Nat) (st : List Bytes) :
    (times n [Obs.rx req7, .tx .task (frame TUNNELING_ACK [4, 7, 0, 0]), .queued tel7]).foldl ackedStep (none, st)
      = (none, st ++ List.replicate n req7) := by
  induction n generalizing st with
  | zero => simp [times]
  | succ n ih =>
    have : times (n + 1) [Obs.rx req7, .tx .task (frame TUNNELING_ACK [4, 7, 0, 0]), .queued tel7]
      = [.rx req7, .tx .task (frame TUNNELING_ACK [4, 7, 0, 0]), .queued tel7]
        ++ times n [.rx req7, .tx .task (frame TUNNELING_ACK [4, 7, 0, 0]), .queued tel7] := by
      simp [times, List.replicate_succ]
    rw [this, List.foldl_append]
    have e : ([Obs.rx req7, .tx .task (frame TUNNELING_ACK [4, 7, 0, 0]), .queued tel7]).foldl ackedStep (none, st)
        = (none, st ++ [req7]) := by
      simp [ackedStep, serviceIs_frame]
    rw [e, ih, List.append_assoc]
    simp [List.replicate_succ]

theorem queued_times (n : Nat) :
    queued (times n [Obs.rx req7, .tx .task (frame TUNNELING_ACK [4, 7, 0, 0]), .queued tel7]) = List.replicate n tel7 := by
  induction n with
  | zero => rfl
  | succ n ih =>
    have : times (n + 1) [Obs.rx req7, .tx .task (frame TUNNELING_ACK [4, 7, 0, 0]), .queued tel7]
      = [.rx req7, .tx .task (frame TUNNELING_ACK [4, 7, 0, 0]), .queued tel7]
        ++ times n [.rx req7, .tx .task (frame TUNNELING_ACK [4, 7, 0, 0]), .queued tel7] := by
      simp [times, List.replicate_succ]
    rw [this, queued_append, ih]
    simp [queued, List.replicate_succ]

/-- C44 is refuted: with a full message channel a telegram is acknowledged, and then lost because the heart beat
interrupts the handler; afterwards the task waits for the next datagram, on the same connection. All 101 datagrams
acknowledged carry a telegram, but only 100 have been delivered, and the client still exists. -/
theorem C44_violated (m : Mode) (k : Kind) : ∃ s tr, Reaches m k s tr ∧ s.pc = .recv ∧ s.rxOpen = true ∧ s.conn.isSome ∧
    acked tr = List.replicate 101 req7 ∧ Carries m req7 tel7 ∧ queued tr = List.replicate 100 tel7 := by
  have h1 := reaches_fill m k 100 (Nat.le_refl _)
  have h2 : bgRun k m { linkUp k conn7 with queue := List.replicate 100 tel7 } [.dgram req7, .sendOk, .tick, .sendOk]
      = some ({ linkUp k conn7 with queue := List.replicate 100 tel7, hbDue := 60000 },
        [.rx req7, .tx .task (frame TUNNELING_ACK [4, 7, 0, 0]), .tick, .interrupt,
          .tx .task (ConnectionstateRequest.mk 7 conn7.dataEndpoint).packet]) := by
    have e : onDatagram req7 = .ackReq 7 0 (cut [0x29, 0, 0xbc, 0xe0, 0x11, 2, 8, 1, 1, 0, 0x81]) := by
      rw [req7_eq]; exact onDatagram_request (decodes_request 7 0 0 _ (by simp))
    simp only [bgRun, bgStep, linkUp, Bg.init, e, endObs, reduceCtorEq, if_false, if_true, tel7_eq, tickStep, inSelect,
      busy, Nat.le_refl, and_self, Option.map_some, nextTick, ack_packet]
    cases k <;> rfl
  have h3 := h1.append h2
  refine ⟨_, _, h3, rfl, rfl, rfl, ?_, carries7 m, ?_⟩
  · have e : (linkTrace k grant7 conn7).foldl ackedStep (none, []) = (none, []) := by
      cases k
      · simp [linkTrace, ackedStep, serviceIs_connReq]
      · simp [linkTrace, ackedStep, serviceIs_connReq, serviceIs_enable]
    rw [acked, List.foldl_append, List.foldl_append, e, acked_times]
    simp only [List.foldl_cons, ackedStep, serviceIs_frame, List.foldl_nil, stateReq_not_ack]
    simp only [beq_self_eq_true, if_true, Bool.false_eq_true, if_false, List.nil_append, Option.toList_some]
    rw [← List.replicate_succ']
  · rw [queued_append, queued_append, queued_times]
    cases k <;> simp [linkTrace, queued]

/-! ## C45 -/

/-- C45: the message channel never holds more than 100 telegrams. -/
theorem C45_bounded {m : Mode} {k : Kind} {s : Bg} {tr : List Obs} (h : Reaches m k s tr) : s.queue.length ≤ 100 :=
  h.gexec.channel.bound

/-- C45: a full channel blocks the task: as long as the client exists, the only thing the task with a telegram to
deliver can do is to send a heart beat, and no telegram in the channel is touched; as soon as there is room, the
telegram goes to the end of the channel. -/
theorem C45_blocks {m : Mode} {k : Kind} {s : Bg} {tr : List Obs} {c : Cemi} (_h : Reaches m k s tr) (hpc : s.pc = .push c)
    (hr : s.rxOpen = true) :
    (s.queue.length = 100 → ∀ e s' o, bgStep k m s e = some (s', o) → e = .tick ∧ s'.queue = s.queue) ∧
    (s.queue.length < 100 → bgStep k m s .run = some ({ s with queue := s.queue ++ [c], pc := .recv }, [.queued c])) := by
  constructor
  · intro hq e s' o hs
    by_cases he : e = .tick
    · subst he
      refine ⟨rfl, ?_⟩
      simp only [bgStep, if_true, tickStep] at hs
      split at hs
      · split at hs <;> cases hs <;> rfl
      · cases hs
    · exfalso
      simp only [bgStep, he, if_false, hpc, hr, hq] at hs
      cases e <;> simp at hs
  · intro hq
    simp [bgStep, hpc, hr, hq]

example : ∃ s tr, Reaches .debug .client s tr ∧ s.pc = .push tel7 ∧ s.rxOpen = true ∧ s.queue.length = 100 := by
  have h1 := reaches_fill .debug .client 100 (Nat.le_refl _)
  have h2 : bgRun .client .debug { linkUp .client conn7 with queue := List.replicate 100 tel7 } [.dgram req7, .sendOk]
      = some ({ linkUp .client conn7 with queue := List.replicate 100 tel7, pc := .push tel7 },
        [.rx req7, .tx .task (frame TUNNELING_ACK [4, 7, 0, 0])]) := by
    have e : onDatagram req7 = .ackReq 7 0 (cut [0x29, 0, 0xbc, 0xe0, 0x11, 2, 8, 1, 1, 0, 0x81]) := by
      rw [req7_eq]; exact onDatagram_request (decodes_request 7 0 0 _ (by simp))
    simp only [bgRun, bgStep, linkUp, Bg.init, e, endObs, reduceCtorEq, if_false, tel7_eq, Option.map_some, ack_packet]
    rfl
  exact ⟨_, _, h1.append h2, rfl, rfl, by simp⟩

/-! ## C46 -/

/-- C46: in every execution the sequence numbers drawn since the last connection was established are 0, 1, 2, … for the
client and 1, 2, 3, … for the monitor, modulo 256. -/
theorem C46_sequence {m : Mode} {k : Kind} {s : Bg} {tr : List Obs} (h : Reaches m k s tr) (i : Nat) :
    (drawn (since isUp tr))[i]? =
      if i < (drawn (since isUp tr)).length then some (byte ((match k with | .client => 0 | .monitor => 1) + i)) else none := by
  obtain ⟨n, hn, _⟩ := h.gexec.sequence
  rw [hn, List.length_map, List.length_range, List.getElem?_map]
  split
  · rename_i hi
    rw [List.getElem?_range hi]
    simp only [Option.map_some, byte, Option.some.injEq]
    rw [BitVec.ofNat_add]
    cases k <;> rfl
  · rename_i hi
    rw [List.getElem?_eq_none (by simpa using hi)]
    rfl

/-! ## C48 -/

/-- C48: whenever the task considers itself connected, the channel and the endpoint are those of the last connection
established, which has been granted by a datagram received in answer to a connect request: a CONNECT_RESPONSE with
status 0. -/
theorem C48_granted {m : Mode} {k : Kind} {s : Bg} {tr : List Obs} {c : Conn} (h : Reaches m k s tr) (hc : s.conn = some c) :
    ∃ r d, lastUp tr = some r ∧ d ∈ connAnswers tr ∧ Grants d r ∧ c.channel = r.channel ∧ c.endpoint = r.dataEndpoint := by
  have hg := h.gexec.grants
  obtain ⟨r, h1, h2, h3⟩ := hg.2.2 c hc
  have hm : Obs.up r ∈ tr := by
    have := List.mem_of_getLast? h1
    rw [ups, List.mem_filterMap] at this
    obtain ⟨x, hx, hxr⟩ := this
    cases x <;> simp at hxr
    subst hxr; exact hx
  obtain ⟨d, hd, hg'⟩ := hg.2.1 r hm
  exact ⟨r, d, h1, hd, hg', h2, h3⟩

/-- C48: and a datagram received in answer to a connect request that is not such a response never leads to a connection:
the task sleeps for ten seconds and asks again. -/
theorem C48_refused (k : Kind) (m : Mode) (s : Bg) (deadline : Nat) (d : Bytes) (hpc : s.pc = .connWait deadline)
    (hd : ∀ r, ¬ Grants d r) :
    bgStep k m s (.dgram d) = some ({ s with pc := .connSleep (s.now + 10000) }, [.rxConn d]) := by
  have : tryConnect (buffer d) = .err := by
    cases h : tryConnect (buffer d) with
    | ok r => exact absurd ((tryConnect_iff d r).1 h) (hd r)
    | err => rfl
    | panic => exact absurd h (tryConnect_no_panic _)
  simp [bgStep, hpc, this]

example : ∃ s tr c, Reaches .debug .monitor s tr ∧ s.conn = some c ∧ c.channel = 7 :=
  ⟨_, _, _, reaches_link .debug .monitor grants7, rfl, rfl⟩

/-! ## C49 -/

/-- C49: a non-empty datagram that does not decode as any response, or one telling that the connection is in error, makes
the task give up the connection and ask for a new one, and has no other effect: nothing else is sent, nothing is
delivered, no other part of the state changes. -/
theorem C49_malformed (k : Kind) (m : Mode) (s : Bg) (d : Bytes) (hpc : s.pc = .recv) (hd : d ≠ [])
    (hx : (∀ x, ¬ Decodes (seen d) x) ∧ parseResponse (seen d) ≠ .panic ∨
      ∃ r, Decodes (seen d) (.connectionstateResponse r) ∧ r.status ≠ 0) :
    bgRun k m s [.dgram d, .run, .run, .sendOk]
      = some ({ s with conn := none, pc := .connWait (s.now + 30000) }, [.rx d, .down, .tx .task connReqPacket]) := by
  have e : onDatagram d = .teardown := by
    unfold onDatagram
    rw [if_neg (by simpa using hd), buffer_eq_seen]
    rcases hx with ⟨h1, h2⟩ | ⟨r, h1, h2⟩
    · cases hp : parseResponse (seen d) with
      | ok x => exact absurd ((C21_dispatch_exact _ _).1 hp) (h1 x)
      | err => rfl
      | panic => exact absurd hp h2
    · rw [(C21_dispatch_exact _ _).2 h1]; exact if_pos h2
  simp [bgRun, bgStep, hpc, e, endObs]

/-- C49: on the way there the task does nothing else: while giving up the connection it can only clear the connection data. -/
theorem C49_only_way (k : Kind) (m : Mode) (s s' : Bg) (e : BgEv) (o : List Obs) (hpc : s.pc = .teardown)
    (h : bgStep k m s e = some (s', o)) : s' = { s with conn := none, pc := .top } ∧ o = [.down] := by
  unfold bgStep at h
  split at h
  · simp [tickStep, hpc, inSelect] at h
  · rw [hpc] at h
    cases e <;> simp at h
    exact ⟨h.1.symm, h.2.symm⟩

example : ∃ s tr, Reaches .debug .client s tr ∧ s.pc = .recv ∧ (∀ x, ¬ Decodes (seen [1, 2, 3]) x) ∧
    parseResponse (seen [1, 2, 3]) ≠ .panic := by
  have e : parseResponse (seen [1, 2, 3]) = .err := by rw [← buffer_eq_seen]; rfl
  refine ⟨_, _, reaches_link .debug .client grants7, rfl, fun x hx => ?_, by rw [e]; simp⟩
  rw [← C21_dispatch_exact, e] at hx; cases hx

/-! ## C50 -/

/-- C50, the part that holds: the background task panics only after receiving a tunneling request whose declared length
is below 10, or, in a debug build, one whose cEMI is too long in its additional information (C13); it ends only after
receiving a disconnect response. -/
theorem C50_survives_partial {m : Mode} {k : Kind} {s : Bg} {tr : List Obs} (h : Reaches m k s tr) :
    (Obs.crash ∈ tr → ∃ d, (received tr).getLast? = some d ∧
      ((∃ (len : Nat) (channel seq pad : U8) (rest : Bytes),
        len < 10 ∧ seen d = header TUNNELING_REQUEST len ++ [4, channel, seq, pad] ++ rest) ∨
      m = .debug ∧ ∃ t, Decodes (seen d) (.tunnelingRequest t) ∧
        ∃ code total is ty s rest, t.cemi = [code, total] ++ infosBytes is ++ [byte (infoCode ty), s] ++ rest ∧
          infosSize is < total.toNat ∧ 255 < infosSize is + 2 + s.toNat)) ∧
    (Obs.exit ∈ tr → ∃ d r, (received tr).getLast? = some d ∧ Decodes (seen d) (.disconnectResponse r)) := by
  have he := h.gexec.ending
  refine ⟨fun hc => ?_, fun hc => he.exitWhy (he.exit.1 hc)⟩
  obtain ⟨d, hd, h1 | ⟨t, h1, h2⟩⟩ := he.crashWhy (he.crash.1 hc)
  · exact ⟨d, hd, Or.inl h1⟩
  · cases m with
    | release => exact absurd h2 (C13_cemi_panic_iff.1 _)
    | debug => exact ⟨d, hd, Or.inr ⟨rfl, t, h1, (C13_cemi_panic_iff.2 _).1 h2⟩⟩

/-- C50, progress: as long as the task has neither panicked nor ended, it goes on (at once or when time has passed),
unless it waits for a subscriber of the monitor to make room in its channel. -/
theorem C50_progress {m : Mode} {k : Kind} {s : Bg} {tr : List Obs} (h : Reaches m k s tr)
    (hc : Obs.crash ∉ tr) (he : Obs.exit ∉ tr)
    (hn : ∀ id todo active, s.pc = .notify (id :: todo) active → (s.chans id).isOpen = true →
      (s.chans id).len < (s.chans id).cap) :
    ∃ t e, (bgStep k m { s with now := s.now + t } e).isSome := by
  have hend := h.gexec.ending
  rw [hend.crash] at hc
  rw [hend.exit] at he
  cases hpc : s.pc with
  | top => refine ⟨0, .run, ?_⟩; cases hcn : s.conn <;> simp [bgStep, hpc, hcn]
  | connSend => exact ⟨0, .sendFail, by simp [bgStep, hpc]⟩
  | connWait dl => exact ⟨dl, .timer, by simp [bgStep, hpc]⟩
  | connSleep dl => exact ⟨dl, .timer, by simp [bgStep, hpc]⟩
  | enable r => exact ⟨0, .sendFail, by simp [bgStep, hpc]⟩
  | store r => refine ⟨0, .run, ?_⟩; cases k <;> simp [bgStep, hpc]
  | notify todo active =>
    refine ⟨0, .run, ?_⟩
    cases todo with
    | nil => simp [bgStep, hpc]
    | cons id todo =>
      cases ho : (s.chans id).isOpen with
      | false => simp [bgStep, hpc, ho]
      | true => simp [bgStep, hpc, ho, hn id todo active hpc ho]
  | recv => exact ⟨0, .recvErr, by simp [bgStep, hpc]⟩
  | ackReq ch sq raw => exact ⟨0, .sendFail, by simp [bgStep, hpc]⟩
  | ackFeat ch sq => exact ⟨0, .sendFail, by simp [bgStep, hpc]⟩
  | push c =>
    refine ⟨s.hbDue, .tick, ?_⟩
    cases hcn : s.conn <;> simp [bgStep, tickStep, hpc, inSelect, hcn]
  | discResp p => exact ⟨0, .sendFail, by simp [bgStep, hpc]⟩
  | hb ch ep => exact ⟨0, .sendFail, by simp [bgStep, hpc]⟩
  | teardown => exact ⟨0, .run, by simp [bgStep, hpc]⟩
  | done => exact absurd hpc he
  | crashed => exact absurd hpc hc

/-- A ten-byte datagram: a tunneling request that declares a length of nine. -/
def killer : Bytes := [6, 0x10, 4, 0x20, 0, 9, 4, 7, 0, 0]

/-- C50 is refuted: for every connection that can be established, this ten-byte datagram ends the task with a panic, in
either build. -/
theorem C50_violated (m : Mode) (k : Kind) (d : Bytes) (r : ConnectionResponse) (h : Grants d r) :
    ∃ s, Reaches m k s (linkTrace k d r ++ [.rx killer, .crash]) ∧ ∀ e, bgStep k m s e = none := by
  have h2 : bgRun k m (linkUp k r) [.dgram killer] = some ({ linkUp k r with pc := .crashed }, [.rx killer, .crash]) := by
    have e : parseResponse (buffer killer) = .panic := by rfl
    have e' : onDatagram killer = .crashed := by
      simp [onDatagram, e, show killer.length = 10 from rfl]
    simp [bgRun, bgStep, linkUp, Bg.init, e', endObs]
  refine ⟨_, (reaches_link m k h).append h2, fun e => ?_⟩
  cases e <;> simp [bgStep, tickStep, inSelect]

/-! ## C51 -/

/-- C51, the part that holds: the connection data is set exactly if a connection has been established and not given up since. -/
theorem C51_connected_iff_partial {m : Mode} {k : Kind} {s : Bg} {tr : List Obs} (h : Reaches m k s tr) :
    s.conn.isSome = upNow tr := h.gexec.upNow

/-- C51 is refuted: once the background task has panicked or ended, the connection data stays set for ever (that is, in every
state that can be reached afterwards). -/
theorem C51_violated {m : Mode} {k : Kind} {s : Bg} {tr : List Obs} (h : Reaches m k s tr)
    (he : Obs.crash ∈ tr ∨ Obs.exit ∈ tr) : s.conn.isSome = true := by
  have h1 := h.gexec.ending
  have h2 := h.gexec.conn_iff.1
  rcases he with he | he
  · rw [h1.crash] at he; rw [h2, he]; rfl
  · rw [h1.exit] at he; rw [h2, he]; rfl

/-- C51 is refuted: after the end of the monitor's task `is_connected` returns true. -/
theorem C51_violated_is_connected {m : Mode} {s : MSys} {tr : List Obs} (h : MExec m s tr)
    (he : Obs.crash ∈ tr ∨ Obs.exit ∈ tr) (hi : s.api = .idle) (hr : s.bg.rxOpen = true) :
    mrunEvs m s [.api (.call .isConnected), .api .run] = some (s, [.call .isConnected, .ret (.bool true)]) := by
  have h1 := C51_violated (.monitor h) he
  have h3 : connLocked .monitor s.bg = false := by
    have h2 := h.gexec.ending
    rcases he with he | he
    · rw [h2.crash] at he; simp [connLocked, he]
    · rw [h2.exit] at he; simp [connLocked, he]
  obtain ⟨bg, api, w⟩ := s
  simp only at hi hr h1 h3
  subst hi
  simp [mrunEvs, mstep, mapiStep, mcallStep, mapiCall, mfinish, h1, h3, hr]

example : ∃ s tr, MExec .release s tr ∧ Obs.crash ∈ tr ∧ s.api = .idle ∧ s.bg.rxOpen = true := by
  have h2 : bgRun .monitor .release (linkUp .monitor conn7) [.dgram killer]
      = some ({ linkUp .monitor conn7 with pc := .crashed }, [.rx killer, .crash]) := by rfl
  exact ⟨_, _, (mexec_link .release grants7).append (bgRun_mrun (s := ⟨linkUp .monitor conn7, .idle, []⟩) h2), by decide, rfl, rfl⟩

/-! ## C52 -/

/-- C52, the part that holds: a connection is given up only for one of these reasons, observed since it was established: a failed
receive, a failed send of the task, a closed message channel, a datagram that does not decode, or a connection state other
than "no error". Silence is not among them. -/
theorem C52_reasons_partial {m : Mode} {k : Kind} {s : Bg} {tr : List Obs} (h : Reaches m k s tr)
    (hd : Obs.down ∈ since isUp tr) : ∃ x ∈ since isUp tr,
      x = .rxErr ∨ (∃ p, x = .txFail .task p) ∨ x = .closed ∨
      ∃ d, x = .rx d ∧ d ≠ [] ∧ ((∀ y, ¬ Decodes (seen d) y) ∨ ∃ r, Decodes (seen d) (.connectionstateResponse r) ∧ r.status ≠ 0) :=
  h.gexec.downs (Or.inr hd)

/-- The client after `n` heart beats on a connection. -/
def beats (r : ConnectionResponse) (n : Nat) : Sys := ⟨{ linkUp .client r with now := 60000 * n, hbDue := 60000 * n }, .idle⟩

theorem nextTick_self (x : Nat) : nextTick x x = x + 60000 := by
  unfold nextTick; split <;> rfl

theorem beats_run (m : Mode) (r : ConnectionResponse) (n : Nat) :
    PromptRun m (beats r 0) (times n [.tick, .tx .task (ConnectionstateRequest.mk r.channel r.dataEndpoint).packet]) (beats r n) := by
  induction n with
  | zero => exact .nil _
  | succ n ih =>
    rw [show times (n + 1) [Obs.tick, .tx .task (ConnectionstateRequest.mk r.channel r.dataEndpoint).packet]
      = times n [.tick, .tx .task (ConnectionstateRequest.mk r.channel r.dataEndpoint).packet]
        ++ [.tick, .tx .task (ConnectionstateRequest.mk r.channel r.dataEndpoint).packet] by
      simp [times, List.replicate_succ', List.flatten_append]]
    refine ih.trans ?_
    have h1 : Knx.step m (beats r n) (.bg .tick)
        = some (⟨{ linkUp .client r with now := 60000 * n, hbDue := 60000 * (n + 1), pc := .hb r.channel r.dataEndpoint }, .idle⟩, [.tick]) := by
      simp [Knx.step, beats, bgStep, tickStep, linkUp, Bg.init, inSelect, busy, Conn.ofResponse, nextTick_self]
      omega
    have h2 : Knx.step m ⟨{ linkUp .client r with now := 60000 * n, hbDue := 60000 * (n + 1), pc := .hb r.channel r.dataEndpoint }, .idle⟩ (.bg .sendOk)
        = some (⟨{ linkUp .client r with now := 60000 * n, hbDue := 60000 * (n + 1) }, .idle⟩,
          [.tx .task (ConnectionstateRequest.mk r.channel r.dataEndpoint).packet]) := by
      simp [Knx.step, bgStep, linkUp, Bg.init]
    have h3 : Knx.step m ⟨{ linkUp .client r with now := 60000 * n, hbDue := 60000 * (n + 1) }, .idle⟩ (.delay 60000)
        = some (beats r (n + 1), []) := by
      simp [Knx.step, beats]
      omega
    refine .step (.bg .tick) trivial h1 (.step (.bg .sendOk) trivial h2 (.step (.delay 60000) ?_ h3 (.nil _)))
    constructor
    · intro t ht
      simp [bgDeadline, linkUp, inSelect] at ht
      simp only
      omega
    · intro t ht
      simp [apiDeadline] at ht

/-- C52 is refuted: on every connection that can be established any number `n` of heart beats may remain unanswered, with
every timer firing on time: after `n` minutes `n` connection state requests have been sent, nothing has been received, and
the client is connected as before. -/
theorem C52_violated (m : Mode) (d : Bytes) (r : ConnectionResponse) (h : Grants d r) (n : Nat) :
    ∃ s s' tr, Exec m s (linkTrace .client d r) ∧ PromptRun m s tr s' ∧ received tr = [] ∧
      taskSent tr = List.replicate n (ConnectionstateRequest.mk r.channel r.dataEndpoint).packet ∧
      s'.bg.now = s.bg.now + 60000 * n ∧ s'.bg.conn = s.bg.conn ∧ s.bg.conn.isSome = true := by
  refine ⟨_, _, _, exec_link m h, beats_run m r n, ?_, ?_, ?_, rfl, rfl⟩
  · induction n with
    | zero => rfl
    | succ n ih =>
      simp only [times, List.replicate_succ, List.flatten_cons] at ih ⊢
      rw [received_append, ih]; rfl
  · induction n with
    | zero => rfl
    | succ n ih =>
      simp only [times, List.replicate_succ, List.flatten_cons] at ih ⊢
      rw [show ∀ a b : List Obs, taskSent (a ++ b) = taskSent a ++ taskSent b from fun a b => by simp [taskSent], ih]; rfl
  · simp [beats, linkUp, Bg.init]

end Knx
