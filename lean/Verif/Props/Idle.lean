import Verif.Props.Timing
import Verif.Props.Transport

/-!
# Property of the acknowledgement of telegrams that nobody reads (C99)
-/

namespace Knx
open Spec

theorem one_telegram (k : Kind) (m : Mode) (s : Bg) {d : Bytes} {c : Cemi} (hpc : s.pc = .recv) (hr : s.rxOpen = true)
    (hq : s.queue.length < 100) (hc : Carries m d c) :
    ∃ p, AckFor p d ∧ bgRun k m s [.dgram d, .sendOk, .run] = some ({ s with queue := s.queue ++ [c] }, [.rx d, .tx .task p, .queued c]) := by
  obtain ⟨t, h1, h2⟩ := hc
  refine ⟨frame TUNNELING_ACK [4, t.channel, t.seq, 0], ⟨t.channel, t.seq, rfl, Or.inl ⟨t.cemi, h1⟩⟩, ?_⟩
  simp only [bgRun, bgStep, hpc, onDatagram_request h1, endObs, reduceCtorEq, if_false, h2, hr, hq, if_true, Option.map_some]
  rw [ack_packet]
  cases s; simp_all

/-- C99, the part that holds: as long as fewer than 100 telegrams are waiting to be read, telegrams are acknowledged and kept as soon as they arrive, any number of them
that fits, in order, whether or not calls are made. -/
theorem C99_burst_partial {m : Mode} {k : Kind} {s : Bg} {tr : List Obs} (_h : Reaches m k s tr) (hpc : s.pc = .recv) (hr : s.rxOpen = true)
    {ds : List Bytes} {cs : List Cemi} (hc : List.Forall₂ (Carries m) ds cs) (hq : s.queue.length + ds.length ≤ 100) :
    ∃ o, bgRun k m s (ds.flatMap fun d => [.dgram d, .sendOk, .run]) = some ({ s with queue := s.queue ++ cs }, o) ∧
      received o = ds ∧ List.Forall₂ AckFor (acksSent o) ds ∧ queued o = cs := by
  clear _h
  induction hc generalizing s with
  | nil => exact ⟨[], by cases s; simp [bgRun], rfl, .nil, rfl⟩
  | @cons d c ds cs h1 _ ih =>
    simp only [List.length_cons] at hq
    obtain ⟨p, hp, hs⟩ := one_telegram k m s hpc hr (by omega) h1
    obtain ⟨o, g1, g2, g3, g4⟩ := ih (s := { s with queue := s.queue ++ [c] }) hpc hr (by simp; omega)
    refine ⟨[.rx d, .tx .task p, .queued c] ++ o, ?_, ?_, ?_, ?_⟩
    · rw [List.flatMap_cons, bgRun_append hs, g1]
      simp
    · rw [received_append, g2]; rfl
    · rw [acksSent_append]
      obtain ⟨ch, sq, rfl, hp'⟩ := hp
      have : acksSent [Obs.rx d, .tx .task (frame TUNNELING_ACK [4, ch, sq, 0]), .queued c] = [frame TUNNELING_ACK [4, ch, sq, 0]] := by
        simp [acksSent, sent, serviceIs_frame]
      rw [this]
      exact .cons ⟨ch, sq, rfl, hp'⟩ g3
    · rw [queued_append, g4]; rfl

/-- Three telegrams for an idle client. -/
example : ∃ s tr, Reaches .debug .client s tr ∧ s.pc = .recv ∧ s.rxOpen = true ∧
    List.Forall₂ (Carries .debug) [req7, req7, req7] [tel7, tel7, tel7] ∧ s.queue.length + [req7, req7, req7].length ≤ 100 := by
  have h : Carries .debug req7 tel7 := by
    refine ⟨_, by rw [req7_eq]; exact decodes_request 7 0 0 _ (by simp), tel7_eq .debug⟩
  exact ⟨_, _, reaches_link .debug .client grants7, rfl, rfl, .cons h (.cons h (.cons h .nil)), by simp [linkUp, Bg.init]⟩

theorem GExec.opened {k : Kind} {m : Mode} {s : Bg} {tr : List Obs} (h : GExec k m s tr) (hd : Obs.dropped ∉ tr) :
    s.rxOpen = true ∧ closings tr = 0 := by
  induction h with
  | init => exact ⟨rfl, rfl⟩
  | @task s s' tr o _ ht ih =>
    rw [List.mem_append, not_or] at hd
    obtain ⟨h1, h2⟩ := ih hd.1
    have : closings (tr ++ o) = closings tr + closings o := by simp [closings, List.countP_append]
    rw [this, h2]
    cases ht <;> first | exact ⟨h1, rfl⟩ | (simp_all; done)
  | @env s s' tr o _ he ih =>
    rw [List.mem_append, not_or] at hd
    obtain ⟨h1, h2⟩ := ih hd.1
    have : closings (tr ++ o) = closings tr + closings o := by simp [closings, List.countP_append]
    rw [this, h2, he.facts.closings]
    refine ⟨?_, rfl⟩
    cases he <;> first | exact h1 | simp_all

theorem GExec.interrupts_le {k : Kind} {m : Mode} {s : Bg} {tr : List Obs} (h : GExec k m s tr) :
    60000 * interrupts tr ≤ s.hbDue := by
  induction h with
  | init => exact Nat.le_refl _
  | @task s s' tr o _ ht ih =>
    have e : interrupts (tr ++ o) = interrupts tr + interrupts o := by simp [interrupts, List.countP_append]
    rw [e]
    obtain ⟨h1, h2, h3, h4⟩ := ht.hbDue
    have h5 : interrupts o ≤ o.count .tick := by cases ht <;> simp [interrupts]
    have h6 := ht.ticks
    by_cases hm : Obs.tick ∈ o
    · obtain ⟨h7, h8⟩ := h3 hm
      have := nextTick_ge h7
      omega
    · have h8 : o.count .tick = 0 := List.count_eq_zero.2 hm
      have := h4 hm
      omega
  | @env s s' tr o _ he ih =>
    have e : interrupts (tr ++ o) = interrupts tr + interrupts o := by simp [interrupts, List.countP_append]
    rw [e, he.facts.interrupts, he.facts.hbDue]
    exact ih

open Classical in
/-- C99 is refuted: of the telegrams that the application does not read, client and monitor acknowledge, apart from 102, at most one per minute, however many
the server sends and however long the object exists. -/
theorem C99_violated {m : Mode} {k : Kind} {s : Bg} {tr : List Obs} (h : Reaches m k s tr) (hd : Obs.dropped ∉ tr) :
    60000 * ((acked tr).filter fun d => ∃ c, Carries m d c).length ≤ 60000 * ((taken tr).length + 102) + s.now := by
  have hg := h.gexec
  have h1 := C44_loss_bound h
  have h2 := (C43_fifo h).2.1 hd
  have h3 := C45_bounded h
  have h4 := hg.opened hd
  have h5 := hg.interrupts_le
  have h6 := hg.hbSoon
  have h7 : (queued tr).length = (taken tr).length + s.queue.length := by rw [← h2]; simp
  have h8 : ((acked tr).filter fun d => ∃ c, Carries m d c).length = carrying m (acked tr) := by
    rw [← List.countP_eq_length_filter]
    rfl
  rw [h8]
  omega

theorem blocked_run {k : Kind} {m : Mode} {s s' : Bg} {tr : List Obs} (h : GRun k m s tr s') {c : Cemi} (hpc : s.pc = .push c)
    (hq : s.queue.length = 100) (hr : s.rxOpen = true) (ht : taken tr = []) (hd : Obs.dropped ∉ tr) (hn : s'.now < s.hbDue) :
    received tr = [] ∧ taskSent tr = [] ∧ s'.pc = .push c := by
  induction h with
  | nil => exact ⟨rfl, rfl, hpc⟩
  | @task s s1 s2 o tr hb hrun ih =>
    exfalso
    have h1 := (GRun.task hb hrun).mono.2
    cases hb <;> first | omega | simp_all
  | @env s s1 s2 o tr he hrun ih =>
    have f := he.facts
    rw [List.mem_append, not_or] at hd
    rw [taken, List.filterMap_append, List.append_eq_nil_iff] at ht
    have hs : s1.queue = s.queue ∧ s1.rxOpen = s.rxOpen := by
      cases he <;> first | exact ⟨rfl, rfl⟩ | simp_all
    obtain ⟨h1, h2, h3⟩ := ih (f.pc ▸ hpc) (hs.1 ▸ hq) (hs.2 ▸ hr) ht.2 hd.2 (f.hbDue ▸ hn)
    refine ⟨?_, ?_, h3⟩
    · rw [received_append, f.received, h1]; rfl
    · have : taskSent (o ++ tr) = taskSent o ++ taskSent tr := by simp [taskSent]
      rw [this, f.taskSent, h2]; rfl

theorem received_times (n : Nat) :
    received (times n [Obs.rx req7, .tx .task (frame TUNNELING_ACK [4, 7, 0, 0]), .queued tel7]) = List.replicate n req7 ∧
    taken (times n [Obs.rx req7, .tx .task (frame TUNNELING_ACK [4, 7, 0, 0]), .queued tel7]) = [] := by
  induction n with
  | zero => exact ⟨rfl, rfl⟩
  | succ n ih =>
    have : times (n + 1) [Obs.rx req7, .tx .task (frame TUNNELING_ACK [4, 7, 0, 0]), .queued tel7]
      = [.rx req7, .tx .task (frame TUNNELING_ACK [4, 7, 0, 0]), .queued tel7]
        ++ times n [.rx req7, .tx .task (frame TUNNELING_ACK [4, 7, 0, 0]), .queued tel7] := by
      simp [times, List.replicate_succ]
    rw [this, received_append, ih.1, taken_append, ih.2]
    exact ⟨rfl, rfl⟩

/-- C99 is refuted: after 100 telegrams that nobody has read and one more, nothing is received and nothing is sent by the task for a minute, unless a call reads a telegram or the object
is dropped; whatever the server sends in this minute remains unanswered, and when it asks for the end of the connection it is not heard. -/
theorem C99_violated_minute (m : Mode) (k : Kind) : ∃ s tr, Reaches m k s tr ∧ received tr = List.replicate 101 req7 ∧ taken tr = [] ∧ Obs.dropped ∉ tr ∧ s.now = 0 ∧
    upNow tr = true ∧ ∀ s' tr', Goes m k s tr tr' s' → taken tr' = [] → Obs.dropped ∉ tr' → s'.now < 60000 →
      received tr' = [] ∧ taskSent tr' = [] := by
  have h1 := reaches_fill m k 100 (Nat.le_refl _)
  have e : onDatagram req7 = .ackReq 7 0 (cut [0x29, 0, 0xbc, 0xe0, 0x11, 2, 8, 1, 1, 0, 0x81]) := by
    rw [req7_eq]; exact onDatagram_request (decodes_request 7 0 0 _ (by simp))
  have h2 : bgRun k m { linkUp k conn7 with queue := List.replicate 100 tel7 } [.tick, .sendOk, .dgram req7, .sendOk]
      = some ({ linkUp k conn7 with queue := List.replicate 100 tel7, hbDue := 60000, pc := .push tel7 },
        [.tick, .tx .task (ConnectionstateRequest.mk 7 conn7.dataEndpoint).packet, .rx req7, .tx .task (frame TUNNELING_ACK [4, 7, 0, 0])]) := by
    simp only [bgRun, bgStep, linkUp, Bg.init, e, endObs, reduceCtorEq, if_false, if_true, tel7_eq, tickStep, inSelect,
      busy, Nat.le_refl, and_self, Option.map_some, nextTick, ack_packet]
    rfl
  have h3 := h1.append h2
  refine ⟨_, _, h3, ?_, ?_, ?_, rfl, ?_, ?_⟩
  · rw [received_append, received_append, (received_times 100).1, show received (linkTrace k grant7 conn7) = [] by cases k <;> rfl]
    change List.replicate 100 req7 ++ [req7] = _
    rw [← List.replicate_succ']
  · rw [taken_append, taken_append, (received_times 100).2, show taken (linkTrace k grant7 conn7) = [] by cases k <;> rfl]
    rfl
  · have : Obs.dropped ∉ linkTrace k grant7 conn7 := by cases k <;> simp [linkTrace]
    have h : ∀ n, Obs.dropped ∉ times n [.rx req7, .tx .task (frame TUNNELING_ACK [4, 7, 0, 0]), .queued tel7] := by
      intro n; simp [times]
    intro hx
    rcases List.mem_append.1 hx with hx | hx
    · rcases List.mem_append.1 hx with hx | hx
      · exact this hx
      · exact h _ hx
    · simp at hx
  · rw [← h3.gexec.upNow]; rfl
  · intro s' tr' hg ht hd hn
    obtain ⟨h4, h5, -⟩ := blocked_run hg.grun.2 (c := tel7) rfl (by simp) rfl ht hd hn
    exact ⟨h4, h5⟩

end Knx
