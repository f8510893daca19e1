import Verif.Lemmas.Invariants2

/-!
# Invariants of the background task: nothing missing, message channel, sequence numbers, end
-/

namespace Knx
open Spec

@[simp] theorem interrupts_append (a b : List Obs) : interrupts (a ++ b) = interrupts a + interrupts b := by
  simp [interrupts, List.countP_append]
@[simp] theorem ackFailures_append (a b : List Obs) : ackFailures (a ++ b) = ackFailures a + ackFailures b := by
  simp [ackFailures, List.countP_append]
@[simp] theorem closings_append (a b : List Obs) : closings (a ++ b) = closings a + closings b := by
  simp [closings, List.countP_append]

theorem EnvFacts.ackFailures {s s' : Bg} {o : List Obs} (f : EnvFacts s s' o) : ackFailures o = 0 := by
  have h : Spec.ackFailures o ≤ Spec.taskSendFailures o := by
    refine List.countP_mono_left fun x _ => ?_
    cases x with
    | txFail w _ => cases w <;> simp
    | _ => simp
  rw [f.failures] at h
  omega

open Classical in
/-- Number of received datagrams that need an acknowledgement. -/
noncomputable def needing (l : List Bytes) : Nat := l.countP fun d => decide (NeedsAck d)

open Classical in
/-- Number of datagrams that carry a telegram. -/
noncomputable def carrying (m : Mode) (l : List Bytes) : Nat := l.countP fun d => decide (HasTelegram m d)

theorem needing_append (a b : List Bytes) : needing (a ++ b) = needing a + needing b := by
  simp [needing, List.countP_append]

theorem carrying_append (m : Mode) (a b : List Bytes) : carrying m (a ++ b) = carrying m a + carrying m b := by
  simp [carrying, List.countP_append]

theorem needing_one (d : Bytes) : needing [d] ≤ 1 := by
  have := List.countP_le_length (l := [d]) (p := fun d => @decide (NeedsAck d) (Classical.propDecidable _))
  simpa [needing] using this

theorem needing_zero {d : Bytes} (h : ¬ NeedsAck d) : needing [d] = 0 := by
  simp [needing, h]

theorem needing_nil : needing [] = 0 := rfl

theorem carrying_one (m : Mode) (d : Bytes) : carrying m [d] ≤ 1 := by
  have := List.countP_le_length (l := [d]) (p := fun d => @decide (HasTelegram m d) (Classical.propDecidable _))
  simpa [carrying] using this

theorem carrying_zero {m : Mode} {d : Bytes} (h : ¬ HasTelegram m d) : carrying m [d] = 0 := by
  simp [carrying, h]

theorem HasTelegram.iff {m : Mode} {d : Bytes} {t : TunnelingRequest} (h : Decodes (seen d) (.tunnelingRequest t)) :
    HasTelegram m d ↔ ∃ c, runRd (Cemi.fromPacket m) id t.cemi = .ok c := by
  constructor
  · rintro ⟨c, t', h1, h2⟩
    have := decodes_unique h h1
    cases this
    exact ⟨c, h2⟩
  · rintro ⟨c, hc⟩; exact ⟨c, t, h, hc⟩

theorem HasTelegram.not {m : Mode} {d : Bytes} {x : Response} (h : Decodes (seen d) x)
    (hx : ∀ t, x ≠ .tunnelingRequest t) : ¬ HasTelegram m d := by
  rintro ⟨c, t, h1, _⟩
  exact hx t (decodes_unique h h1)

/-- Nothing that needs an ack is missing, apart from interrupts and failures; nothing acknowledged that
carries a telegram is missing from the deliveries, apart from interrupts and a closed channel. -/
structure Complete (m : Mode) (pc : Pc) (tr : List Obs) : Prop where
  acks : needing (received tr) ≤ (ackSt tr).2.length + pendAck pc + interrupts tr + ackFailures tr
  del : carrying m (ackSt tr).2 ≤ (queued tr).length + pendPush pc + interrupts tr + closings tr

theorem Complete.env {m : Mode} {s s' : Bg} {tr o : List Obs} (h : Complete m s.pc tr) (f : EnvFacts s s' o) :
    Complete m s'.pc (tr ++ o) := by
  have e : ackSt (tr ++ o) = ackSt tr := by rw [ackSt_append, f.acked]
  constructor
  · rw [e, received_append, f.received, List.append_nil, f.pc, interrupts_append, f.interrupts,
      ackFailures_append, f.ackFailures]
    exact h.acks
  · rw [e, queued_append, f.queued, List.append_nil, f.pc, interrupts_append, f.interrupts,
      closings_append, f.closings]
    exact h.del

theorem Complete.still {m : Mode} {pc pc' : Pc} {tr o : List Obs} (h : Complete m pc tr)
    (h1 : received o = []) (h3 : queued o = []) (h4 : ∀ st, o.foldl ackedStep st = st)
    (h5 : pendAck pc ≤ pendAck pc' + interrupts o + ackFailures o)
    (h6 : pendPush pc ≤ pendPush pc' + interrupts o + closings o) :
    Complete m pc' (tr ++ o) := by
  have e : ackSt (tr ++ o) = ackSt tr := by rw [ackSt_append, h4]
  have := h.acks
  have := h.del
  constructor
  · rw [e, received_append, h1, List.append_nil, interrupts_append, ackFailures_append]; omega
  · rw [e, queued_append, h3, List.append_nil, interrupts_append, closings_append]; omega

theorem Complete.rx {m : Mode} {pc pc' : Pc} {tr o : List Obs} {d : Bytes} (h : Complete m pc tr)
    (h1 : received o = [d]) (h3 : queued o = []) (h4 : ∀ st, o.foldl ackedStep st = (some d, st.2))
    (h0 : pendAck pc = 0) (h5 : needing [d] ≤ pendAck pc') (h6 : pendPush pc = 0) :
    Complete m pc' (tr ++ o) := by
  have e : ackSt (tr ++ o) = (some d, (ackSt tr).2) := by rw [ackSt_append, h4]
  have := h.acks
  have := h.del
  constructor
  · rw [e, received_append, h1, needing_append, interrupts_append, ackFailures_append]; show _ ≤ (ackSt tr).2.length + _ + _ + _; omega
  · rw [e, queued_append, h3, List.append_nil, interrupts_append, closings_append]; show carrying m (ackSt tr).2 ≤ _; omega

theorem Complete.ack {m : Mode} {pc pc' : Pc} {tr o : List Obs} {d : Bytes} (h : Complete m pc tr)
    (hd : (ackSt tr).1 = some d) (h1 : received o = []) (h3 : queued o = [])
    (h4 : ∀ st, o.foldl ackedStep st = (none, st.2 ++ st.1.toList))
    (h5 : pendAck pc ≤ 1) (h6 : pendPush pc = 0) (h7 : carrying m [d] ≤ pendPush pc') :
    Complete m pc' (tr ++ o) := by
  have e : ackSt (tr ++ o) = (none, (ackSt tr).2 ++ [d]) := by rw [ackSt_append, h4, hd]; rfl
  have := h.acks
  have := h.del
  constructor
  · rw [e, received_append, h1, List.append_nil, List.length_append, interrupts_append, ackFailures_append]
    simp only [List.length_singleton]; omega
  · rw [e, queued_append, h3, List.append_nil, carrying_append, interrupts_append, closings_append]; omega

theorem ackFailures_single (ch sq : U8) : ackFailures [.txFail .task (TunnelingAck.mk ch sq 0).packet] = 1 := by
  have : serviceIs TUNNELING_ACK (TunnelingAck.mk ch sq 0).packet = true := serviceIs_ack ch sq
  simp [ackFailures, List.countP_cons, serviceIs_ack]

theorem not_needing {d : Bytes} {x : Response} (hp : parseResponse (buffer d) = .ok x)
    (h1 : ∀ t, x ≠ .tunnelingRequest t) (h2 : ∀ f, x ≠ .featureResponse f) : needing [d] = 0 := by
  refine needing_zero (not_needsAck fun y hy => ?_)
  rw [hp] at hy; cases hy; exact ⟨h1, h2⟩

theorem not_needing_fail {d : Bytes} (hp : ∀ x, parseResponse (buffer d) ≠ .ok x) : needing [d] = 0 :=
  needing_zero (not_needsAck fun y hy => absurd hy (hp y))

theorem pendAck_le_busy (pc : Pc) : pendAck pc ≤ 1 ∧ pendPush pc ≤ 1 := by
  cases pc <;> simp [pendAck, pendPush]

theorem GExec.complete {k : Kind} {m : Mode} {s : Bg} {tr : List Obs} (h : GExec k m s tr) : Complete m s.pc tr := by
  induction h with
  | init => exact ⟨Nat.zero_le _, Nat.zero_le _⟩
  | env _ he ih => exact ih.env he.facts
  | @task s s' tr o hx ht ih =>
    have prog := hx.ledger.del
    cases ht
    case connSendOk hpc => exact ih.still rfl rfl (by simp [ackedStep, serviceIs_connReq]) (by simp [hpc, pendAck]) (by simp [hpc, pendPush])
    case enableOk hpc => exact ih.still rfl rfl (by simp [ackedStep, serviceIs_enable]) (by simp [hpc, pendAck]) (by simp [hpc, pendPush])
    case hbOk hpc => exact ih.still rfl rfl (by simp [ackedStep, stateReq_not_ack]) (by simp [hpc, pendAck]) (by simp [hpc, pendPush])
    case discOk p hpc => exact absurd hpc (hx.conn_iff.2 p)
    case discFail p hpc => exact absurd hpc (hx.conn_iff.2 p)
    case recvEmpty hpc =>
      exact ih.rx (d := []) rfl rfl (by simp [ackedStep]) (by simp [hpc, pendAck])
        (by rw [needing_zero not_needsAck_nil]; omega) (by simp [hpc, pendPush])
    case recvErr d hpc hd hp =>
      exact ih.rx (d := d) rfl rfl (by simp [ackedStep]) (by simp [hpc, pendAck])
        (by rw [not_needing_fail (by simp [hp])]; omega) (by simp [hpc, pendPush])
    case recvPanic d hpc hd hp =>
      exact ih.rx (d := d) rfl rfl (by simp [ackedStep]) (by simp [hpc, pendAck])
        (by rw [not_needing_fail (by simp [hp])]; omega) (by simp [hpc, pendPush])
    case recvReq d r hpc hd hp =>
      exact ih.rx (d := d) rfl rfl (by simp [ackedStep]) (by simp [hpc, pendAck]) (needing_one d) (by simp [hpc, pendPush])
    case recvAck d r hpc hd hp =>
      exact ih.rx (d := d) rfl rfl (by simp [ackedStep]) (by simp [hpc, pendAck])
        (by rw [not_needing hp (by simp) (by simp)]; omega) (by simp [hpc, pendPush])
    case recvFeat d r hpc hd hp =>
      exact ih.rx (d := d) rfl rfl (by simp [ackedStep]) (by simp [hpc, pendAck]) (needing_one d) (by simp [hpc, pendPush])
    case recvStateOk d r hpc hd hp hs =>
      exact ih.rx (d := d) rfl rfl (by simp [ackedStep]) (by simp [hpc, pendAck])
        (by rw [not_needing hp (by simp) (by simp)]; omega) (by simp [hpc, pendPush])
    case recvStateBad d r hpc hd hp hs =>
      exact ih.rx (d := d) rfl rfl (by simp [ackedStep]) (by simp [hpc, pendAck])
        (by rw [not_needing hp (by simp) (by simp)]; omega) (by simp [hpc, pendPush])
    case recvDisc d r hpc hd hp =>
      exact ih.rx (d := d) rfl rfl (by simp [ackedStep]) (by simp [hpc, pendAck])
        (by rw [not_needing hp (by simp) (by simp)]; omega) (by simp [hpc, pendPush])
    case ackReqOk ch sq raw c hpc hc =>
      obtain ⟨ds0, _, hprog⟩ := prog
      rw [hpc] at hprog
      obtain ⟨⟨d, hd, hdec⟩, _⟩ := hprog
      exact ih.ack hd rfl rfl (by simp [ackedStep, serviceIs_ack]) (by simp [hpc, pendAck]) (by simp [hpc, pendPush])
        (carrying_one m d)
    case ackReqBad ch sq raw hpc hc =>
      obtain ⟨ds0, _, hprog⟩ := prog
      rw [hpc] at hprog
      obtain ⟨⟨d, hd, hdec⟩, _⟩ := hprog
      exact ih.ack hd rfl rfl (by simp [ackedStep, serviceIs_ack]) (by simp [hpc, pendAck]) (by simp [hpc, pendPush])
        (by rw [carrying_zero (by rw [HasTelegram.iff hdec, hc]; simp)]; omega)
    case ackReqPanic ch sq raw hpc hc =>
      obtain ⟨ds0, _, hprog⟩ := prog
      rw [hpc] at hprog
      obtain ⟨⟨d, hd, hdec⟩, _⟩ := hprog
      exact ih.ack hd rfl rfl (by simp [ackedStep, serviceIs_ack]) (by simp [hpc, pendAck]) (by simp [hpc, pendPush])
        (by rw [carrying_zero (by rw [HasTelegram.iff hdec, hc]; simp)]; omega)
    case ackFeatOk ch sq hpc =>
      obtain ⟨ds0, _, hprog⟩ := prog
      rw [hpc] at hprog
      obtain ⟨⟨d, f, v, u, hd, hdec⟩, _⟩ := hprog
      exact ih.ack hd rfl rfl (by simp [ackedStep, serviceIs_ack]) (by simp [hpc, pendAck]) (by simp [hpc, pendPush])
        (by rw [carrying_zero (HasTelegram.not hdec (by simp))]; omega)
    case ackReqFail ch sq raw hpc =>
      exact ih.still rfl rfl (by simp [ackedStep]) (by rw [ackFailures_single]; simp [hpc, pendAck]) (by simp [hpc, pendPush])
    case ackFeatFail ch sq hpc =>
      exact ih.still rfl rfl (by simp [ackedStep]) (by rw [ackFailures_single]; simp [hpc, pendAck]) (by simp [hpc, pendPush])
    case pushClosed c hpc ho =>
      exact ih.still rfl rfl (by simp [ackedStep]) (by simp [hpc, pendAck]) (by simp [hpc, pendPush, closings])
    case pushOk c hpc ho hl =>
      have e : ackSt (tr ++ [.queued c]) = ackSt tr := by rw [ackSt_append]; rfl
      have h1 := ih.acks
      have h2 := ih.del
      rw [hpc] at h1 h2
      simp only [pendAck, pendPush] at h1 h2
      constructor
      · rw [e, received_append, show received [.queued c] = [] from rfl, List.append_nil, interrupts_append,
          ackFailures_append, show interrupts [.queued c] = 0 from rfl, show ackFailures [.queued c] = 0 from rfl]
        simpa [pendAck] using h1
      · rw [e, queued_append, show queued [.queued c] = [c] from rfl, interrupts_append, closings_append,
          show interrupts [.queued c] = 0 from rfl, show closings [.queued c] = 0 from rfl, List.length_append]
        simp only [List.length_singleton, pendPush]; omega
    case tickBusy =>
      have := pendAck_le_busy s.pc
      exact ih.still rfl rfl (by simp [ackedStep]) (by simp [interrupts]; omega) (by simp [interrupts]; omega)
    case tickBusyNone =>
      have := pendAck_le_busy s.pc
      exact ih.still rfl rfl (by simp [ackedStep]) (by simp [interrupts]; omega) (by simp [interrupts]; omega)
    all_goals exact ih.still rfl rfl (by simp [ackedStep]) (by simp [*, pendAck]) (by simp [*, pendPush])

/-! ## The message channel -/

/-- What was taken and what is still queued is what was queued; the channel never holds more than 100. -/
structure Channel (s : Bg) (tr : List Obs) : Prop where
  opened : s.rxOpen = true → taken tr ++ s.queue = queued tr ∧ Obs.dropped ∉ tr
  closed : s.rxOpen = false → s.queue = [] ∧ taken tr <+: queued tr ∧ Obs.dropped ∈ tr
  bound : s.queue.length ≤ 100

theorem Channel.same {s s' : Bg} {tr o : List Obs} (h : Channel s tr) (hq : s'.queue = s.queue)
    (hr : s'.rxOpen = s.rxOpen) (ho : taken o = []) (hu : queued o = []) (hd : Obs.dropped ∉ o) : Channel s' (tr ++ o) := by
  constructor
  · intro hx
    have := h.opened (hr ▸ hx)
    rw [taken_append, queued_append, ho, hu, List.append_nil, List.append_nil, hq]
    exact ⟨this.1, by simp [this.2, hd]⟩
  · intro hx
    have := h.closed (hr ▸ hx)
    rw [taken_append, queued_append, ho, hu, List.append_nil, List.append_nil, hq]
    exact ⟨this.1, this.2.1, by simp [this.2.2]⟩
  · rw [hq]; exact h.bound

theorem GExec.channel {k : Kind} {m : Mode} {s : Bg} {tr : List Obs} (h : GExec k m s tr) : Channel s tr := by
  induction h with
  | init => exact ⟨fun _ => ⟨rfl, by simp⟩, fun h => by simp [Bg.init] at h, by simp [Bg.init]⟩
  | @task s s' tr o hx ht ih =>
    cases ht
    case pushOk c hpc ho hl =>
      constructor
      · intro _
        have := ih.opened ho
        rw [taken_append, queued_append, ← this.1]
        exact ⟨by simp [taken, queued], by simp [this.2]⟩
      · intro h; simp [ho] at h
      · simp; omega
    all_goals exact ih.same rfl rfl rfl rfl (by simp)
  | @env s s' tr o hx he ih =>
    cases he
    case quiet hq =>
      have := quiet_spec hq
      exact ih.same rfl rfl this.2.2.2.1 this.2.2.1 this.2.2.2.2.2.2.2.2.2.2.2.2.2.1
    case subs hq =>
      have := quiet_spec hq
      exact ih.same rfl rfl this.2.2.2.1 this.2.2.1 this.2.2.2.2.2.2.2.2.2.2.2.2.2.1
    case draw => exact ih.same rfl rfl rfl rfl (by simp)
    case chans => exact ih.same rfl rfl rfl rfl (by simp)
    case delay => exact ih.same rfl rfl rfl rfl (by simp)
    case take i c rest o hqu hq =>
      have hs := quiet_spec hq
      have e1 : taken (.taken i c :: o) = [c] := by
        show c :: taken o = [c]
        rw [hs.2.2.2.1]
      have e2 : queued (.taken i c :: o) = [] := hs.2.2.1
      constructor
      · intro hr
        have := ih.opened hr
        rw [taken_append, queued_append, e1, e2, List.append_nil, ← this.1, hqu]
        exact ⟨by simp, by simp [this.2, hs.2.2.2.2.2.2.2.2.2.2.2.2.2.1]⟩
      · intro hr
        have := (ih.closed hr).1
        rw [hqu] at this; cases this
      · have := ih.bound
        rw [hqu] at this
        simp at this ⊢; omega
    case drop hr =>
      have := ih.opened hr
      constructor
      · intro h; simp at h
      · intro _
        refine ⟨rfl, ?_, by simp⟩
        rw [taken_append, queued_append, ← this.1]
        exact ⟨s.queue, by simp [taken, queued]⟩
      · simp

/-! ## Sequence numbers -/

/-- First sequence number of a connection. -/
def firstSeq : Kind → U8
  | .client => 0
  | .monitor => 1

theorem GExec.sequence {k : Kind} {m : Mode} {s : Bg} {tr : List Obs} (h : GExec k m s tr) :
    ∃ n, drawn (since isUp tr) = (List.range n).map (fun i => firstSeq k + BitVec.ofNat 8 i) ∧
      ∀ c, s.conn = some c → c.seq = firstSeq k + BitVec.ofNat 8 n := by
  have skip : ∀ {s s' : Bg} {tr o : List Obs},
      (∃ n, drawn (since isUp tr) = (List.range n).map (fun i => firstSeq k + BitVec.ofNat 8 i) ∧
        ∀ c, s.conn = some c → c.seq = firstSeq k + BitVec.ofNat 8 n) →
      o.any isUp = false → drawn o = [] → (∀ c, s'.conn = some c → s.conn = some c) →
      (∃ n, drawn (since isUp (tr ++ o)) = (List.range n).map (fun i => firstSeq k + BitVec.ofNat 8 i) ∧
        ∀ c, s'.conn = some c → c.seq = firstSeq k + BitVec.ofNat 8 n) := by
    rintro s s' tr o ⟨n, h1, h2⟩ h3 h4 h5
    refine ⟨n, ?_, fun c hc => h2 c (h5 c hc)⟩
    rw [since_append, h3, if_neg (by simp), drawn_append, h4, List.append_nil, h1]
  induction h with
  | init => exact ⟨0, rfl, by simp [Bg.init]⟩
  | @task s s' tr o hx ht ih =>
    cases ht
    case storeClient r hpc hk =>
      subst hk
      refine ⟨0, ?_, ?_⟩
      · rw [since_append]; rfl
      · intro c hc; cases hc; rfl
    case storeMonitor r hpc hk =>
      subst hk
      refine ⟨0, ?_, ?_⟩
      · rw [since_append]; rfl
      · intro c hc; cases hc; rfl
    case teardown => exact skip ih rfl rfl (by simp)
    all_goals exact skip ih rfl rfl (fun c hc => hc)
  | @env s s' tr o hx he ih =>
    cases he
    case draw c hl hc =>
      obtain ⟨n, h1, h2⟩ := ih
      refine ⟨n + 1, ?_, ?_⟩
      · rw [since_append, show [Obs.drew c.seq].any isUp = false from rfl, if_neg (by simp), drawn_append, h1,
          List.range_succ, List.map_append, h2 c hc]
        rfl
      · intro c' hc'
        cases hc'
        simp only [h2 c hc]
        rw [BitVec.add_assoc, BitVec.ofNat_add]
        rfl
    case quiet hq =>
      have := quiet_spec hq
      exact skip ih this.2.2.2.2.2.2.1 this.2.2.2.2.2.1 (fun c hc => hc)
    case subs hq =>
      have := quiet_spec hq
      exact skip ih this.2.2.2.2.2.2.1 this.2.2.2.2.2.1 (fun c hc => hc)
    case take i c rest o hqu hq =>
      have := quiet_spec hq
      exact skip ih (by simpa [isUp] using this.2.2.2.2.2.2.1) (by simpa [drawn] using this.2.2.2.2.2.1) (fun c hc => hc)
    all_goals exact skip ih rfl rfl (fun c hc => hc)

/-! ## The end of the task -/

/-- A datagram that makes the handler panic. -/
def Fatal (m : Mode) (d : Bytes) : Prop :=
  (∃ (len : Nat) (channel seq pad : U8) (rest : Bytes),
    len < 10 ∧ seen d = header TUNNELING_REQUEST len ++ [4, channel, seq, pad] ++ rest) ∨
  ∃ t, Decodes (seen d) (.tunnelingRequest t) ∧ Cemi.fromPacket m t.cemi = .panic

structure Ending (m : Mode) (s : Bg) (tr : List Obs) : Prop where
  crash : Obs.crash ∈ tr ↔ s.pc = .crashed
  exit : Obs.exit ∈ tr ↔ s.pc = .done
  crashWhy : s.pc = .crashed → ∃ d, (received tr).getLast? = some d ∧ Fatal m d
  exitWhy : s.pc = .done → ∃ d r, (received tr).getLast? = some d ∧ Decodes (seen d) (.disconnectResponse r)
  last : ∀ ch sq raw, s.pc = .ackReq ch sq raw → ∃ d, (received tr).getLast? = some d ∧ Decodes (seen d) (.tunnelingRequest ⟨ch, sq, raw⟩)

theorem Ending.still {m : Mode} {s s' : Bg} {tr o : List Obs} (h : Ending m s tr) (hc : Obs.crash ∉ o) (hx : Obs.exit ∉ o)
    (h1 : s.pc ≠ .crashed) (h2 : s.pc ≠ .done)
    (h3 : s'.pc ≠ .crashed) (h4 : s'.pc ≠ .done) (h5 : ∀ ch sq raw, s'.pc ≠ .ackReq ch sq raw) : Ending m s' (tr ++ o) := by
  have := h.crash
  have := h.exit
  exact ⟨by simp_all, by simp_all, fun h => absurd h h3, fun h => absurd h h4, fun _ _ _ h => absurd h (h5 _ _ _)⟩

theorem Ending.env {m : Mode} {s s' : Bg} {tr o : List Obs} (h : Ending m s tr) (f : EnvFacts s s' o) : Ending m s' (tr ++ o) := by
  constructor
  · rw [f.pc, ← h.crash, List.mem_append]; simp [f.noCrash]
  · rw [f.pc, ← h.exit, List.mem_append]; simp [f.noExit]
  · rw [f.pc, received_append, f.received, List.append_nil]; exact h.crashWhy
  · rw [f.pc, received_append, f.received, List.append_nil]; exact h.exitWhy
  · rw [f.pc, received_append, f.received, List.append_nil]; exact h.last

theorem GExec.ending {k : Kind} {m : Mode} {s : Bg} {tr : List Obs} (h : GExec k m s tr) : Ending m s tr := by
  induction h with
  | init => exact ⟨by simp [Bg.init], by simp [Bg.init], by simp [Bg.init], by simp [Bg.init], by simp [Bg.init]⟩
  | env _ he ih => exact ih.env he.facts
  | @task s s' tr o hx ht ih =>
    cases ht
    case discOk p hpc => exact absurd hpc (hx.conn_iff.2 p)
    case discFail p hpc => exact absurd hpc (hx.conn_iff.2 p)
    case recvPanic d hpc hd hp =>
      have h1 := ih.exit
      refine ⟨by simp, by simp [h1, hpc], fun _ => ⟨d, by simp [received], Or.inl ?_⟩, by simp, by simp⟩
      rw [buffer_eq_seen] at hp
      exact (C20_panics_iff _).1 hp
    case recvDisc d r hpc hd hp =>
      have h1 := ih.crash
      exact ⟨by simp [h1, hpc], by simp, by simp, fun _ => ⟨d, r, by simp [received], parse_seen hp⟩, by simp⟩
    case recvReq d r hpc hd hp =>
      have h1 := ih.crash
      have h2 := ih.exit
      refine ⟨by simp [h1, hpc], by simp [h2, hpc], by simp, by simp, ?_⟩
      intro ch sq raw he
      cases he
      exact ⟨d, by simp [received], parse_seen hp⟩
    case ackReqPanic ch sq raw hpc hc =>
      have h1 := ih.exit
      refine ⟨by simp, by simp [h1, hpc], fun _ => ?_, by simp, by simp⟩
      obtain ⟨d, hd, hdec⟩ := ih.last _ _ _ hpc
      exact ⟨d, by simpa [received] using hd, Or.inr ⟨_, hdec, runRd_panic_iff.1 hc⟩⟩
    case tickBusy hb _ _ =>
      have h1 : s.pc ≠ .crashed := by intro h; rw [h] at hb; cases hb
      have h2 : s.pc ≠ .done := by intro h; rw [h] at hb; cases hb
      exact ih.still (by simp) (by simp) h1 h2 (by simp) (by simp) (by simp)
    case tickBusyNone hb _ _ =>
      have h1 : s.pc ≠ .crashed := by intro h; rw [h] at hb; cases hb
      have h2 : s.pc ≠ .done := by intro h; rw [h] at hb; cases hb
      exact ih.still (by simp) (by simp) h1 h2 (by simp) (by simp) (by simp)
    case recvEmpty hpc => exact ih.still (by simp) (by simp) (by simp [hpc]) (by simp [hpc]) (by simp [hpc]) (by simp [hpc]) (by simp [hpc])
    case recvAck hpc _ _ => exact ih.still (by simp) (by simp) (by simp [hpc]) (by simp [hpc]) (by simp [hpc]) (by simp [hpc]) (by simp [hpc])
    case recvStateOk hpc _ _ _ => exact ih.still (by simp) (by simp) (by simp [hpc]) (by simp [hpc]) (by simp [hpc]) (by simp [hpc]) (by simp [hpc])
    all_goals exact ih.still (by simp) (by simp) (by simp [*]) (by simp [*]) (by simp) (by simp) (by simp)

end Knx
