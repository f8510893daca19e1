import Verif.Lemmas.Timing
import Verif.Lemmas.Brackets
import Verif.Props.Session

/-!
# Timing: heart beats, reconnection, time limits of calls
-/

namespace Knx
open Spec

/-! ## C68 -/

/-- C68: in the whole life of the task there is at most one heart beat per minute (the first one may come at once). -/
theorem C68_rate {m : Mode} {k : Kind} {s : Bg} {tr : List Obs} (h : Reaches m k s tr) : 60000 * beatsSent tr ≤ s.now + 60000 := by
  have hg := h.gexec
  have key : ∀ {s : Bg} {tr : List Obs}, GExec k m s tr → GRun k m Bg.init tr s := by
    intro s tr h
    have app : ∀ {s0 s1 s2 : Bg} {t1 t2 : List Obs}, GRun k m s0 t1 s1 → GRun k m s1 t2 s2 → GRun k m s0 (t1 ++ t2) s2 := by
      intro s0 s1 s2 t1 t2 h1 h2
      induction h1 with
      | nil => exact h2
      | task ht _ ih => rw [List.append_assoc]; exact .task ht (ih h2)
      | env he _ ih => rw [List.append_assoc]; exact .env he (ih h2)
    induction h with
    | init => exact .nil _
    | task _ ht ih => exact app ih (by simpa using GRun.task ht (.nil _))
    | env _ he ih => exact app ih (by simpa using GRun.env he (.nil _))
  have h1 := (key hg).ticks.1
  have h2 := (key hg).beats (by intro p; simp [Bg.init])
  have h3 := hg.hbSoon
  have h4 : inHand Bg.init = 0 := rfl
  omega

/-- C68: and between any two moments: `n` heart beats take at least `n - 1` minutes less five milliseconds, not counting one that was
already being sent. -/
theorem C68_spacing {m : Mode} {k : Kind} {s s' : Bg} {tr tr' : List Obs} (h : Goes m k s tr tr' s') :
    60000 * tr'.count .tick ≤ (s'.now - s.now) + 60005 ∧ beatsSent tr' ≤ tr'.count .tick + 1 := by
  obtain ⟨h1, h2⟩ := h.grun
  have h3 := h2.ticks.2
  have h4 := h2.beats h1.noDisc
  have h5 := (h1.append h2).hbSoon
  have h6 := h2.mono.2
  have h7 : inHand s ≤ 1 := by unfold inHand; split <;> omega
  refine ⟨?_, by omega⟩
  rcases Nat.eq_zero_or_pos (tr'.count .tick) with h0 | h0
  · omega
  · have := h3 h0
    omega

/-- The task is waiting for datagrams or dealing with one. -/
theorem select_run {k : Kind} {m : Mode} {s s' : Bg} {tr : List Obs} (h : GPRun k m s tr s') (hs : inSelect s.pc = true)
    (ht : Obs.tick ∉ tr) (hd : NoDisc s) :
    (inSelect s'.pc = true ∧ s'.hbDue = s.hbDue ∧ s'.now ≤ max s.now s.hbDue) ∨ (∃ x ∈ tr, Breaking x) ∨ Obs.exit ∈ tr ∨ Obs.crash ∈ tr := by
  induction h with
  | nil => exact Or.inl ⟨hs, rfl, Nat.le_max_left _ _⟩
  | @task s s1 s2 o tr hb hrun ih =>
    rw [List.mem_append, not_or] at ht
    have old : (inSelect s1.pc = true ∨ (∃ x ∈ o, Breaking x) ∨ Obs.exit ∈ o ∨ Obs.crash ∈ o) := by
      cases hb
      case recvErr d hpc hd hp =>
        exact Or.inr (Or.inl ⟨.rx d, by simp, Or.inr (Or.inr (Or.inr ⟨d, rfl, hd, Or.inl (parse_err_not_decodes hp)⟩))⟩)
      case recvStateBad d r hpc hd hp hs =>
        exact Or.inr (Or.inl ⟨.rx d, by simp, Or.inr (Or.inr (Or.inr ⟨d, rfl, hd, Or.inr ⟨r, parse_seen hp, hs⟩⟩))⟩)
      case recvIoErr => exact Or.inr (Or.inl ⟨.rxErr, by simp, Or.inl rfl⟩)
      case ackReqFail ch sq raw hpc => exact Or.inr (Or.inl ⟨_, by simp; rfl, Or.inr (Or.inl ⟨_, rfl⟩)⟩)
      case ackFeatFail ch sq hpc => exact Or.inr (Or.inl ⟨_, by simp; rfl, Or.inr (Or.inl ⟨_, rfl⟩)⟩)
      case pushClosed => exact Or.inr (Or.inl ⟨.closed, by simp, Or.inr (Or.inr (Or.inl rfl))⟩)
      case recvPanic => exact Or.inr (Or.inr (Or.inr (by simp)))
      case ackReqPanic => exact Or.inr (Or.inr (Or.inr (by simp)))
      case recvDisc => exact Or.inr (Or.inr (Or.inl (by simp)))
      case discOk p hpc => exact absurd hpc (hd p)
      case discFail p hpc => exact absurd hpc (hd p)
      case recvReq => exact Or.inl rfl
      case recvFeat => exact Or.inl rfl
      case ackReqOk => exact Or.inl rfl
      case ackReqBad => exact Or.inl rfl
      case ackFeatOk => exact Or.inl rfl
      case pushOk => exact Or.inl rfl
      case recvEmpty => exact Or.inl hs
      case recvAck => exact Or.inl hs
      case recvStateOk => exact Or.inl hs
      all_goals (exfalso; simp_all [inSelect])
    have hn := hb.hbDue
    rcases old with h1 | ⟨x, hx, h1⟩ | h1 | h1
    · rcases ih h1 ht.2 (hd.task hb) with h | ⟨x, hx, h⟩ | h | h
      · rw [hn.2.2.2 ht.1, hn.2.1] at h
        exact Or.inl h
      · exact Or.inr (Or.inl ⟨x, List.mem_append_right _ hx, h⟩)
      · exact Or.inr (Or.inr (Or.inl (List.mem_append_right _ h)))
      · exact Or.inr (Or.inr (Or.inr (List.mem_append_right _ h)))
    · exact Or.inr (Or.inl ⟨x, List.mem_append_left _ hx, h1⟩)
    · exact Or.inr (Or.inr (Or.inl (List.mem_append_left _ h1)))
    · exact Or.inr (Or.inr (Or.inr (List.mem_append_left _ h1)))
  | @env s s1 s2 o tr he hw hrun ih =>
    rw [List.mem_append, not_or] at ht
    have f := he.facts
    rcases ih (by rw [f.pc]; exact hs) ht.2 (hd.env he) with h | ⟨x, hx, h⟩ | h | h
    · left
      rw [f.hbDue] at h
      refine ⟨h.1, h.2.1, ?_⟩
      rcases hw with hw | hw
      · rw [hw] at h; exact h.2.2
      · have : s1.now ≤ s.hbDue := by
          apply hw
          revert hs
          unfold bgDeadline
          cases s.pc <;> simp [inSelect]
        omega
    · exact Or.inr (Or.inl ⟨x, List.mem_append_right _ hx, h⟩)
    · exact Or.inr (Or.inr (Or.inl (List.mem_append_right _ h)))
    · exact Or.inr (Or.inr (Or.inr (List.mem_append_right _ h)))

/-- C68: when timers fire on time, a heart beat is sent at least every minute: a minute after a heart beat was sent, either the next one
has become due, or something was observed that ends the connection or the task. -/
theorem C68_at_least {m : Mode} {k : Kind} {s s1 s2 : Bg} {tr tr' : List Obs} {ch : U8} {ep : Hpai}
    (h1 : bgStep k m s .sendOk = some (s1, [.tx .task (frame CONNECTIONSTATE_REQUEST ([ch, 0] ++ hpai ep))]))
    (h2 : GoesPromptly m k s1 (tr ++ [.tx .task (frame CONNECTIONSTATE_REQUEST ([ch, 0] ++ hpai ep))]) tr' s2)
    (h3 : s.now + 60000 < s2.now) :
    Obs.tick ∈ tr' ∨ (∃ x ∈ tr', Breaking x) ∨ Obs.exit ∈ tr' ∨ Obs.crash ∈ tr' := by
  have ht := bgStep_tr h1
  have hg := h2.goes.grun.1
  have hp : s1.pc = .recv ∧ s1.now = s.now := by
    have hne : ∀ p : Bytes, serviceIs CONNECTIONSTATE_REQUEST p = false → p ≠ frame CONNECTIONSTATE_REQUEST ([ch, 0] ++ hpai ep) := by
      rintro p hp rfl
      rw [serviceIs_frame] at hp
      exact absurd hp (by simp)
    generalize he : [Obs.tx .task (frame CONNECTIONSTATE_REQUEST ([ch, 0] ++ hpai ep))] = o at ht
    cases ht
    case hbOk => exact ⟨rfl, rfl⟩
    case connSendOk => simp at he; exact absurd he.symm (hne _ connReq_not_state)
    case enableOk r _ => simp at he; exact absurd he.symm (hne _ (enable_not_state _))
    case ackReqOk => simp at he; exact absurd he.symm (hne _ (ack_not_state _ _ _))
    case ackReqBad => simp at he; exact absurd he.symm (hne _ (ack_not_state _ _ _))
    case ackFeatOk => simp at he; exact absurd he.symm (hne _ (ack_not_state _ _ _))
    all_goals simp at he
  by_cases htick : Obs.tick ∈ tr'
  · exact Or.inl htick
  · rcases select_run h2.gprun (by rw [hp.1]; rfl) htick hg.noDisc with h | h
    · have := hg.hbSoon
      omega
    · exact Or.inr h

/-- C68: a due heart beat can be sent, at any time while the task waits for datagrams or deals with one. -/
theorem C68_ready {m : Mode} {k : Kind} {s : Bg} {tr : List Obs} (h : Reaches m k s tr) (h1 : inSelect s.pc = true)
    (h2 : s.hbDue ≤ s.now) : ∃ r s1 s2 o, lastUp tr = some r ∧ bgStep k m s .tick = some (s1, .tick :: o) ∧
      bgStep k m s1 .sendOk = some (s2, [.tx .task (frame CONNECTIONSTATE_REQUEST ([r.channel, 0] ++ hpai r.dataEndpoint))]) := by
  have hg := h.gexec
  have hc : s.conn.isSome = true := by
    have := hg.conn_iff.1
    revert h1 this
    cases s.pc <;> simp [inSelect, pcUp]
  obtain ⟨c, hc⟩ := Option.isSome_iff_exists.1 hc
  obtain ⟨r, h3, h4, h5⟩ := hg.grants.2.2 c hc
  refine ⟨r, { s with hbDue := nextTick s.now s.hbDue, pc := .hb c.channel c.endpoint }, 
    { s with hbDue := nextTick s.now s.hbDue, pc := .recv }, if busy s.pc then [.interrupt] else [], h3, ?_, ?_⟩
  · simp only [bgStep, tickStep, h1, h2, hc, if_true, and_self]
    split <;> rfl
  · simp only [bgStep, reduceCtorEq, if_false, C19_bodies.1, h4, h5]

/-- The bound is reached: three heart beats within two minutes. -/
example (m : Mode) : ∃ s tr, Reaches m .client s tr ∧ s.now = 120000 ∧ beatsSent tr = 3 := by
  obtain ⟨s, tr, h1, h2⟩ := exec_of_evs (m := m) (evs := [.bg .run, .bg .sendOk, .bg (.dgram grant7), .bg .run, .bg .tick, .bg .sendOk,
    .delay 60000, .bg .tick, .bg .sendOk, .delay 60000, .bg .tick, .bg .sendOk])
    (f := fun x => (x.1.bg.now, beatsSent x.2)) (y := (120000, 3)) (by cases m <;> decide +kernel)
  simp only [Prod.mk.injEq] at h2
  exact ⟨_, _, .client h1, h2.1, h2.2⟩

/-- A heart beat, then more than a minute with timers on time, without anything wrong, and with a telegram on the way. -/
example (m : Mode) : ∃ s tr s' tr', Exec m s tr ∧ PromptRun m s tr' s' ∧
    tr.getLast? = some (.tx .task (frame CONNECTIONSTATE_REQUEST ([7, 0] ++ hpai conn7.dataEndpoint))) ∧
    s.bg.now + 60000 < s'.bg.now ∧ tr'.count .tick = 1 ∧ tr'.count (.rx req7) = 1 ∧ s'.bg.pc = .recv := by
  obtain ⟨s, tr, s', tr', h1, h2, h3⟩ := prompt_of_evs (m := m)
    (evs := [.bg .run, .bg .sendOk, .bg (.dgram grant7), .bg .run, .bg .tick, .bg .sendOk])
    (evs' := [.delay 40000, .bg (.dgram req7), .bg .sendOk, .bg .run, .delay 20000, .bg .tick, .bg .sendOk, .delay 7])
    (f := fun x y => ((x.2.getLast?, decide (x.1.bg.now + 60000 < y.1.bg.now)), y.2.count .tick, y.2.count (.rx req7), y.1.bg.pc))
    (y := ((some (.tx .task (frame CONNECTIONSTATE_REQUEST ([7, 0] ++ hpai conn7.dataEndpoint))), true), 1, 1, .recv))
    (by cases m <;> decide +kernel)
  simp only [Prod.mk.injEq, decide_eq_true_eq] at h3
  exact ⟨s, tr, s', tr', h1, h2, h3.1.1, h3.1.2, h3.2.1, h3.2.2.1, h3.2.2.2⟩

/-! ## C69 -/

theorem GExec.enableFails {m : Mode} {s : Bg} {tr : List Obs} (h : GExec .client m s tr) (ch : U8) :
    Obs.txFail .task (enablePacket ch) ∉ tr := by
  have e : enablePacket ch = frame TUNNELING_FEATURE_SET [4, ch, 0, 0, 8, 0, 1] := by
    rw [enablePacket, C19_bodies.2.2.2.2.1]; rfl
  have hs : serviceIs TUNNELING_FEATURE_SET (enablePacket ch) = true := by rw [e, serviceIs_frame]; rfl
  have ne : ∀ p, serviceIs TUNNELING_FEATURE_SET p = false → Obs.txFail .task (enablePacket ch) ≠ .txFail .task p := by
    intro p hp he
    cases he
    rw [hp] at hs; cases hs
  induction h with
  | init => simp
  | @task s s' tr o hx ht ih =>
    rw [List.mem_append, not_or]
    refine ⟨ih, ?_⟩
    have hn := hx.clientNoEnable
    have hd := hx.noDisc
    cases ht
    case enableFail r hpc => exact absurd hpc (hn r)
    case connSendFail => simpa using ne _ (by decide)
    case ackReqFail ch sq _ _ => simpa using ne _ (by rw [C19_bodies.2.2.2.1, serviceIs_frame]; decide)
    case ackFeatFail ch sq _ => simpa using ne _ (by rw [C19_bodies.2.2.2.1, serviceIs_frame]; decide)
    case hbFail ch ep _ => simpa using ne _ (by rw [C19_bodies.1, serviceIs_frame]; decide)
    case discFail p hpc => exact absurd hpc (hd p)
    all_goals simp
  | @env s s' tr o hx he ih =>
    rw [List.mem_append, not_or]
    refine ⟨ih, ?_⟩
    cases he
    case quiet hq => exact fun hm => by simpa [Knx.quiet] using hq _ hm
    case take hq => intro hm; rcases List.mem_cons.1 hm with hm | hm; cases hm; simpa [Knx.quiet] using hq _ hm
    case subs hq => exact fun hm => by simpa [Knx.quiet] using hq _ hm
    all_goals simp

/-- C69, the part that holds: as long as no connection is established (and, on the monitor, no attempt is broken off because the feature
request cannot be sent), attempts to connect are at least ten seconds apart: `n` attempts take at least `n - 1` times ten seconds. -/
theorem C69_rate_partial {m : Mode} {k : Kind} {s s' : Bg} {tr tr' : List Obs} (h : Goes m k s tr tr' s') (hu : ∀ r, Obs.up r ∉ tr')
    (hf : k = .monitor → ∀ ch, Obs.txFail .task (frame TUNNELING_FEATURE_SET [4, ch, 0, 0, 8, 0, 1]) ∉ tr') :
    10000 * attempts tr' ≤ (s'.now - s.now) + 10000 := by
  obtain ⟨h1, h2⟩ := h.grun
  have e : ∀ ch, enablePacket ch = frame TUNNELING_FEATURE_SET [4, ch, 0, 0, 8, 0, 1] := by
    intro ch; rw [enablePacket, C19_bodies.2.2.2.2.1]; rfl
  have h3 := (h2.attempts h1.noDisc hu (by
    cases k with
    | client => exact fun ch hm => (h1.append h2).enableFails ch (List.mem_append_right _ hm)
    | monitor => intro ch; rw [e]; exact hf rfl ch)).2
  have := h2.mono.2
  omega

/-- An attempt to connect made at time `t` is not yet over, and within its time. -/
def Trying (t : Nat) (s : Bg) : Prop :=
  match s.pc with
  | .connWait d => s.now ≤ d ∧ d ≤ t + 30000
  | .connSleep d => s.now ≤ d ∧ d ≤ t + 40000
  | .connSend => True
  | _ => False

theorem Trying.run {k : Kind} {m : Mode} {s s' : Bg} {tr : List Obs} {t : Nat} (h : GPRun k m s tr s') (ht : Trying t s)
    (ha : attempts tr = 0) : Trying t s' ∨ ∃ d r, Obs.rxConn d ∈ tr ∧ Grants d r := by
  induction h with
  | nil => exact Or.inl ht
  | @task s s1 s2 o tr hb hrun ih =>
    rw [attempts_append] at ha
    have h1 : Trying t s1 ∨ ∃ d r, Obs.rxConn d ∈ o ∧ Grants d r := by
      unfold Trying at ht
      cases hb
      case connOkClient dl d r hpc hr hk => exact Or.inr ⟨d, r, by simp, (tryConnect_iff d r).1 hr⟩
      case connOkMonitor dl d r hpc hr hk => exact Or.inr ⟨d, r, by simp, (tryConnect_iff d r).1 hr⟩
      case connSendOk => have : attempts [.tx .task connReqPacket] = 1 := by decide
                         omega
      case connSendFail => have : attempts [.txFail .task connReqPacket] = 1 := by decide
                           omega
      case connBad hpc _ => rw [hpc] at ht; left; simp only [Trying] at ht ⊢; omega
      case connErr hpc => rw [hpc] at ht; left; simp only [Trying] at ht ⊢; omega
      case connTimeout hpc _ => rw [hpc] at ht; left; simp only [Trying] at ht ⊢; omega
      case connRetry => exact Or.inl trivial
      case tickBusy hb _ _ => exfalso; clear ih hrun; revert hb ht; cases s.pc <;> simp [busy]
      case tickBusyNone hb _ _ => exfalso; clear ih hrun; revert hb ht; cases s.pc <;> simp [busy]
      all_goals (exfalso; simp_all)
    rcases h1 with h1 | ⟨d, r, h1, h2⟩
    · rcases ih h1 (by omega) with h2 | ⟨d, r, h2, h3⟩
      · exact Or.inl h2
      · exact Or.inr ⟨d, r, List.mem_append_right _ h2, h3⟩
    · exact Or.inr ⟨d, r, List.mem_append_left _ h1, h2⟩
  | @env s s1 s2 o tr he hw hrun ih =>
    rw [attempts_append] at ha
    have f := he.facts
    have h1 : Trying t s1 := by
      unfold Trying at ht ⊢
      rw [f.pc]
      split at ht
      · rename_i d hpc
        refine ⟨?_, ht.2⟩
        rcases hw with hw | hw
        · omega
        · exact hw d (by simp [bgDeadline, hpc])
      · rename_i d hpc
        refine ⟨?_, ht.2⟩
        rcases hw with hw | hw
        · omega
        · exact hw d (by simp [bgDeadline, hpc])
      · trivial
      · exact ht.elim
    rcases ih h1 (by omega) with h2 | ⟨d, r, h2, h3⟩
    · exact Or.inl h2
    · exact Or.inr ⟨d, r, List.mem_append_right _ h2, h3⟩

/-- The connect request. -/
def connectRequest : Bytes := frame CONNECT_REQUEST (hpai ⟨1, ⟨⟨0, 0, 0, 0⟩, 0⟩⟩ ++ hpai ⟨1, ⟨⟨0, 0, 0, 0⟩, 0⟩⟩ ++ [4, 4, 2, 0])

theorem connReq_eq : connReqPacket = connectRequest := by
  unfold connReqPacket connectRequest
  exact C19_bodies.2.2.2.2.2.2.1

/-- C69: when timers fire on time, the next attempt is due at most forty seconds after the last one: from then on the task waits for
nothing but the socket, unless a response granting a connection was received. -/
theorem C69_soon {m : Mode} {k : Kind} {s s1 s2 : Bg} {tr o tr' : List Obs} {e : BgEv} (h1 : bgStep k m s e = some (s1, o))
    (ha : attempts o = 1) (h2 : GoesPromptly m k s1 (tr ++ o) tr' s2) (hn : attempts tr' = 0) (hr : Reaches m k s tr) :
    s2.now ≤ s.now + 40000 ∨ (∃ s3, bgStep k m s2 .sendOk = some (s3, [.tx .task connectRequest])) ∨
      ∃ d r, Obs.rxConn d ∈ tr' ∧ Grants d r := by
  have ht := bgStep_tr h1
  have h0 : Trying s.now s1 := by
    rcases ht.attempt hr.gexec.noDisc with ⟨hpc, _, _⟩ | ⟨_, h⟩
    · cases ht
      case connSendOk => exact ⟨by simp only; omega, Nat.le_refl _⟩
      case connSendFail => exact ⟨by simp only; omega, by omega⟩
      all_goals simp_all [busy]
    · omega
  rcases h0.run h2.gprun hn with h | h
  · unfold Trying at h
    split at h
    · left; omega
    · left; omega
    · rename_i hpc
      right; left
      exact ⟨{ s2 with pc := .connWait (s2.now + 30000) }, by rw [← connReq_eq]; simp [bgStep, hpc]⟩
    · exact h.elim
  · exact Or.inr (Or.inr h)

/-- C69 is refuted: with a gateway that accepts the connection and reports an error at once, the task makes any number of attempts in no
time. -/
theorem C69_violated (m : Mode) (k : Kind) (d g : Bytes) (r : ConnectionResponse) (t : ConnectionstateResponse) (h : Grants d r)
    (hg : Decodes (seen g) (.connectionstateResponse t)) (hs : t.status ≠ 0) (n : Nat) :
    ∃ s tr, Reaches m k s tr ∧ attempts tr = n ∧ s.now = 0 := by
  refine ⟨Bg.init, times n (linkTrace k d r ++ [.rx g, .down]), ?_, ?_, rfl⟩
  · induction n with
    | zero => exact reaches_init m k
    | succ n ih =>
      rw [times_succ]
      obtain ⟨evs, he⟩ := linkUp_run m k h
      have h2 : bgRun k m (linkUp k r) [.dgram g, .run] = some (Bg.init, [.rx g, .down]) := by
        simp [bgRun, bgStep, linkUp, onDatagram_state hg hs, endObs, Bg.init]
      exact ih.append (by rw [bgRun_append he, h2]; rfl)
  · induction n with
    | zero => rfl
    | succ n ih =>
      rw [times_succ, attempts_append, ih]
      congr 1
      cases k
      · rfl
      · simp [attempts, linkTrace, List.countP_cons, isAttempt, enable_not_connect]; decide

/-- The rate is reached when sending fails; with a silent gateway the second attempt comes after forty seconds. -/
example (m : Mode) : ∃ s tr s' tr', Exec m s tr ∧ PromptRun m s tr' s' ∧ attempts tr = 2 ∧ s.bg.now = 10000 ∧ attempts tr' = 2 ∧
    s'.bg.now = s.bg.now + 50000 := by
  obtain ⟨s, tr, s', tr', h1, h2, h3⟩ := prompt_of_evs (m := m) (evs := [.bg .run, .bg .sendFail, .delay 10000, .bg .timer, .bg .sendFail])
    (evs' := [.delay 10000, .bg .timer, .bg .sendOk, .delay 30000, .bg .timer, .delay 10000, .bg .timer, .bg .sendOk])
    (f := fun x y => (attempts x.2, x.1.bg.now, attempts y.2, y.1.bg.now)) (y := (2, 10000, 2, 60000)) (by cases m <;> decide +kernel)
  simp only [Prod.mk.injEq] at h3
  exact ⟨s, tr, s', tr', h1, h2, h3.1, h3.2.1, h3.2.2.1, by omega⟩

/-- An attempt at 0, nothing until 40 s: the next one can be made. -/
example (m : Mode) : ∃ s tr s' tr', Exec m s tr ∧ PromptRun m s tr' s' ∧ tr = [.tx .task connectRequest] ∧ attempts tr' = 0 ∧
    s'.bg.now = 40000 ∧ s'.bg.pc = .connSend := by
  obtain ⟨s, tr, s', tr', h1, h2, h3⟩ := prompt_of_evs (m := m) (evs := [.bg .run, .bg .sendOk])
    (evs' := [.delay 30000, .bg .timer, .delay 10000, .bg .timer])
    (f := fun x y => (x.2, attempts y.2, y.1.bg.now, y.1.bg.pc)) (y := ([.tx .task connectRequest], 0, 40000, .connSend))
    (by cases m <;> decide +kernel)
  simp only [Prod.mk.injEq] at h3
  exact ⟨s, tr, s', tr', h1, h2, h3.1, h3.2.1, h3.2.2.1, h3.2.2.2⟩

/-- A gateway that grants and then reports error 0x21. -/
example : ∃ g t, Grants grant7 conn7 ∧ Decodes (seen g) (.connectionstateResponse t) ∧ t.status ≠ 0 :=
  ⟨frame CONNECTIONSTATE_RESPONSE [7, 0x21], ⟨7, 0x21⟩, grants7, parse_seen (by decide +kernel), by decide⟩

/-! ## C70 -/

/-- C70: everything the background task sends: the connect request while there is no connection; the acknowledgement of the datagram
received last; the heart beat of the current connection; on the monitor, before the connection is announced, the feature request on the
channel just granted. -/
theorem C70_task {m : Mode} {k : Kind} {s s' : Bg} {tr o : List Obs} {e : BgEv} {p : Bytes} (h : Reaches m k s tr)
    (hs : bgStep k m s e = some (s', o)) (hp : Obs.tx .task p ∈ o) :
    (p = connectRequest ∧ upNow tr = false) ∨
    (∃ d, (received tr).getLast? = some d ∧ AckFor p d ∧ upNow tr = true) ∨
    (∃ r, lastUp tr = some r ∧ p = frame CONNECTIONSTATE_REQUEST ([r.channel, 0] ++ hpai r.dataEndpoint) ∧ upNow tr = true) ∨
    (∃ d r, k = .monitor ∧ (connAnswers tr).getLast? = some d ∧ Grants d r ∧
      p = frame TUNNELING_FEATURE_SET [4, r.channel, 0, 0, 8, 0, 1] ∧ upNow tr = false) := by
  have ht := bgStep_tr hs
  have hi := h.gexec.sendInv
  have hg := h.gexec.grants.2.2
  have hu := h.gexec.upNow
  have hc := h.gexec.conn_iff
  rw [hc.1] at hu
  cases ht
  case discOk q hpc => exact absurd hpc (hc.2 q)
  case connSendOk hpc =>
    simp only [List.mem_singleton, Obs.tx.injEq, true_and] at hp
    rw [hpc] at hu
    exact Or.inl ⟨hp.trans connReq_eq, hu.symm⟩
  case hbOk ch ep hpc =>
    simp only [SendInv, hpc] at hi
    obtain ⟨c, hc, he⟩ := Option.map_eq_some_iff.1 hi
    obtain ⟨r, hr, h1, h2⟩ := hg c hc
    simp only [List.mem_singleton, Obs.tx.injEq, true_and] at hp
    cases he
    rw [hpc] at hu
    exact Or.inr (Or.inr (Or.inl ⟨r, hr, by rw [hp, C19_bodies.1, h1, h2], hu.symm⟩))
  case enableOk r hpc =>
    simp only [SendInv, hpc] at hi
    obtain ⟨hk, d, h1, h2⟩ := hi
    simp only [List.mem_singleton, Obs.tx.injEq, true_and] at hp
    rw [hpc] at hu
    exact Or.inr (Or.inr (Or.inr ⟨d, r, hk, h1, h2, by rw [hp, enablePacket, C19_bodies.2.2.2.2.1]; rfl, hu.symm⟩))
  case ackReqOk ch sq raw c hpc _ =>
    simp only [SendInv, hpc] at hi
    obtain ⟨d, h1, h2⟩ := hi
    simp only [List.mem_singleton, Obs.tx.injEq, true_and] at hp
    rw [hpc] at hu
    exact Or.inr (Or.inl ⟨d, h1, ⟨ch, sq, by rw [hp, ack_packet], Or.inl ⟨_, h2⟩⟩, hu.symm⟩)
  case ackReqBad ch sq raw hpc _ =>
    simp only [SendInv, hpc] at hi
    obtain ⟨d, h1, h2⟩ := hi
    simp only [List.mem_singleton, Obs.tx.injEq, true_and] at hp
    rw [hpc] at hu
    exact Or.inr (Or.inl ⟨d, h1, ⟨ch, sq, by rw [hp, ack_packet], Or.inl ⟨_, h2⟩⟩, hu.symm⟩)
  case ackReqPanic ch sq raw hpc _ =>
    simp only [SendInv, hpc] at hi
    obtain ⟨d, h1, h2⟩ := hi
    simp only [List.mem_cons, List.not_mem_nil, Obs.tx.injEq, true_and, reduceCtorEq, or_false] at hp
    rw [hpc] at hu
    exact Or.inr (Or.inl ⟨d, h1, ⟨ch, sq, by rw [hp, ack_packet], Or.inl ⟨_, h2⟩⟩, hu.symm⟩)
  case ackFeatOk ch sq hpc =>
    simp only [SendInv, hpc] at hi
    obtain ⟨d, f, v, st, h1, h2⟩ := hi
    simp only [List.mem_singleton, Obs.tx.injEq, true_and] at hp
    rw [hpc] at hu
    exact Or.inr (Or.inl ⟨d, h1, ⟨ch, sq, by rw [hp, ack_packet], Or.inr ⟨_, _, _, h2⟩⟩, hu.symm⟩)
  all_goals simp at hp

/-- `cemi` is the telegram of the call: a group read or a group write. -/
def TelegramOf (c : Call) (cemi : Bytes) : Prop :=
  match c with
  | .read addr => cemi = lDataReqFrame 3 addr.toU16.toNat apduRead
  | .solicit addr => cemi = lDataReqFrame 3 addr.toU16.toNat apduRead
  | .write addr v true => v ≠ [] ∧ cemi = lDataReqFrame 3 addr.toU16.toNat (apduWriteSmall (v.headD 0))
  | .write addr v false => cemi = lDataReqFrame 3 addr.toU16.toNat (apduWriteBig v)
  | _ => False

theorem telegramOf_write {m : Mode} {addr : KnxAddress} {v : Bytes} {small : Bool} {cemi : Bytes}
    (h : writeCemi m addr v small = .ok cemi) : TelegramOf (.write addr v small) cemi := by
  cases small with
  | true =>
    have hv : v ≠ [] := by
      rintro rfl
      simp [writeCemi, Apdu.groupValueWrite] at h
    exact ⟨hv, writeCemi_ok h⟩
  | false => exact writeCemi_ok h

theorem telegramOf_client {m : Mode} {c : Call} {cemi : Bytes} (h : tunnelCemi m c = some (.ok cemi)) : TelegramOf c cemi := by
  cases c <;> simp only [tunnelCemi, Option.some.injEq, reduceCtorEq] at h
  · rw [readCemi_eq] at h; cases h; rfl
  · exact telegramOf_write h

theorem telegramOf_monitor {m : Mode} {c : Call} {cemi : Bytes} (h : mtunnelCemi m c = some (.ok cemi)) : TelegramOf c cemi := by
  cases c <;> simp only [mtunnelCemi, Option.some.injEq, reduceCtorEq] at h
  · exact telegramOf_write h
  · rw [readCemi_eq] at h; cases h; rfl

/-- C70: everything the calls of the client send: one datagram per call, the request that the call is about. -/
theorem C70_client {m : Mode} {s s' : Sys} {tr o : List Obs} {e : Ev} {p : Bytes} (h : Exec m s tr)
    (hs : step m s e = some (s', o)) (hp : Obs.tx .api p ∈ o) :
    ∃ c, lastCall tr = some c ∧ apiSent (since isCall tr) = [] ∧
      ((∃ ch n cemi, drawn (since isCall tr) = [n] ∧ TelegramOf c cemi ∧ RequestPacket ch n cemi p) ∨
       (c = .status ∧ ∃ ch ep, p = frame CONNECTIONSTATE_REQUEST ([ch, 0] ++ hpai ep)) ∨
       (c = .disconnect ∧ ∃ ch ep, p = frame DISCONNECT_REQUEST ([ch, 0] ++ hpai ep))) := by
  have hc := h.callInv
  have ht := step_api hs (Or.inr (Or.inl (apiSent_ne hp)))
  cases ht
  case sendRead addr q hapi =>
    simp only [List.mem_singleton, Obs.tx.injEq, true_and] at hp
    rw [hapi] at hc
    obtain ⟨h1, _, h2, n, ch, cemi, h3, h4, h5⟩ := hc
    exact ⟨_, h1, h2, Or.inl ⟨ch, n, cemi, h4, telegramOf_client h3, hp ▸ requestPacket_of h5⟩⟩
  case sendWrite c q hapi _ =>
    simp only [List.mem_singleton, Obs.tx.injEq, true_and] at hp
    rw [hapi] at hc
    obtain ⟨h1, _, h2, n, ch, cemi, h3, h4, h5⟩ := hc
    exact ⟨_, h1, h2, Or.inl ⟨ch, n, cemi, h4, telegramOf_client h3, hp ▸ requestPacket_of h5⟩⟩
  case stSend q hapi =>
    simp only [List.mem_singleton, Obs.tx.injEq, true_and] at hp
    rw [hapi] at hc
    obtain ⟨h1, _, h2, ch, ep, h3⟩ := hc
    exact ⟨_, h1, h2, Or.inr (Or.inl ⟨rfl, ch, ep, by rw [hp, h3, C19_bodies.1]⟩)⟩
  case dcSend q hapi =>
    simp only [List.mem_singleton, Obs.tx.injEq, true_and] at hp
    rw [hapi] at hc
    obtain ⟨h1, _, h2, ch, ep, h3⟩ := hc
    exact ⟨_, h1, h2, Or.inr (Or.inr ⟨rfl, ch, ep, by rw [hp, h3, C19_bodies.2.1]⟩)⟩
  all_goals simp at hp

/-- C70: everything the calls of the monitor send. -/
theorem C70_monitor {m : Mode} {s s' : MSys} {tr o : List Obs} {e : MEv} {p : Bytes} (h : MExec m s tr)
    (hs : mstep m s e = some (s', o)) (hp : Obs.tx .api p ∈ o) :
    ∃ c, lastCall tr = some c ∧ apiSent (since isCall tr) = [] ∧
      ((∃ ch n cemi, drawn (since isCall tr) = [n] ∧ TelegramOf c cemi ∧ RequestPacket ch n cemi p) ∨
       (c = .disconnect ∧ ∃ ch ep, p = frame DISCONNECT_REQUEST ([ch, 0] ++ hpai ep))) := by
  have hc := h.callInv
  have ht := mstep_api hs (Or.inr (Or.inl (apiSent_ne hp)))
  cases ht
  case send q hapi =>
    simp only [List.mem_cons, List.not_mem_nil, Obs.tx.injEq, true_and, reduceCtorEq, or_false] at hp
    rw [hapi] at hc
    obtain ⟨c, h1, h2, n, ch, cemi, h3, h4, h5⟩ := hc
    exact ⟨_, h1, h2, Or.inl ⟨ch, n, cemi, h4, telegramOf_monitor h3, hp ▸ requestPacket_of h5⟩⟩
  case dcSend q hapi =>
    simp only [List.mem_singleton, Obs.tx.injEq, true_and] at hp
    rw [hapi] at hc
    obtain ⟨h1, h2, _, ch, ep, h3⟩ := hc
    exact ⟨_, h1, h2, Or.inr ⟨rfl, ch, ep, by rw [hp, h3, C19_bodies.2.1]⟩⟩
  all_goals simp at hp

/-- The four kinds of datagrams of the task, and the three of the calls. -/
example (m : Mode) : ∃ s tr, MExec m s tr ∧ taskSent tr = [connectRequest, frame TUNNELING_FEATURE_SET [4, 7, 0, 0, 8, 0, 1],
    frame TUNNELING_ACK [4, 7, 0, 0], frame CONNECTIONSTATE_REQUEST ([7, 0] ++ hpai conn7.dataEndpoint)] ∧
    (apiSent tr).map (serviceIs TUNNELING_REQUEST) = [true] := by
  obtain ⟨s, tr, h1, h2⟩ := mexec_of_evs (m := m) (evs := [.bg .run, .bg .sendOk, .bg (.dgram grant7), .bg .sendOk, .bg .run, .bg .run,
    .bg (.dgram req7), .bg .sendOk, .bg .run, .bg .tick, .bg .sendOk, .api (.call (.solicit (.group3 ⟨1, 0, 1⟩))), .api .run, .api .run,
    .api .sendOk])
    (f := fun x => (taskSent x.2, (apiSent x.2).map (serviceIs TUNNELING_REQUEST)))
    (y := ([connectRequest, frame TUNNELING_FEATURE_SET [4, 7, 0, 0, 8, 0, 1],
    frame TUNNELING_ACK [4, 7, 0, 0], frame CONNECTIONSTATE_REQUEST ([7, 0] ++ hpai conn7.dataEndpoint)], [true]))
    (by cases m <;> decide +kernel)
  simp only [Prod.mk.injEq] at h2
  exact ⟨s, tr, h1, h2.1, h2.2⟩

example (m : Mode) : ∃ s tr, Exec m s tr ∧ calls tr = [.status, .write (.group3 ⟨1, 0, 1⟩) [1, 2] false, .disconnect] ∧
    (apiSent tr).map (fun p => (p.drop 2).take 2) = [[2, 7], [4, 0x20], [2, 9]] := by
  obtain ⟨s, tr, h1, h2⟩ := exec_of_evs (m := m) (evs := [.bg .run, .bg .sendOk, .bg (.dgram grant7), .bg .run,
    .api (.call .status), .api .run, .api .run, .api .sendOk, .api .recvErr,
    .api (.call (.write (.group3 ⟨1, 0, 1⟩) [1, 2] false)), .api .run, .api .run, .api .sendOk, .api .cancel,
    .api (.call .disconnect), .api .run, .api .run, .api .skipLog, .api .sendOk])
    (f := fun x => (calls x.2, (apiSent x.2).map (fun p => (p.drop 2).take 2)))
    (y := ([.status, .write (.group3 ⟨1, 0, 1⟩) [1, 2] false, .disconnect], [[2, 7], [4, 0x20], [2, 9]]))
    (by cases m <;> decide +kernel)
  simp only [Prod.mk.injEq] at h2
  exact ⟨s, tr, h1, h2.1, h2.2⟩

/-! ## C71 -/

theorem ApiTr.of_writing {m : Mode} {s s' : Sys} {o : List Obs} {dl : Nat} (h : ApiTr m s s' o) (h1 : s.api = .writing dl) : Over o := by
  cases h
  all_goals first
    | (exfalso; simp_all [looksUp]; done)
    | (left; simp [returned]; done)
    | (right; simp; done)

theorem writing_bound {m : Mode} {s s' : Sys} {tr : List Obs} {dl : Nat} (h : PromptRun m s tr s')
    (h1 : s.api = .writing dl) (h2 : s.bg.now ≤ dl) : Over tr ∨ s'.api = .writing dl ∧ s'.bg.now ≤ dl := by
  induction h with
  | nil s => exact Or.inr ⟨h1, h2⟩
  | @step s s1 s2 o tr e hp hs hr ih =>
    have over : ∀ {a b : List Obs}, Over a ∨ Over b → Over (a ++ b) := by
      rintro a b ((h | h) | (h | h))
      · left; rw [returned_append]; simp [h]
      · right; exact List.mem_append_left _ h
      · left; rw [returned_append]; simp [h]
      · right; exact List.mem_append_right _ h
    have cont : s1.api = .writing dl → s1.bg.now ≤ dl → Over (o ++ tr) ∨ s2.api = .writing dl ∧ s2.bg.now ≤ dl := by
      intro g1 g2
      rcases ih g1 g2 with h | h
      · exact Or.inl (over (Or.inr h))
      · exact Or.inr h
    cases e with
    | bg e =>
      simp only [Knx.step, Option.map_eq_some_iff, Prod.exists, Prod.mk.injEq] at hs
      obtain ⟨b, o', hb, rfl, rfl⟩ := hs
      refine cont h1 ?_
      simp only [(bgStep_tr hb).hbDue.2.1]; exact h2
    | delay d =>
      cases hs
      exact cont h1 (hp.2 dl (by rw [h1]; rfl))
    | api e => exact Or.inl (over (Or.inl ((apiStep_tr hs).of_writing h1)))

/-- C71: a write that has sent its request is over ten seconds later at the latest, if timers fire on time: in the first ten seconds
it waits, and after exactly ten seconds it can return the error. -/
theorem C71_write_bound {m : Mode} {s s1 s2 : Sys} {tr0 tr : List Obs} {addr : KnxAddress} {v : Bytes} {small : Bool} {p : Bytes}
    (h : Exec m s tr0) (hw : lastCall tr0 = some (.write addr v small))
    (h2 : step m s (.api .sendOk) = some (s1, [.tx .api p])) (h3 : PromptRun m s1 tr s2) (h4 : ¬ Over tr) :
    s2.bg.now ≤ s.bg.now + 10000 ∧
    (s2.bg.now = s.bg.now + 10000 → step m s2 (.api .timer) = some ({ s2 with api := .idle }, [.ret .err])) := by
  have hc := h.callInv
  have e : s1.api = .writing (s.bg.now + apiTimeout) ∧ s1.bg.now = s.bg.now := by
    have ht := apiStep_tr (m := m) h2
    cases ht
    case sendWrite => exact ⟨rfl, rfl⟩
    case sendRead a hapi => rw [hapi] at hc; have := hc.1; rw [hw] at this; cases this
    case stSend hapi => rw [hapi] at hc; have := hc.1; rw [hw] at this; cases this
    case dcSend hapi => rw [hapi] at hc; have := hc.1; rw [hw] at this; cases this
  rcases writing_bound h3 e.1 (by rw [e.2]; omega) with h | ⟨g1, g2⟩
  · exact absurd h h4
  · simp only [apiTimeout] at g1 g2
    refine ⟨g2, fun g3 => ?_⟩
    simp only [step, apiStep, g1]
    simp [g3, finish]

/-- A write whose answer does not come, at the end of its ten seconds. -/
example (m : Mode) : ∃ s tr s' tr', Exec m s tr ∧ PromptRun m s tr' s' ∧ lastCall tr = some (.write (.group3 ⟨1, 0, 1⟩) [1, 2] false) ∧
    (apiSent tr).length = 1 ∧ returned tr' = [] ∧ Obs.cancelled ∉ tr' ∧ s'.bg.now = s.bg.now + 10000 := by
  obtain ⟨s, tr, s', tr', h1, h2, h3⟩ := prompt_of_evs (m := m) (evs := [.bg .run, .bg .sendOk, .bg (.dgram grant7), .bg .run,
      .bg .tick, .bg .sendOk, .api (.call (.write (.group3 ⟨1, 0, 1⟩) [1, 2] false)), .api .run, .api .run, .api .sendOk])
    (evs' := [.delay 4000, .delay 6000])
    (f := fun x y => ((lastCall x.2, (apiSent x.2).length), returned y.2 == [], !y.2.contains Obs.cancelled, decide (y.1.bg.now = x.1.bg.now + 10000), (acksSent y.2).length))
    (y := ((some (.write (.group3 ⟨1, 0, 1⟩) [1, 2] false), 1), true, true, true, 0)) (by cases m <;> decide +kernel)
  simp only [Prod.mk.injEq, decide_eq_true_eq, beq_iff_eq] at h3
  exact ⟨s, tr, s', tr', h1, h2, h3.1.1, h3.1.2, h3.2.1, by simpa using h3.2.2.1, h3.2.2.2.1⟩

/-! ## C72 -/

theorem times_filterMap {α : Type} (f : Obs → Option α) {o : List Obs} (h : o.filterMap f = []) (n : Nat) :
    (times n o).filterMap f = [] := by
  induction n with
  | zero => rfl
  | succ n ih => rw [times_succ, List.filterMap_append, ih, h]; rfl

theorem mem_times {x : Obs} {o : List Obs} {n : Nat} (h : x ∈ times n o) : x ∈ o := by
  induction n with
  | zero => cases h
  | succ n ih =>
    rw [times_succ, List.mem_append] at h
    exact h.elim ih id

theorem not_over_beats (n : Nat) (p : Bytes) : ¬ Over (times n [.tick, .tx .task p]) := by
  rintro (h | h)
  · exact h (times_filterMap _ rfl n)
  · have := mem_times h
    simp at this

/-- The monitor's run of `n` heart beats, a minute apart, on time. -/
theorem mbeatsRun (m : Mode) (s : MSys) (c : Conn) (hpc : s.bg.pc = .recv) (hc : s.bg.conn = some c) (hd : s.bg.hbDue = s.bg.now) (n : Nat) :
    MPromptRun m s (times n [.tick, .tx .task (ConnectionstateRequest.mk c.channel c.endpoint).packet])
      { s with bg := { s.bg with now := s.bg.now + 60000 * n, hbDue := s.bg.now + 60000 * n } } := by
  have tr : ∀ {a b c : MSys} {x y : List Obs}, MPromptRun m a x b → MPromptRun m b y c → MPromptRun m a (x ++ y) c := by
    intro a b c x y h1 h2
    induction h1 with
    | nil => exact h2
    | step e hp hs _ ih => rw [List.append_assoc]; exact .step e hp hs (ih h2)
  obtain ⟨b, api, w⟩ := s
  simp only at hpc hc hd
  induction n with
  | zero =>
    have : ({ b with now := b.now + 60000 * 0, hbDue := b.now + 60000 * 0 } : Bg) = b := by
      cases b; simp only at hd; simp [hd]
    simp only [this]
    exact .nil _
  | succ n ih =>
    rw [times_succ]
    refine tr ih ?_
    have h1 : Knx.mstep m ⟨{ b with now := b.now + 60000 * n, hbDue := b.now + 60000 * n }, api, w⟩ (.bg .tick)
        = some (⟨{ b with now := b.now + 60000 * n, hbDue := b.now + 60000 * (n + 1), pc := .hb c.channel c.endpoint }, api, w⟩, [.tick]) := by
      simp [Knx.mstep, bgStep, tickStep, hpc, inSelect, busy, hc, nextTick_self]
      omega
    have h2 : Knx.mstep m ⟨{ b with now := b.now + 60000 * n, hbDue := b.now + 60000 * (n + 1), pc := .hb c.channel c.endpoint }, api, w⟩
          (.bg .sendOk)
        = some (⟨{ b with now := b.now + 60000 * n, hbDue := b.now + 60000 * (n + 1) }, api, w⟩,
          [.tx .task (ConnectionstateRequest.mk c.channel c.endpoint).packet]) := by
      simp [Knx.mstep, bgStep, hpc]
    have h3 : Knx.mstep m ⟨{ b with now := b.now + 60000 * n, hbDue := b.now + 60000 * (n + 1) }, api, w⟩ (.delay 60000)
        = some (⟨{ b with now := b.now + 60000 * (n + 1), hbDue := b.now + 60000 * (n + 1) }, api, w⟩, []) := by
      simp [Knx.mstep]; omega
    refine .step (.bg .tick) trivial h1 (.step (.bg .sendOk) trivial h2 (.step (.delay 60000) ?_ h3 (.nil _)))
    intro t ht
    simp [bgDeadline, hpc, inSelect] at ht
    simp only
    omega

/-- A status call that has sent its query waits for a datagram. -/
theorem Exec.stRecv {m : Mode} {s : Sys} {tr : List Obs} (h : Exec m s tr) (h0 : Spec.bracket tr = some true) (h1 : lastCall tr = some .status)
    (h2 : apiSent (since isCall tr) ≠ []) : s.api = .stRecv := by
  have hc := h.callInv
  have hb := h.bracket
  rw [h0] at hb
  have hi : s.api ≠ .idle := by
    intro hi; rw [hi] at hb; cases hb
  clear hb h0
  revert hc hi
  cases s.api <;> intro hc hi <;> simp only [CallInv] at hc
  case stRecv => rfl
  all_goals first
    | exact absurd rfl hi
    | (exfalso; simp_all; done)

/-- C72, the part that holds: a status call that has sent its query ends only when it receives a datagram, when receiving fails, or
because the caller gives up. -/
theorem C72_status_partial {m : Mode} {s s' : Sys} {tr o : List Obs} {e : Ev} (h : Exec m s tr) (h0 : bracket tr = some true)
    (h1 : lastCall tr = some .status) (h2 : apiSent (since isCall tr) ≠ []) (hs : step m s e = some (s', o)) (ho : Over o) :
    (∃ d r, e = .api (.dgram d) ∧ o = [.rxApi d, .ret r]) ∨ (e = .api .recvErr ∧ o = [.ret .err]) ∨ (e = .api .cancel ∧ o = [.cancelled]) := by
  have ha := h.stRecv h0 h1 h2
  cases e with
  | bg e =>
    simp only [step, Option.map_eq_some_iff, Prod.exists, Prod.mk.injEq] at hs
    obtain ⟨b, o', hb, rfl, rfl⟩ := hs
    have := bgStep_tr hb
    exfalso
    rcases ho with ho | ho
    · exact ho this.facts.returned
    · cases this <;> simp at ho
  | delay d => cases hs; rcases ho with ho | ho <;> simp [returned] at ho
  | api e =>
    simp only [step, apiStep] at hs
    split at hs
    · rename_i he
      split at hs
      · cases hs
      · cases hs; exact Or.inr (Or.inr ⟨by rw [he], rfl⟩)
    · rw [ha] at hs
      cases e <;> simp only [reduceCtorEq] at hs
      case dgram d _ =>
        left
        split at hs <;> simp only [finish, Option.some.injEq, Prod.mk.injEq] at hs <;> exact ⟨d, _, rfl, hs.2.symm⟩
      case recvErr =>
        simp only [finish, Option.some.injEq, Prod.mk.injEq] at hs
        exact Or.inr (Or.inl ⟨rfl, hs.2.symm⟩)

/-- C72 is refuted: a status call that has sent its query has no time limit: for every `n` it can still be pending after `n` minutes in
which every heart beat was sent on time. -/
theorem C72_violated_status (m : Mode) (d : Bytes) (r : ConnectionResponse) (h : Grants d r) (n : Nat) :
    ∃ s s' tr, Exec m s (linkTrace .client d r ++
        [.call .status, .tx .api (frame CONNECTIONSTATE_REQUEST ([r.channel, 0] ++ hpai r.dataEndpoint))]) ∧
      PromptRun m s tr s' ∧ ¬ Over tr ∧ s'.bg.now = s.bg.now + 60000 * n ∧
      taskSent tr = List.replicate n (frame CONNECTIONSTATE_REQUEST ([r.channel, 0] ++ hpai r.dataEndpoint)) := by
  have h1 : runEvs m ⟨linkUp .client r, .idle⟩ [.api (.call .status), .api .run, .api .run, .api .sendOk]
      = some (⟨linkUp .client r, .stRecv⟩,
        [.call .status, .tx .api (frame CONNECTIONSTATE_REQUEST ([r.channel, 0] ++ hpai r.dataEndpoint))]) := by
    simp [runEvs, step, apiStep, apiCall, linkUp, Bg.init, withConn, connLocked, Conn.ofResponse, C19_bodies.1]
  refine ⟨_, _, _, (exec_link m h).append (runEvs_run h1), beatsRun m ⟨linkUp .client r, .stRecv⟩ _ rfl rfl rfl rfl n,
    not_over_beats _ _, rfl, ?_⟩
  rw [taskSent_beats, C19_bodies.1]; rfl

/-- C72 is refuted for the client's disconnect. -/
theorem C72_violated_disconnect (m : Mode) (d : Bytes) (r : ConnectionResponse) (h : Grants d r) (n : Nat) :
    ∃ s s' tr, Exec m s (linkTrace .client d r ++
        [.call .disconnect, .tx .api (frame DISCONNECT_REQUEST ([r.channel, 0] ++ hpai r.dataEndpoint))]) ∧
      PromptRun m s tr s' ∧ ¬ Over tr ∧ s'.bg.now = s.bg.now + 60000 * n ∧
      taskSent tr = List.replicate n (frame CONNECTIONSTATE_REQUEST ([r.channel, 0] ++ hpai r.dataEndpoint)) := by
  have h1 : runEvs m ⟨linkUp .client r, .idle⟩ [.api (.call .disconnect), .api .run, .api .run, .api .run, .api .sendOk]
      = some (⟨linkUp .client r, .dcRecv⟩,
        [.call .disconnect, .tx .api (frame DISCONNECT_REQUEST ([r.channel, 0] ++ hpai r.dataEndpoint))]) := by
    simp [runEvs, step, apiStep, apiCall, linkUp, Bg.init, withConn, connLocked, Conn.ofResponse, C19_bodies.2.1]
  refine ⟨_, _, _, (exec_link m h).append (runEvs_run h1), beatsRun m ⟨linkUp .client r, .dcRecv⟩ _ rfl rfl rfl rfl n,
    not_over_beats _ _, rfl, ?_⟩
  rw [taskSent_beats, C19_bodies.1]; rfl

/-- C72 is refuted for the monitor's disconnect. -/
theorem C72_violated_monitor (m : Mode) (d : Bytes) (r : ConnectionResponse) (h : Grants d r) (n : Nat) :
    ∃ s s' tr, MExec m s (linkTrace .monitor d r ++
        [.call .disconnect, .tx .api (frame DISCONNECT_REQUEST ([r.channel, 0] ++ hpai r.dataEndpoint))]) ∧
      MPromptRun m s tr s' ∧ ¬ Over tr ∧ s'.bg.now = s.bg.now + 60000 * n ∧
      taskSent tr = List.replicate n (frame CONNECTIONSTATE_REQUEST ([r.channel, 0] ++ hpai r.dataEndpoint)) := by
  have h1 : mrunEvs m ⟨linkUp .monitor r, .idle, []⟩ [.api (.call .disconnect), .api .run, .api .run, .api .sendOk]
      = some (⟨linkUp .monitor r, .dcRecv, []⟩,
        [.call .disconnect, .tx .api (frame DISCONNECT_REQUEST ([r.channel, 0] ++ hpai r.dataEndpoint))]) := by
    simp [mrunEvs, mstep, mapiStep, mcallStep, mapiCall, linkUp, Bg.init, mwithConn, connLocked, Conn.ofResponse, C19_bodies.2.1]
  refine ⟨_, _, _, (mexec_link m h).append (mrunEvs_run h1), mbeatsRun m ⟨linkUp .monitor r, .dcRecv, []⟩ _ rfl rfl rfl n,
    not_over_beats _ _, rfl, ?_⟩
  rw [taskSent_beats, C19_bodies.1]; rfl

/-- A pending status query that receives its answer. -/
example (m : Mode) : ∃ s tr s' o, Exec m s tr ∧ bracket tr = some true ∧ lastCall tr = some .status ∧ apiSent (since isCall tr) ≠ [] ∧
    step m s (.api (.dgram (frame CONNECTIONSTATE_RESPONSE [7, 0]))) = some (s', o) ∧ Over o := by
  obtain ⟨s, tr, h1, h2⟩ := exec_of_evs (m := m) (evs := [.bg .run, .bg .sendOk, .bg (.dgram grant7), .bg .run,
    .api (.call .status), .api .run, .api .run, .api .sendOk])
    (f := fun x => ((bracket x.2, lastCall x.2, (apiSent (since isCall x.2)).length),
      (step m x.1 (.api (.dgram (frame CONNECTIONSTATE_RESPONSE [7, 0])))).map fun y => y.2))
    (y := ((some true, some .status, 1), some [.rxApi (frame CONNECTIONSTATE_RESPONSE [7, 0]), .ret (.state ⟨7, 0⟩)]))
    (by cases m <;> decide +kernel)
  simp only [Prod.mk.injEq, Option.map_eq_some_iff] at h2
  obtain ⟨⟨h3, h4, h5⟩, ⟨s', o⟩, h6, h7⟩ := h2
  refine ⟨s, tr, s', o, h1, h3, h4, by intro h; simp [h] at h5, h6, ?_⟩
  simp only at h7
  exact Or.inl (by simp [h7, returned])

/-! ## C73 -/

theorem Alone.trans {k : Kind} {m : Mode} {a b c : Bg} {x y : List Obs} (h1 : Alone k m a x b) (h2 : Alone k m b y c) :
    Alone k m a (x ++ y) c := by
  induction h1 with
  | nil => exact h2
  | step e hs _ ih => rw [List.append_assoc]; exact .step e hs (ih h2)
  | delay d _ ih => exact .delay d (ih h2)

theorem Alone.run {m : Mode} {b b' : Bg} {tr : List Obs} (h : Alone .client m b tr b') (api : Api) : Run m ⟨b, api⟩ tr ⟨b', api⟩ := by
  induction h with
  | nil => exact .nil _
  | step e hs _ ih => exact .step (.bg e) (by simp only [Knx.step, hs, Option.map_some]) ih
  | @delay s s2 tr d _ ih => exact .step (s := ⟨s, api⟩) (o := []) (s' := ⟨{ s with now := s.now + d }, api⟩) (.delay d) rfl ih

theorem Alone.mrun {m : Mode} {b b' : Bg} {tr : List Obs} (h : Alone .monitor m b tr b') (api : MApi) (w : List Nat) :
    MRun m ⟨b, api, w⟩ tr ⟨b', api, w⟩ := by
  induction h with
  | nil => exact .nil _
  | step e hs _ ih => exact .step (.bg e) (by simp only [Knx.mstep, hs, Option.map_some]) ih
  | @delay s s2 tr d _ ih => exact .step (s := ⟨s, api, w⟩) (o := []) (s' := ⟨{ s with now := s.now + d }, api, w⟩) (.delay d) rfl ih

/-- The task can get to the point where it asks for a connection. -/
def CanAsk (k : Kind) (m : Mode) (s : Bg) : Prop := ∃ tr b, Alone k m s tr b ∧ b.pc = .connSend

theorem CanAsk.step {k : Kind} {m : Mode} {s s' : Bg} (e : BgEv) (hs : ∃ o, bgStep k m s e = some (s', o)) (h : CanAsk k m s') :
    CanAsk k m s := by
  obtain ⟨o, hs⟩ := hs
  obtain ⟨tr, b, h1, h2⟩ := h
  exact ⟨_, b, .step e hs h1, h2⟩

theorem CanAsk.delay {k : Kind} {m : Mode} {s : Bg} (d : Nat) (h : CanAsk k m { s with now := s.now + d }) : CanAsk k m s := by
  obtain ⟨tr, b, h1, h2⟩ := h
  exact ⟨_, b, .delay d h1, h2⟩

/-- From every place but the two ends and, on the monitor, the notifications. -/
theorem canAsk {k : Kind} {m : Mode} (s : Bg) (h1 : s.pc ≠ .done) (h2 : s.pc ≠ .crashed) (h3 : ∀ p, s.pc ≠ .discResp p)
    (h4 : ∀ t a, s.pc ≠ .notify t a) (h5 : k = .monitor → ∀ r, s.pc ≠ .store r) : CanAsk k m s := by
  have asks : ∀ s : Bg, s.pc = .connSend → CanAsk k m s := fun s h => ⟨_, s, .nil _, h⟩
  have sleep : ∀ (s : Bg) dl, s.pc = .connSleep dl → CanAsk k m s := by
    intro s dl h
    refine .delay dl (.step (s' := { s with now := s.now + dl, pc := .connSend }) .timer ?_ (asks _ rfl))
    simp [bgStep, h]
  have tear : ∀ s : Bg, s.pc = .teardown → CanAsk k m s := by
    intro s h
    refine .step (s' := { s with conn := none, pc := .top }) .run (by simp [bgStep, h]) ?_
    exact .step (s' := { s with conn := none, pc := .connSend }) .run (by simp [bgStep]) (asks _ rfl)
  have recv : ∀ s : Bg, s.pc = .recv → CanAsk k m s := by
    intro s h
    exact .step (s' := { s with pc := .teardown }) .recvErr (by simp [bgStep, h]) (tear _ rfl)
  have top : ∀ s : Bg, s.pc = .top → CanAsk k m s := by
    intro s h
    cases hc : s.conn with
    | none => exact .step (s' := { s with pc := .connSend }) .run (by simp [bgStep, h, hc]) (asks _ rfl)
    | some c => exact .step (s' := { s with pc := .recv }) .run (by simp [bgStep, h, hc]) (recv _ rfl)
  have hb : ∀ (s : Bg) ch ep, s.pc = .hb ch ep → CanAsk k m s := by
    intro s ch ep h
    exact .step (s' := { s with pc := .teardown }) .sendFail (by simp [bgStep, h]) (tear _ rfl)
  cases hpc : s.pc with
  | top => exact top s hpc
  | connSend => exact asks s hpc
  | connWait dl =>
    refine .delay dl (.step (s' := { s with now := s.now + dl, pc := .connSleep (s.now + dl + 10000) }) .timer ?_ (sleep _ _ rfl))
    simp [bgStep, hpc]
  | connSleep dl => exact sleep s dl hpc
  | enable r => exact .step (s' := { s with pc := .top }) .sendFail (by simp [bgStep, hpc]) (top _ rfl)
  | store r =>
    cases k with
    | client => exact .step (s' := { s with conn := some (Conn.ofResponse .client r), pc := .recv }) .run (by simp [bgStep, hpc]) (recv _ rfl)
    | monitor => exact absurd hpc (h5 rfl r)
  | notify t a => exact absurd hpc (h4 t a)
  | recv => exact recv s hpc
  | ackReq ch sq raw => exact .step (s' := { s with pc := .teardown }) .sendFail (by simp [bgStep, hpc]) (tear _ rfl)
  | ackFeat ch sq => exact .step (s' := { s with pc := .teardown }) .sendFail (by simp [bgStep, hpc]) (tear _ rfl)
  | push c =>
    refine .delay s.hbDue ?_
    cases hc : s.conn with
    | none =>
      refine .step (s' := { s with now := s.now + s.hbDue, hbDue := nextTick (s.now + s.hbDue) s.hbDue, pc := .teardown }) .tick ?_ (tear _ rfl)
      simp [bgStep, tickStep, hpc, inSelect, hc, busy]
    | some c =>
      refine .step (s' := { s with now := s.now + s.hbDue, hbDue := nextTick (s.now + s.hbDue) s.hbDue, pc := .hb c.channel c.endpoint })
        .tick ?_ (hb _ _ _ rfl)
      simp [bgStep, tickStep, hpc, inSelect, hc, busy]
  | discResp p => exact absurd hpc (h3 p)
  | hb ch ep => exact hb s ch ep hpc
  | teardown => exact tear s hpc
  | done => exact absurd hpc h1
  | crashed => exact absurd hpc h2

theorem bgRun_alone {k : Kind} {m : Mode} {s s' : Bg} {evs : List BgEv} {tr : List Obs} (h : bgRun k m s evs = some (s', tr)) :
    Alone k m s tr s' := by
  induction evs generalizing s tr with
  | nil => simp only [bgRun, Option.some.injEq, Prod.mk.injEq] at h; obtain ⟨rfl, rfl⟩ := h; exact .nil _
  | cons e es ih =>
    simp only [bgRun] at h
    split at h
    · cases h
    · rename_i s1 o hs
      simp only [Option.map_eq_some_iff, Prod.exists, Prod.mk.injEq] at h
      obtain ⟨a, b, h1, rfl, rfl⟩ := h
      exact .step e hs (ih h1)

/-- From there, a connection comes up when the gateway grants it. -/
theorem Alone.up {k : Kind} {m : Mode} {s : Bg} {d : Bytes} {r : ConnectionResponse} (h : s.pc = .connSend) (hg : Grants d r) :
    ∃ tr b, Alone k m s (tr ++ [.up r]) b := by
  have h2 := (tryConnect_iff d r).2 hg
  cases k with
  | client =>
    have : bgRun .client m s [.sendOk, .dgram d, .run] = some ({ s with conn := some (Conn.ofResponse .client r), pc := .recv },
        [.tx .task connReqPacket, .rxConn d] ++ [.up r]) := by
      simp only [bgRun, bgStep, h, reduceCtorEq, if_false, h2, connected, Option.map_some]; rfl
    exact ⟨_, _, bgRun_alone this⟩
  | monitor =>
    have : bgRun .monitor m s [.sendOk, .dgram d, .sendOk, .run] = some ({ s with conn := some (Conn.ofResponse .monitor r), pc := .notify s.subs [] },
        [.tx .task connReqPacket, .rxConn d, .tx .task (enablePacket r.channel)] ++ [.up r]) := by
      simp only [bgRun, bgStep, h, reduceCtorEq, if_false, h2, connected, Option.map_some]; rfl
    exact ⟨_, _, bgRun_alone this⟩

/-- The monitor's notifications can be got over with: the subscribers in the way drop their receivers. -/
theorem notify_run (m : Mode) (todo : List Nat) : ∀ (s : MSys) (active : List Nat), s.bg.pc = .notify todo active →
    ∃ tr s', MRun m s tr s' ∧ s'.bg.pc = .recv := by
  induction todo with
  | nil =>
    intro s active h
    exact ⟨_, { s with bg := { s.bg with subs := active, pc := .recv } },
      .step (.bg .run) (by simp only [mstep, bgStep, h, reduceCtorEq, if_false, Option.map_some]; rfl) (.nil _), rfl⟩
  | cons id todo ih =>
    intro s active h
    obtain ⟨tr, s', h1, h2⟩ := ih { s with bg := { s.bg with
      chans := fun i => if i = id then { s.bg.chans id with isOpen := false } else s.bg.chans i, pc := .notify todo active } } active rfl
    refine ⟨[] ++ ([] ++ tr), s', .step (.api (.closeChan id)) rfl (.step (.bg .run) ?_ h1), h2⟩
    simp only [mstep, setChan, bgStep, h, reduceCtorEq, if_false, if_true, Option.map_some]

/-- C73: no reachable state of the client is a dead end but the two ends of its task: otherwise the task alone can still get to any
connection that a gateway may grant. -/
theorem C73_client {m : Mode} {s : Sys} {tr : List Obs} {d : Bytes} {r : ConnectionResponse} (h : Exec m s tr) (h1 : Obs.exit ∉ tr)
    (h2 : Obs.crash ∉ tr) (hg : Grants d r) : ∃ tr' b, Alone .client m s.bg (tr' ++ [.up r]) b := by
  have he := (Reaches.client h).gexec.ending
  have hn := (Reaches.client h).gexec.conn_iff.2
  have h4 := (Reaches.client h).gexec.clientNoNotify
  obtain ⟨tr1, b, h5, h6⟩ := canAsk (k := .client) (m := m) s.bg (fun h => h1 (he.exit.2 h)) (fun h => h2 (he.crash.2 h)) hn h4 (by simp)
  obtain ⟨tr2, b', h7⟩ := Alone.up (m := m) (k := .client) h6 hg
  exact ⟨tr1 ++ tr2, b', by rw [List.append_assoc]; exact h5.trans h7⟩

/-- C73: the same for the monitor, if its subscribers let go. -/
theorem C73_monitor {m : Mode} {s : MSys} {tr : List Obs} {d : Bytes} {r : ConnectionResponse} (h : MExec m s tr) (h1 : Obs.exit ∉ tr)
    (h2 : Obs.crash ∉ tr) (hg : Grants d r) : ∃ tr' s', MRun m s (tr' ++ [.up r]) s' := by
  have he := (Reaches.monitor h).gexec.ending
  have hn := (Reaches.monitor h).gexec.conn_iff.2
  have up : ∀ s : MSys, (CanAsk .monitor m s.bg) → ∃ tr' s', MRun m s (tr' ++ [.up r]) s' := by
    intro s ⟨tr1, b, h5, h6⟩
    obtain ⟨tr2, b', h7⟩ := Alone.up (m := m) (k := .monitor) h6 hg
    exact ⟨tr1 ++ tr2, _, by rw [List.append_assoc]; exact (h5.trans h7).mrun s.api s.waiting⟩
  have notify : ∀ (s : MSys) t a, s.bg.pc = .notify t a → ∃ tr' s', MRun m s (tr' ++ [.up r]) s' := by
    intro s t a h
    obtain ⟨tr1, s1, h5, h6⟩ := notify_run m t s a h
    obtain ⟨tr2, s2, h7⟩ := up s1 (canAsk _ (by simp [h6]) (by simp [h6]) (by simp [h6]) (by simp [h6]) (by simp [h6]))
    exact ⟨tr1 ++ tr2, s2, by rw [List.append_assoc]; exact h5.trans h7⟩
  by_cases h3 : ∃ t a, s.bg.pc = .notify t a
  · obtain ⟨t, a, h3⟩ := h3
    exact notify s t a h3
  by_cases h4 : ∃ q, s.bg.pc = .store q
  · obtain ⟨q, h4⟩ := h4
    obtain ⟨tr2, s2, h7⟩ := notify { s with bg := { s.bg with conn := some (Conn.ofResponse .monitor q), pc := .notify s.bg.subs [] } } _ _ rfl
    refine ⟨[.up q] ++ tr2, s2, ?_⟩
    rw [List.append_assoc]
    exact .step (.bg .run) (by simp only [mstep, bgStep, h4, reduceCtorEq, if_false, Option.map_some]) h7
  · exact up s (canAsk _ (fun h => h1 (he.exit.2 h)) (fun h => h2 (he.crash.2 h)) hn (fun t a h => h3 ⟨t, a, h⟩) (fun _ q h => h4 ⟨q, h⟩))

/-- A client after a lost connection, and a monitor stuck with a subscriber who does not read. -/
example (m : Mode) : ∃ s tr, Exec m s tr ∧ Obs.exit ∉ tr ∧ Obs.crash ∉ tr ∧ upNow tr = false ∧ (ups tr).length = 1 := by
  obtain ⟨s, tr, h1, h2⟩ := exec_of_evs (m := m) (evs := [.bg .run, .bg .sendOk, .bg (.dgram grant7), .bg .run, .bg .tick, .bg .sendFail,
    .bg .run, .bg .run, .bg .sendFail, .delay 3])
    (f := fun x => (x.2.contains .exit, x.2.contains .crash, upNow x.2, (ups x.2).length)) (y := (false, false, false, 1))
    (by cases m <;> decide +kernel)
  simp only [Prod.mk.injEq] at h2
  exact ⟨s, tr, h1, by simpa using h2.1, by simpa using h2.2.1, h2.2.2.1, h2.2.2.2⟩

example (m : Mode) : ∃ s tr, MExec m s tr ∧ Obs.exit ∉ tr ∧ Obs.crash ∉ tr ∧ s.bg.pc = .notify [4] [3] ∧
    mstep m s (.bg .run) = none := by
  obtain ⟨s, tr, h1, h2⟩ := mexec_of_evs (m := m) (evs := [.api (.mkChan 3 1), .api (.mkChan 4 1), .api (.call (.subscribe 3)), .api .run,
    .api (.call (.subscribe 4)), .api .run, .api (.fill 4), .bg .run, .bg .sendOk, .bg (.dgram grant7), .bg .sendOk, .bg .run, .bg .run])
    (f := fun x => (x.2.contains .exit, x.2.contains .crash, x.1.bg.pc, (mstep m x.1 (.bg .run)).isNone)) (y := (false, false, .notify [4] [3], true))
    (by cases m <;> decide +kernel)
  simp only [Prod.mk.injEq, Option.isNone_iff_eq_none] at h2
  exact ⟨s, tr, h1, by simpa using h2.1, by simpa using h2.2.1, h2.2.2.1, h2.2.2.2⟩

end Knx
