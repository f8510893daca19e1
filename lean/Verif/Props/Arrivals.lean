import Verif.Spec.Slots
import Verif.Props.Client
import Verif.Props.Monitor
import Verif.Lemmas.Timing
import Verif.Lemmas.Callers

/-!
# Property C101: every telegram that arrives is delivered
-/

namespace Knx
open Spec

theorem arrived_append (a b : List Obs) : arrived (a ++ b) = arrived a ++ arrived b := by simp [arrived]

theorem connAnswers_append' (a b : List Obs) : connAnswers (a ++ b) = connAnswers a ++ connAnswers b := by simp [connAnswers]

theorem apiReceived_append' (a b : List Obs) : apiReceived (a ++ b) = apiReceived a ++ apiReceived b := by simp [apiReceived]

theorem ups_append' (a b : List Obs) : ups (a ++ b) = ups a ++ ups b := by simp [ups]

theorem calls_append' (a b : List Obs) : calls (a ++ b) = calls a ++ calls b := by simp [calls]

/-- Each datagram that arrives is received by exactly one receiver. -/
theorem carrying_arrived (m : Mode) (tr : List Obs) :
    carrying m (arrived tr) = carrying m (received tr) + carrying m (connAnswers tr) + carrying m (apiReceived tr) := by
  induction tr with
  | nil => rfl
  | cons x tr ih =>
    have e : arrived (x :: tr) = arrived [x] ++ arrived tr := arrived_append [x] tr
    have e1 : received (x :: tr) = received [x] ++ received tr := received_append [x] tr
    have e2 : connAnswers (x :: tr) = connAnswers [x] ++ connAnswers tr := connAnswers_append' [x] tr
    have e3 : apiReceived (x :: tr) = apiReceived [x] ++ apiReceived tr := apiReceived_append' [x] tr
    rw [e, e1, e2, e3, carrying_append, carrying_append, carrying_append, carrying_append, ih]
    have : carrying m (arrived [x]) = carrying m (received [x]) + carrying m (connAnswers [x]) + carrying m (apiReceived [x]) := by
      cases x <;> simp [arrived, received, connAnswers, apiReceived, carrying]
    omega

/-- A telegram is being worked on. -/
def pendTel (m : Mode) : Pc → Nat
  | .ackReq _ _ raw => match runRd (Cemi.fromPacket m) id raw with
    | .ok _ => 1
    | _ => 0
  | .push _ => 1
  | _ => 0

theorem pendTel_le (m : Mode) (pc : Pc) : pendTel m pc ≤ 1 := by
  unfold pendTel
  split
  · split <;> omega
  all_goals omega

theorem carrying_nil (m : Mode) : carrying m [] = 0 := rfl

theorem carrying_parse {m : Mode} {d : Bytes} {t : TunnelingRequest} (h : parseResponse (buffer d) = .ok (.tunnelingRequest t)) :
    carrying m [d] = pendTel m (.ackReq t.channel t.seq t.cemi) := by
  rw [buffer_eq_seen, C21_dispatch_exact] at h
  unfold pendTel
  cases hc : runRd (Cemi.fromPacket m) id t.cemi with
  | ok c => simp only [hc]; exact by simp [carrying, HasTelegram.iff h, hc]
  | err => simp only [hc]; exact carrying_zero (by rw [HasTelegram.iff h, hc]; simp)
  | panic => simp only [hc]; exact carrying_zero (by rw [HasTelegram.iff h, hc]; simp)

theorem carrying_other {m : Mode} {d : Bytes} (h : ∀ t, parseResponse (buffer d) ≠ .ok (.tunnelingRequest t)) : carrying m [d] = 0 := by
  refine carrying_zero ?_
  rintro ⟨c, t, h1, _⟩
  rw [← C21_dispatch_exact, ← buffer_eq_seen] at h1
  exact h t h1

/-- What the task does with telegrams in one step. -/
theorem BgTr.telegrams {k : Kind} {m : Mode} {s s' : Bg} {o : List Obs} (h : BgTr k m s s' o) :
    carrying m (received o) + pendTel m s.pc ≤
      (queued o).length + pendTel m s'.pc + interrupts o + ackFailures o + closings o := by
  cases h
  case recvReq d r hpc hd hp =>
    rw [show received [.rx d] = [d] from rfl, carrying_parse hp, hpc]
    simp only [show pendTel m .recv = 0 from rfl]
    omega
  case recvEmpty hpc =>
    rw [show received [.rx []] = [[]] from rfl, carrying_other (by
      rw [show parseResponse (buffer []) = .err from by decide +kernel]; simp), hpc]
    simp [pendTel]
  case tickBusy =>
    have := pendTel_le m s.pc
    simp [received, carrying_nil, interrupts]; omega
  case tickBusyNone =>
    have := pendTel_le m s.pc
    simp [received, carrying_nil, interrupts]; omega
  case ackReqFail hpc =>
    have := pendTel_le m s.pc
    rw [ackFailures_single]
    simp [received, carrying_nil]; omega
  case ackFeatFail hpc =>
    rw [ackFailures_single]
    simp [received, carrying_nil, hpc, pendTel]
  case ackReqOk hpc hc => simp [received, carrying_nil, hpc, pendTel, hc]; omega
  case pushOk hpc _ _ => simp [received, carrying_nil, hpc, pendTel, queued]; omega
  case recvStateOk d r hpc hd hp hs =>
    rw [show received [.rx d] = [d] from rfl, carrying_other (by simp [hp]), hpc]
    simp [pendTel]
  case recvStateBad d r hpc hd hp hs =>
    rw [show received [.rx d] = [d] from rfl, carrying_other (by simp [hp]), hpc]
    simp [pendTel]
  all_goals first
    | (simp [received, carrying_nil, *, pendTel, closings]; done)
    | (rename_i hp; simp only [received, List.filterMap_cons, List.filterMap_nil]; rw [carrying_other (by simp [hp])]; simp [*, pendTel]; done)

theorem GExec.telegrams {k : Kind} {m : Mode} {s : Bg} {tr : List Obs} (h : GExec k m s tr) :
    carrying m (received tr) ≤ (queued tr).length + pendTel m s.pc + interrupts tr + ackFailures tr + closings tr := by
  induction h with
  | init => exact Nat.zero_le _
  | env _ he ih =>
    have f := he.facts
    rw [received_append, f.received, List.append_nil, queued_append, f.queued, List.append_nil, f.pc, interrupts_append, f.interrupts,
      closings_append, f.closings, ackFailures_append, f.ackFailures]
    exact ih
  | @task s s' tr o hx ht ih =>
    have := ht.telegrams
    rw [received_append, carrying_append, queued_append, List.length_append, interrupts_append, closings_append, ackFailures_append]
    omega

/-- An attempt to connect is under way. -/
def pendConn : Pc → Nat
  | .connWait _ => 1
  | .enable _ => 1
  | .store _ => 1
  | _ => 0

theorem carries_head {m : Mode} {d : Bytes} {c : Cemi} (h : Carries m d c) : (seen d).take 4 = [6, 0x10, 4, 0x20] := by
  obtain ⟨t, h, _⟩ := h
  generalize seen d = b at h
  cases h
  simp [header, TUNNELING_REQUEST, word, byte]

theorem carries_not_grant {m : Mode} {d : Bytes} {r : ConnectionResponse} (h : Grants d r) : carrying m [d] = 0 := by
  refine carrying_zero ?_
  rintro ⟨c, hc⟩
  have h1 := carries_head hc
  obtain ⟨_, len, rest, _, _, _, h2⟩ := h
  rw [h2] at h1
  simp [connectResponse, header, CONNECT_RESPONSE, word, byte] at h1

theorem BgTr.unanswered {k : Kind} {m : Mode} {s s' : Bg} {o : List Obs} (h : BgTr k m s s' o) (hd : NoDisc s) :
    carrying m (connAnswers o) + (ups o).length + pendConn s'.pc ≤ attempts o + pendConn s.pc := by
  cases h
  case connOkClient d r hpc hr hk =>
    rw [show connAnswers [.rxConn d] = [d] from rfl, carries_not_grant ((tryConnect_iff _ _).1 hr), hpc]
    simp [ups, pendConn]
  case connOkMonitor d r hpc hr hk =>
    rw [show connAnswers [.rxConn d] = [d] from rfl, carries_not_grant ((tryConnect_iff _ _).1 hr), hpc]
    simp [ups, pendConn]
  case connBad d hpc hr =>
    have := carrying_one m d
    rw [show connAnswers [.rxConn d] = [d] from rfl, hpc]
    simp [ups, pendConn]; omega
  case connSendOk hpc =>
    rw [show attempts [.tx .task connReqPacket] = 1 from by decide]
    simp [connAnswers, carrying_nil, ups, pendConn]
  case discOk p hpc => exact absurd hpc (hd p)
  case discFail p hpc => exact absurd hpc (hd p)
  all_goals simp [connAnswers, carrying_nil, ups, pendConn, *]

theorem GExec.unanswered {k : Kind} {m : Mode} {s : Bg} {tr : List Obs} (h : GExec k m s tr) :
    carrying m (connAnswers tr) + (ups tr).length + pendConn s.pc ≤ attempts tr := by
  induction h with
  | init => exact Nat.le_refl _
  | env _ he ih =>
    have f := he.facts
    rw [connAnswers_append', f.answers, List.append_nil, ups_append', f.ups, List.append_nil, f.pc, attempts_append, he.attempts]
    exact ih
  | @task s s' tr o hx ht ih =>
    have := ht.unanswered hx.noDisc
    rw [connAnswers_append', carrying_append, ups_append', List.length_append, attempts_append]
    omega

/-- The client runs a status query. -/
def inStatus : Api → Nat
  | .stChan => 1
  | .stEp _ => 1
  | .stSend _ => 1
  | .stRecv => 1
  | _ => 0

/-- Number of status queries. -/
def queries (tr : List Obs) : Nat := (calls tr).countP (· == .status)

theorem queries_append (a b : List Obs) : queries (a ++ b) = queries a + queries b := by simp [queries]

theorem tunnelCemi_status {m : Mode} {c : Call} {x : Res Bytes} (h : tunnelCemi m c = some x) : (c == .status) = false := by
  cases c <;> first | rfl | (simp [tunnelCemi] at h)

/-- Each status query receives at most one datagram, and no other call receives any. -/
theorem Exec.thieves {m : Mode} {s : Sys} {tr : List Obs} (h : Exec m s tr) : (apiReceived tr).length + inStatus s.api ≤ queries tr := by
  induction h with
  | init => exact Nat.le_refl _
  | @step s s' tr o e hx hs ih =>
    rw [apiReceived_append', List.length_append, queries_append]
    suffices h : (apiReceived o).length + inStatus s'.api ≤ queries o + inStatus s.api by omega
    cases e with
    | bg e =>
      have hn := step_api hs
      simp only [Knx.step, Option.map_eq_some_iff, Prod.exists, Prod.mk.injEq] at hs
      obtain ⟨b, o', hb, rfl, rfl⟩ := hs
      have := bgStep_byCall hb
      have h1 : apiReceived o' = [] := by
        rw [apiReceived, List.filterMap_eq_nil_iff]
        intro x hx; have := this x hx; cases x <;> first | rfl | (cases this)
      rw [h1]; simp
    | delay d => cases hs; simp [apiReceived]
    | api e =>
      have ht := apiStep_tr hs
      clear hs ih
      cases ht
      case callTunnel c cemi h1 h2 h3 => simp [apiReceived, queries, calls, inStatus, h1]
      all_goals first
        | (simp [apiReceived, queries, calls, inStatus, *]; done)
        | (have : s.api ≠ .idle := by assumption
           simp [apiReceived, inStatus]; done)

/-- The monitor runs a disconnect call. -/
def inGoodbye : MApi → Nat
  | .dcChan => 1
  | .dcEp _ => 1
  | .dcSend _ => 1
  | .dcRecv => 1
  | _ => 0

theorem goodbyes_append' (a b : List Obs) : goodbyes (a ++ b) = goodbyes a + goodbyes b := by simp [goodbyes]

/-- Each disconnect call of a monitor receives at most one datagram, and no other call receives any. -/
theorem MExec.thieves {m : Mode} {s : MSys} {tr : List Obs} (h : MExec m s tr) : (apiReceived tr).length + inGoodbye s.api ≤ goodbyes tr := by
  induction h with
  | init => exact Nat.le_refl _
  | @step s s' tr o e hx hs ih =>
    rw [apiReceived_append', List.length_append, goodbyes_append']
    suffices h : (apiReceived o).length + inGoodbye s'.api ≤ goodbyes o + inGoodbye s.api by omega
    cases e with
    | bg e =>
      simp only [Knx.mstep, Option.map_eq_some_iff, Prod.exists, Prod.mk.injEq] at hs
      obtain ⟨b, o', hb, rfl, rfl⟩ := hs
      have := bgStep_byCall hb
      have h1 : apiReceived o' = [] := by
        rw [apiReceived, List.filterMap_eq_nil_iff]
        intro x hx; have := this x hx; cases x <;> first | rfl | (cases this)
      rw [h1]; simp
    | delay d => cases hs; simp [apiReceived]
    | api e =>
      have ht := mapiStep_tr hs
      clear hs ih
      cases ht
      case callTunnel c cemi h1 h2 h3 => simp [apiReceived, goodbyes, calls, inGoodbye, h1]
      all_goals first
        | (simp [apiReceived, goodbyes, calls, inGoodbye, setChan, *]; done)
        | (have : s.api ≠ .idle := by assumption
           simp [apiReceived, inGoodbye]; done)

theorem received_sub (tr : List Obs) : (received tr).Sublist (arrived tr) := by
  induction tr with
  | nil => exact List.Sublist.refl _
  | cons x tr ih =>
    rw [show received (x :: tr) = received [x] ++ received tr from received_append [x] tr,
      show arrived (x :: tr) = arrived [x] ++ arrived tr from arrived_append [x] tr]
    refine List.Sublist.append ?_ ih
    cases x <;> simp [received, arrived]

open Classical in
theorem telegrams_length (m : Mode) (l : List Bytes) : (l.filter fun d => ∃ c, Carries m d c).length = carrying m l := by
  rw [← List.countP_eq_length_filter]
  rfl

open Classical in
/-- C101, the part that holds, for the client: the telegrams that have arrived and are missing from the message channel are at most: one that
is being worked on, one per interrupt by the heart beat, per acknowledgement that could not be sent and per finding the channel closed, one per
status query, and one per attempt to connect that has not led to a connection. -/
theorem C101_client_partial {m : Mode} {s : Sys} {tr : List Obs} (h : Exec m s tr) :
    ((arrived tr).filter fun d => ∃ c, Carries m d c).length + (ups tr).length ≤
      (queued tr).length + 1 + interrupts tr + ackFailures tr + closings tr + (calls tr).countP (· == .status) + attempts tr := by
  have hg := (Reaches.client h).gexec
  have h1 := hg.telegrams
  have h2 := hg.unanswered
  have h3 := h.thieves
  have h4 := pendTel_le m s.bg.pc
  have h5 : carrying m (apiReceived tr) ≤ (apiReceived tr).length := List.countP_le_length
  unfold queries at h3
  rw [telegrams_length, carrying_arrived]
  omega

open Classical in
/-- C101, the part that holds, for the monitor: the same with disconnect calls in place of the status queries. -/
theorem C101_monitor_partial {m : Mode} {s : MSys} {tr : List Obs} (h : MExec m s tr) :
    ((arrived tr).filter fun d => ∃ c, Carries m d c).length + (ups tr).length ≤
      (queued tr).length + 1 + interrupts tr + ackFailures tr + closings tr + (calls tr).countP (· == .disconnect) + attempts tr := by
  have hg := (Reaches.monitor h).gexec
  have h1 := hg.telegrams
  have h2 := hg.unanswered
  have h3 := h.thieves
  have h4 := pendTel_le m s.bg.pc
  have h5 : carrying m (apiReceived tr) ≤ (apiReceived tr).length := List.countP_le_length
  unfold goodbyes at h3
  rw [telegrams_length, carrying_arrived]
  omega

open Classical in
/-- C101: without any of these events nothing is missing: each telegram that has arrived has been acknowledged and put into the message channel,
once and in the order of arrival. -/
theorem C101_all {m : Mode} {k : Kind} {s : Bg} {tr : List Obs} (h : Reaches m k s tr) (hpc : s.pc = .recv) (hi : interrupts tr = 0)
    (hf : ackFailures tr = 0) (hc : closings tr = 0) (ha : attempts tr = (ups tr).length) (hr : apiReceived tr = []) :
    List.Forall₂ (Carries m) ((arrived tr).filter fun d => ∃ c, Carries m d c) (queued tr) ∧
    (acked tr).filter (fun d => ∃ c, Carries m d c) = (arrived tr).filter fun d => ∃ c, Carries m d c := by
  have hg := h.gexec
  have h1 := hg.ledger
  have h2 := hg.telegrams
  have h3 := hg.unanswered
  rw [hpc] at h2 h3
  have e1 : pendTel m .recv = 0 := rfl
  have e2 : pendConn .recv = 0 := rfl
  rw [e1] at h2
  rw [e2] at h3
  obtain ⟨ds, hd, hp⟩ := h1.del
  have hs1 : ((acked tr).filter fun d => ∃ c, Carries m d c).Sublist ((arrived tr).filter fun d => ∃ c, Carries m d c) :=
    (((List.sublist_append_left _ _).trans h1.sub).trans (received_sub tr)).filter _
  have hs2 : ds.Sublist ((acked tr).filter fun d => ∃ c, Carries m d c) := by
    have : ds.filter (fun d => ∃ c, Carries m d c) = ds := by
      rw [List.filter_eq_self]
      intro d hdm
      obtain ⟨hl, hg⟩ := List.forall₂_iff_get.1 hd
      obtain ⟨i, hi, rfl⟩ := List.getElem_of_mem hdm
      have := hg i hi (by omega)
      simpa using ⟨_, this⟩
    rw [← this]
    exact hp.sublist.filter _
  have hl : ((arrived tr).filter fun d => ∃ c, Carries m d c).length ≤ ds.length := by
    rw [telegrams_length, carrying_arrived, hr, carrying_nil, forall₂_length hd]
    omega
  have hl1 := hs1.length_le
  have hl2 := hs2.length_le
  have e3 := hs1.eq_of_length_le (by omega)
  have e4 := hs2.eq_of_length_le (by omega)
  refine ⟨?_, e3⟩
  rw [← e3, ← e4]
  exact hd

/-- A status query that gets a telegram returns an error. -/
theorem status_telegram {m : Mode} {d : Bytes} {c : Cemi} (h : Carries m d c) : runRd ConnectionstateResponse.fromPacket id (buffer d) = .err := by
  cases hd : runRd ConnectionstateResponse.fromPacket id (buffer d) with
  | ok r =>
    exfalso
    obtain ⟨a, rest, h3, h4⟩ := runRd_ok_iff.1 hd
    have h5 := ConnectionstateResponse.fromPacket_iff.1 h3
    rw [buffer_eq_seen] at h5
    have h1 := carries_head h
    rw [h5] at h1
    simp [frame, header, CONNECTIONSTATE_RESPONSE, word, byte] at h1
  | err => rfl
  | panic => exact absurd (runRd_panic_iff.1 hd) ConnectionstateResponse.fromPacket_no_panic

/-- A disconnect call that gets a telegram returns an error. -/
theorem disconnect_telegram {m : Mode} {d : Bytes} {c : Cemi} (h : Carries m d c) : runRd DisconnectResponse.fromPacket id (buffer d) = .err := by
  cases hd : runRd DisconnectResponse.fromPacket id (buffer d) with
  | ok r =>
    exfalso
    obtain ⟨a, rest, h3, h4⟩ := runRd_ok_iff.1 hd
    have h5 := DisconnectResponse.fromPacket_iff.1 h3
    rw [buffer_eq_seen] at h5
    have h1 := carries_head h
    rw [h5] at h1
    simp [frame, header, DISCONNECT_RESPONSE, word, byte] at h1
  | err => rfl
  | panic => exact absurd (runRd_panic_iff.1 hd) DisconnectResponse.fromPacket_no_panic

/-- C101 is refuted by the status query of the client: whatever telegram `d` the server sends, the query may be the one to receive it; then it
fails, and the telegram is neither acknowledged nor delivered although the connection is up and the task waits for telegrams. -/
theorem C101_violated_status {m : Mode} {d : Bytes} {c : Cemi} (hd : Carries m d c) :
    ∃ s tr, Exec m s tr ∧ s.bg.pc = .recv ∧ s.bg.conn.isSome ∧ s.api = .idle ∧ arrived tr = [grant7, d] ∧ returned tr = [.err] ∧
      acksSent tr = [] ∧ queued tr = [] := by
  obtain ⟨s, tr, h1, h2⟩ := exec_of_evs (m := m) (evs := [.bg .run, .bg .sendOk, .bg (.dgram grant7), .bg .run,
      .api (.call .status), .api .run, .api .run, .api .sendOk])
    (f := fun x => ((x.1.bg.pc, x.1.bg.conn.isSome, x.1.api), arrived x.2, returned x.2 == [] && acksSent x.2 == [] && queued x.2 == []))
    (y := ((.recv, true, .stRecv), [grant7], true)) (by cases m <;> decide +kernel)
  simp only [Prod.mk.injEq, Bool.and_eq_true, beq_iff_eq] at h2
  obtain ⟨⟨g1, g2, g3⟩, g4, ⟨g5, g6⟩, g7⟩ := h2
  refine ⟨{ s with api := .idle }, tr ++ [.rxApi d, .ret .err], h1.step (.api (.dgram d)) ?_, g1, g2, rfl, ?_, ?_, ?_, ?_⟩
  · simp only [step, apiStep, g3, reduceCtorEq, if_false, status_telegram hd]
    rfl
  · rw [arrived_append, g4]; rfl
  · simp [returned] at g5 ⊢; simpa using g5
  · rw [acksSent_append, g6]; rfl
  · rw [queued_append, g7]; rfl

/-- C101 is refuted by the disconnect call of the monitor in the same way. -/
theorem C101_violated_disconnect {m : Mode} {d : Bytes} {c : Cemi} (hd : Carries m d c) :
    ∃ s tr, MExec m s tr ∧ s.bg.pc = .recv ∧ s.bg.conn.isSome ∧ s.api = .idle ∧ arrived tr = [grant7, d] ∧ returned tr = [.err] ∧
      acksSent tr = [] ∧ queued tr = [] := by
  obtain ⟨s, tr, h1, h2⟩ := mexec_of_evs (m := m) (evs := [.bg .run, .bg .sendOk, .bg (.dgram grant7), .bg .sendOk, .bg .run, .bg .run,
      .api (.call .disconnect), .api .run, .api .run, .api .sendOk])
    (f := fun x => ((x.1.bg.pc, x.1.bg.conn.isSome, x.1.api), arrived x.2, returned x.2 == [] && acksSent x.2 == [] && queued x.2 == []))
    (y := ((.recv, true, .dcRecv), [grant7], true)) (by cases m <;> decide +kernel)
  simp only [Prod.mk.injEq, Bool.and_eq_true, beq_iff_eq] at h2
  obtain ⟨⟨g1, g2, g3⟩, g4, ⟨g5, g6⟩, g7⟩ := h2
  refine ⟨{ s with api := .idle }, tr ++ [.rxApi d, .ret .err], h1.step (.api (.dgram d)) ?_, g1, g2, rfl, ?_, ?_, ?_, ?_⟩
  · simp only [mstep, mapiStep, mcallStep, g3, reduceCtorEq, if_false, disconnect_telegram hd]
    rfl
  · rw [arrived_append, g4]; rfl
  · simp [returned] at g5 ⊢; simpa using g5
  · rw [acksSent_append, g6]; rfl
  · rw [queued_append, g7]; rfl

/-- C101 is refuted by the attempt to connect: a telegram (of a connection the server still keeps) that comes first is discarded, and the attempt
has failed. -/
theorem C101_violated_connect {m : Mode} {k : Kind} {s : Bg} {tr : List Obs} {d : Bytes} {c : Cemi} {t : Nat} (h : Reaches m k s tr)
    (hpc : s.pc = .connWait t) (hd : Carries m d c) :
    Reaches m k { s with pc := .connSleep (s.now + 10000) } (tr ++ [.rxConn d]) := by
  refine h.append (evs := [.dgram d]) ?_
  have : tryConnect (buffer d) = .err := by
    cases he : tryConnect (buffer d) with
    | ok r =>
      have h1 := carries_not_grant (m := m) ((tryConnect_iff _ _).1 he)
      have : HasTelegram m d := ⟨c, hd⟩
      simp [carrying, this] at h1
    | err => rfl
    | panic => exact absurd he (tryConnect_no_panic _)
  simp [bgRun, bgStep, hpc, this]

example (m : Mode) : ∃ s tr, Exec m s tr ∧ s.bg.pc = .recv ∧ interrupts tr = 0 ∧ ackFailures tr = 0 ∧ closings tr = 0 ∧ attempts tr = 1 ∧
    (ups tr).length = 1 ∧ apiReceived tr = [] ∧ arrived tr = [grant7, req7, req7] ∧ queued tr = [tel7, tel7] := by
  obtain ⟨s, tr, h1, h2⟩ := exec_of_evs (m := m) (evs := [.bg .run, .bg .sendOk, .bg (.dgram grant7), .bg .run,
      .bg (.dgram req7), .bg .sendOk, .bg .run, .bg (.dgram req7), .bg .sendOk, .bg .run])
    (f := fun x => (x.1.bg.pc, [interrupts x.2, ackFailures x.2, closings x.2, attempts x.2, (ups x.2).length, (apiReceived x.2).length],
      arrived x.2, queued x.2))
    (y := (.recv, [0, 0, 0, 1, 1, 0], [grant7, req7, req7], [tel7, tel7])) (by cases m <;> decide +kernel)
  simp only [Prod.mk.injEq, List.cons.injEq, List.length_eq_zero_iff, and_true] at h2
  obtain ⟨g1, ⟨g2, g3, g4, g5, g6, g7⟩, g8, g9⟩ := h2
  exact ⟨s, tr, h1, g1, g2, g3, g4, g5, g6, g7, g8, g9⟩

example (m : Mode) : ∃ s tr, Reaches m .client s tr ∧ s.pc = .connWait 30000 ∧ Carries m req7 tel7 := by
  obtain ⟨s, tr, h1, h2⟩ := exec_of_evs (m := m) (evs := [.bg .run, .bg .sendOk])
    (f := fun x => x.1.bg.pc) (y := .connWait 30000) (by cases m <;> decide +kernel)
  exact ⟨s.bg, tr, .client h1, h2, carries7 m⟩

end Knx
