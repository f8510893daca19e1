import Verif.Model.Monitor
import Verif.Props.Frames

/-!
# Lemmas about the transport: the steps as relations

`BgTr` lists the steps of the background task, `Env` what the API and the passing of time can do to the
state of the task. `GExec` are the executions of a task in such an environment; those of the client and of
the monitor are instances (`Exec.gexec`, `MExec.gexec`), so what is proved of `GExec` holds for both.
-/

namespace Knx

/-- The steps of the background task. -/
inductive BgTr (k : Kind) (m : Mode) (s : Bg) : Bg → List Obs → Prop
  | topNone : s.pc = .top → s.conn = none → BgTr k m s { s with pc := .connSend } []
  | topSome (c) : s.pc = .top → s.conn = some c → BgTr k m s { s with pc := .recv } []
  | connSendOk : s.pc = .connSend →
      BgTr k m s { s with pc := .connWait (s.now + 30000) } [.tx .task connReqPacket]
  | connSendFail : s.pc = .connSend →
      BgTr k m s { s with pc := .connSleep (s.now + 10000) } [.txFail .task connReqPacket]
  | connOkClient (dl d r) : s.pc = .connWait dl → tryConnect (buffer d) = .ok r → k = .client →
      BgTr k m s { s with pc := .store r } [.rxConn d]
  | connOkMonitor (dl d r) : s.pc = .connWait dl → tryConnect (buffer d) = .ok r → k = .monitor →
      BgTr k m s { s with pc := .enable r } [.rxConn d]
  | connBad (dl d) : s.pc = .connWait dl → tryConnect (buffer d) = .err →
      BgTr k m s { s with pc := .connSleep (s.now + 10000) } [.rxConn d]
  | connErr (dl) : s.pc = .connWait dl →
      BgTr k m s { s with pc := .connSleep (s.now + 10000) } [.rxErr]
  | connTimeout (dl) : s.pc = .connWait dl → dl ≤ s.now →
      BgTr k m s { s with pc := .connSleep (s.now + 10000) } []
  | connRetry (dl) : s.pc = .connSleep dl → dl ≤ s.now → BgTr k m s { s with pc := .connSend } []
  | enableOk (r) : s.pc = .enable r →
      BgTr k m s { s with pc := .store r } [.tx .task (enablePacket r.channel)]
  | enableFail (r) : s.pc = .enable r →
      BgTr k m s { s with pc := .top } [.txFail .task (enablePacket r.channel)]
  | storeClient (r) : s.pc = .store r → k = .client →
      BgTr k m s { s with conn := some (Conn.ofResponse k r), pc := .recv } [.up r]
  | storeMonitor (r) : s.pc = .store r → k = .monitor →
      BgTr k m s { s with conn := some (Conn.ofResponse k r), pc := .notify s.subs [] } [.up r]
  | notifyEnd (active) : s.pc = .notify [] active → BgTr k m s { s with subs := active, pc := .recv } []
  | notifyClosed (id todo active) : s.pc = .notify (id :: todo) active → (s.chans id).isOpen = false →
      BgTr k m s { s with pc := .notify todo active } []
  | notifyOpen (id todo active) : s.pc = .notify (id :: todo) active → (s.chans id).isOpen = true →
      (s.chans id).len < (s.chans id).cap →
      BgTr k m s { s with
        chans := fun i => if i = id then { s.chans id with len := (s.chans id).len + 1 } else s.chans i
        pc := .notify todo (active ++ [id]) } [.notified id]
  | recvEmpty : s.pc = .recv → BgTr k m s s [.rx []]
  | recvErr (d) : s.pc = .recv → d ≠ [] → parseResponse (buffer d) = .err →
      BgTr k m s { s with pc := .teardown } [.rx d]
  | recvPanic (d) : s.pc = .recv → d ≠ [] → parseResponse (buffer d) = .panic →
      BgTr k m s { s with pc := .crashed } [.rx d, .crash]
  | recvReq (d r) : s.pc = .recv → d ≠ [] → parseResponse (buffer d) = .ok (.tunnelingRequest r) →
      BgTr k m s { s with pc := .ackReq r.channel r.seq r.cemi } [.rx d]
  | recvAck (d r) : s.pc = .recv → d ≠ [] → parseResponse (buffer d) = .ok (.tunnelingAck r) →
      BgTr k m s s [.rx d]
  | recvFeat (d r) : s.pc = .recv → d ≠ [] → parseResponse (buffer d) = .ok (.featureResponse r) →
      BgTr k m s { s with pc := .ackFeat r.channel r.seq } [.rx d]
  | recvStateOk (d r) : s.pc = .recv → d ≠ [] → parseResponse (buffer d) = .ok (.connectionstateResponse r) →
      r.status = 0 → BgTr k m s s [.rx d]
  | recvStateBad (d r) : s.pc = .recv → d ≠ [] → parseResponse (buffer d) = .ok (.connectionstateResponse r) →
      r.status ≠ 0 → BgTr k m s { s with pc := .teardown } [.rx d]
  | recvDisc (d r) : s.pc = .recv → d ≠ [] → parseResponse (buffer d) = .ok (.disconnectResponse r) →
      BgTr k m s { s with pc := .done } [.rx d, .exit]
  | recvIoErr : s.pc = .recv → BgTr k m s { s with pc := .teardown } [.rxErr]
  | ackReqOk (ch sq raw c) : s.pc = .ackReq ch sq raw → runRd (Cemi.fromPacket m) id raw = .ok c →
      BgTr k m s { s with pc := .push c } [.tx .task (TunnelingAck.mk ch sq 0).packet]
  | ackReqBad (ch sq raw) : s.pc = .ackReq ch sq raw → runRd (Cemi.fromPacket m) id raw = .err →
      BgTr k m s { s with pc := .recv } [.tx .task (TunnelingAck.mk ch sq 0).packet]
  | ackReqPanic (ch sq raw) : s.pc = .ackReq ch sq raw → runRd (Cemi.fromPacket m) id raw = .panic →
      BgTr k m s { s with pc := .crashed } [.tx .task (TunnelingAck.mk ch sq 0).packet, .crash]
  | ackReqFail (ch sq raw) : s.pc = .ackReq ch sq raw →
      BgTr k m s { s with pc := .teardown } [.txFail .task (TunnelingAck.mk ch sq 0).packet]
  | pushClosed (c) : s.pc = .push c → s.rxOpen = false → BgTr k m s { s with pc := .teardown } [.closed]
  | pushOk (c) : s.pc = .push c → s.rxOpen = true → s.queue.length < 100 →
      BgTr k m s { s with queue := s.queue ++ [c], pc := .recv } [.queued c]
  | ackFeatOk (ch sq) : s.pc = .ackFeat ch sq →
      BgTr k m s { s with pc := .recv } [.tx .task (TunnelingAck.mk ch sq 0).packet]
  | ackFeatFail (ch sq) : s.pc = .ackFeat ch sq →
      BgTr k m s { s with pc := .teardown } [.txFail .task (TunnelingAck.mk ch sq 0).packet]
  | discOk (p) : s.pc = .discResp p → BgTr k m s { s with pc := .done } [.tx .task p, .exit]
  | discFail (p) : s.pc = .discResp p → BgTr k m s { s with pc := .done } [.txFail .task p, .exit]
  | hbOk (ch ep) : s.pc = .hb ch ep →
      BgTr k m s { s with pc := .recv } [.tx .task (ConnectionstateRequest.mk ch ep).packet]
  | hbFail (ch ep) : s.pc = .hb ch ep →
      BgTr k m s { s with pc := .teardown } [.txFail .task (ConnectionstateRequest.mk ch ep).packet]
  | teardown : s.pc = .teardown → BgTr k m s { s with conn := none, pc := .top } [.down]
  | tickIdle (c) : s.pc = .recv → s.hbDue ≤ s.now → s.conn = some c →
      BgTr k m s { s with hbDue := nextTick s.now s.hbDue, pc := .hb c.channel c.endpoint } [.tick]
  | tickBusy (c) : busy s.pc = true → s.hbDue ≤ s.now → s.conn = some c →
      BgTr k m s { s with hbDue := nextTick s.now s.hbDue, pc := .hb c.channel c.endpoint } [.tick, .interrupt]
  | tickIdleNone : s.pc = .recv → s.hbDue ≤ s.now → s.conn = none →
      BgTr k m s { s with hbDue := nextTick s.now s.hbDue, pc := .teardown } [.tick]
  | tickBusyNone : busy s.pc = true → s.hbDue ≤ s.now → s.conn = none →
      BgTr k m s { s with hbDue := nextTick s.now s.hbDue, pc := .teardown } [.tick, .interrupt]

theorem buffer_nil : buffer [] = List.replicate 100 0 := by
  simp [buffer]

theorem tryConnect_zero : tryConnect (buffer []) = .err := by rfl

theorem tryConnect_no_panic (b : Bytes) : tryConnect b ≠ .panic := by
  unfold tryConnect
  have := (C23_connect_response b [] ⟨0, 0, ⟨0, ⟨⟨0, 0, 0, 0⟩, 0⟩⟩, ⟨⟨0, 0, 0⟩⟩⟩).2
  unfold runRd
  cases h : ConnectionResponse.fromPacket b with
  | ok x => simp only [id]; split <;> simp
  | err => simp
  | panic => exact absurd h this

theorem onDatagram_nil : onDatagram [] = .recv := rfl

theorem self_pc {s : Bg} {p : Pc} (h : s.pc = p) : { s with pc := p } = s := by
  cases s; simp_all

/-- Every step of the task is one of the listed ones. -/
theorem bgStep_tr {k : Kind} {m : Mode} {s s' : Bg} {e : BgEv} {o : List Obs}
    (h : bgStep k m s e = some (s', o)) : BgTr k m s s' o := by
  unfold bgStep at h
  split at h
  · unfold tickStep at h
    split at h
    · rename_i hs
      by_cases hb : busy s.pc = true
      · simp only [hb, if_true] at h
        split at h
        · rename_i hc; cases h; exact .tickBusy _ hb hs.2 hc
        · rename_i hc; cases h; exact .tickBusyNone hb hs.2 hc
      · have hpc : s.pc = .recv := by
          revert hb hs
          cases s.pc <;> simp [busy, inSelect]
        simp only [hb] at h
        split at h
        · rename_i hc; cases h; exact .tickIdle _ hpc hs.2 hc
        · rename_i hc; cases h; exact .tickIdleNone hpc hs.2 hc
    · cases h
  split at h
  all_goals (rename_i hpc)
  · split at h
    · split at h
      · rename_i hc; cases h; exact .topNone hpc hc
      · rename_i c hc; cases h; exact .topSome c hpc hc
    · cases h
  · split at h
    · cases h; exact .connSendOk hpc
    · cases h; exact .connSendFail hpc
    · cases h
  · split at h
    · split at h
      · rename_i hr
        cases h
        cases k
        · exact .connOkClient _ _ _ hpc hr rfl
        · exact .connOkMonitor _ _ _ hpc hr rfl
      · rename_i hr; cases h; exact .connBad _ _ hpc hr
      · rename_i hr; exact absurd hr (tryConnect_no_panic _)
    · split at h
      · rename_i hr; exact absurd (tryConnect_zero.symm.trans hr) (by simp)
      · cases h; exact .connErr _ hpc
      · rename_i hr; exact absurd (tryConnect_zero.symm.trans hr) (by simp)
    · split at h
      · rename_i hd; cases h; exact .connTimeout _ hpc hd
      · cases h
    · cases h
  · split at h
    · split at h
      · rename_i hd; cases h; exact .connRetry _ hpc hd
      · cases h
    · cases h
  · split at h
    · cases h; exact .enableOk _ hpc
    · cases h; exact .enableFail _ hpc
    · cases h
  · split at h
    · cases k
      · cases h; exact .storeClient _ hpc rfl
      · cases h; exact .storeMonitor _ hpc rfl
    · cases h
  · split at h
    · split at h
      · cases h; exact .notifyEnd _ hpc
      · simp only at h
        split at h
        · rename_i hc; cases h; exact .notifyClosed _ _ _ hpc hc
        · rename_i hc
          split at h
          · rename_i hl; cases h; exact .notifyOpen _ _ _ hpc (by simpa using hc) hl
          · cases h
    · cases h
  · split at h
    · rename_i d _
      cases h
      unfold onDatagram
      by_cases hd : d = []
      · subst hd
        simpa [endObs, self_pc hpc] using BgTr.recvEmpty (k := k) (m := m) hpc
      · rw [if_neg (by simpa using hd)]
        split
        · rename_i hp; exact .recvErr _ hpc hd hp
        · rename_i hp; exact .recvPanic _ hpc hd hp
        · rename_i hp; exact .recvReq _ _ hpc hd hp
        · rename_i hp; simpa [endObs, self_pc hpc] using BgTr.recvAck (k := k) (m := m) _ _ hpc hd hp
        · rename_i hp; exact .recvFeat _ _ hpc hd hp
        · rename_i hp
          split
          · rename_i hs; exact .recvStateBad _ _ hpc hd hp hs
          · rename_i hs
            simpa [endObs, self_pc hpc] using BgTr.recvStateOk (k := k) (m := m) _ _ hpc hd hp (by simpa using hs)
        · rename_i hp; exact .recvDisc _ _ hpc hd hp
        · rename_i hp; exact absurd hp (C22_violated _ _)
    · cases h; exact .recvIoErr hpc
    · cases h
  · split at h
    · split at h
      · rename_i hr; cases h; exact .ackReqOk _ _ _ _ hpc hr
      · rename_i hr; cases h; exact .ackReqBad _ _ _ hpc hr
      · rename_i hr; cases h; exact .ackReqPanic _ _ _ hpc hr
    · cases h; exact .ackReqFail _ _ _ hpc
    · cases h
  · split at h
    · cases h; exact .ackFeatOk _ _ hpc
    · cases h; exact .ackFeatFail _ _ hpc
    · cases h
  · split at h
    · split at h
      · rename_i hc; cases h; exact .pushClosed _ hpc hc
      · rename_i hc
        split at h
        · rename_i hl; cases h; exact .pushOk _ hpc (by simpa using hc) hl
        · cases h
    · cases h
  · split at h
    · cases h; exact .discOk _ hpc
    · cases h; exact .discFail _ hpc
    · cases h
  · split at h
    · cases h; exact .hbOk _ _ hpc
    · cases h; exact .hbFail _ _ hpc
    · cases h
  · split at h
    · cases h; exact .teardown hpc
    · cases h
  · cases h
  · cases h

end Knx
