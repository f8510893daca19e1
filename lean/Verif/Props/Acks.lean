import Verif.Props.Session
import Verif.Props.Monitor

/-!
# Sequence numbers and acknowledgements (C46, C66): the monitor, and examples
-/

namespace Knx

open Spec

/-- C66, the part that holds, for the monitor: a call hands at most one datagram to the socket, and draws at most one sequence number. -/
theorem C66_monitor_once_partial {m : Mode} {s : MSys} {tr : List Obs} (h : MExec m s tr) :
    (apiSent (since isCall tr)).length ≤ 1 ∧ (drawn (since isCall tr)).length ≤ 1 := by
  induction h with
  | init => exact ⟨by simp [since, apiSent], by simp [since, drawn]⟩
  | @step s s' tr o e hx hs ih =>
    have keep : o.any isCall = false → apiSent o = [] → drawn o = [] →
        (apiSent (since isCall (tr ++ o))).length ≤ 1 ∧ (drawn (since isCall (tr ++ o))).length ≤ 1 := by
      intro h1 h2 h3
      rw [since_task _ h1, apiSent_append, drawn_append, h2, h3, List.append_nil, List.append_nil]
      exact ih
    cases e with
    | bg e =>
      simp only [Knx.mstep, Option.map_eq_some_iff, Prod.exists, Prod.mk.injEq] at hs
      obtain ⟨b, o', hb, rfl, rfl⟩ := hs
      have f := (bgStep_tr hb).facts
      exact keep f.noCall f.sent f.drawn
    | delay d => cases hs; exact keep rfl rfl rfl
    | api e =>
      have hci := hx.callInv
      have ht := mapiStep_tr hs
      cases ht
      case callTunnel => rw [since_call _ _ [] rfl]; exact ⟨by simp [apiSent], by simp [drawn]⟩
      case callErr => rw [since_call _ _ [.ret .err] rfl]; exact ⟨by simp [apiSent], by simp [drawn]⟩
      case callPanic => rw [since_call _ _ [.ret .panic] rfl]; exact ⟨by simp [apiSent], by simp [drawn]⟩
      case callDisc => rw [since_call _ _ [] rfl]; exact ⟨by simp [apiSent], by simp [drawn]⟩
      case callConn => rw [since_call _ _ [] rfl]; exact ⟨by simp [apiSent], by simp [drawn]⟩
      case callSub => rw [since_call _ _ [] rfl]; exact ⟨by simp [apiSent], by simp [drawn]⟩
      case draw cemi d h1 h2 h3 =>
        rw [h1] at hci
        obtain ⟨_, _, _, g1, g2⟩ := hci
        rw [since_task _ rfl, apiSent_append, drawn_append, g1, g2]
        exact ⟨by simp [apiSent], by simp [drawn]⟩
      case send p h1 =>
        rw [h1] at hci
        obtain ⟨_, _, g1, n, _, _, _, g2, _⟩ := hci
        rw [since_task _ rfl, apiSent_append, drawn_append, g1, g2]
        exact ⟨by simp [apiSent], by simp [drawn]⟩
      case dcSend p h1 =>
        rw [h1] at hci
        obtain ⟨_, g1, _⟩ := hci
        rw [since_task _ rfl, apiSent_append, drawn_append, g1]
        exact ⟨by simp [apiSent], by simpa [drawn] using ih.2⟩
      all_goals exact keep rfl rfl rfl

/-- C66 is refuted for the monitor: receiving an acknowledgement, whatever its channel, sequence number and status, changes nothing. -/
theorem C66_monitor_violated {m : Mode} {s : MSys} {tr : List Obs} (h : MExec m s tr) (hpc : s.bg.pc = .recv) (channel seq status : U8) (d : Bytes)
    (hd : Decodes (seen d) (.tunnelingAck ⟨channel, seq, status⟩)) : MExec m s (tr ++ [.rx d]) := by
  refine h.step (.bg (.dgram d)) ?_
  have hn : d ≠ [] := by rintro rfl; exact decodes_nil hd
  have e : onDatagram d = .recv := by
    unfold onDatagram
    rw [if_neg (by simpa using hn), buffer_eq_seen, (C21_dispatch_exact _ _).2 hd]
  obtain ⟨bg, api⟩ := s
  simp only at hpc
  simp only [mstep, bgStep, reduceCtorEq, if_false, hpc, e, endObs, Option.map_some]
  rw [self_pc hpc]

/-- C66 is refuted for the monitor: a call that sends a request returns `Ok` as soon as the datagram is handed to the socket; no acknowledgement
and no confirmation can have been received for it. -/
theorem C66_monitor_violated_send {m : Mode} {s : MSys} {tr : List Obs} (h : MExec m s tr) (p : Bytes) (hs : s.api = .sendReq p) :
    ∃ s', MExec m s' (tr ++ [.tx .api p, .ret .unit]) ∧ s'.bg = s.bg ∧ s'.api = .idle ∧
      apiSent (since isCall (tr ++ [.tx .api p, .ret .unit])) = [p] := by
  refine ⟨{ s with api := .idle }, h.step (.api .sendOk) ?_, rfl, rfl, ?_⟩
  · simp [mstep, mapiStep, mcallStep, hs, mfinish]
  · have hci := h.callInv
    rw [hs] at hci
    obtain ⟨_, _, g1, _⟩ := hci
    rw [since_task _ rfl, apiSent_append, g1]
    rfl

/-- Non-vacuity of C46: a client draws 0 and 1 for two writes. -/
example (m : Mode) : ∃ s tr, Exec m s tr ∧ drawn tr = [0, 1] ∧ drawn (since isUp tr) = [0, 1] := by
  obtain ⟨s, tr, h1, h2⟩ := exec_of_evs (m := m) (evs := [.bg .run, .bg .sendOk, .bg (.dgram grant7), .bg .run,
      .api (.call (.write (.group3 ⟨1, 0, 1⟩) [1] true)), .api .run, .api .run, .api .sendFail,
      .api (.call (.write (.group3 ⟨1, 0, 1⟩) [0] true)), .api .run, .api .run, .api .sendFail])
    (f := fun x => (drawn x.2, drawn (since isUp x.2))) (y := ([0, 1], [0, 1])) (by cases m <;> decide +kernel)
  simp only [Prod.mk.injEq] at h2
  exact ⟨s, tr, h1, h2⟩

/-- Non-vacuity of C46: a monitor draws 1 and 2. -/
example (m : Mode) : ∃ s tr, MExec m s tr ∧ drawn (since isUp tr) = [1, 2] := by
  obtain ⟨s, tr, h1, h2⟩ := mexec_of_evs (m := m)
    (evs := mconnEvs ++ (List.replicate 2 [.api (.call (.solicit (.group3 ⟨1, 0, 1⟩))), .api .run, .api .run, .api .sendOk]).flatten)
    (f := fun x => drawn (since isUp x.2)) (y := [1, 2]) (by cases m <;> decide +kernel)
  exact ⟨s, tr, h1, h2⟩

/-- Non-vacuity of C66 for the monitor: a state in which a request is about to be sent while the task receives, and an acknowledgement that refuses. -/
example (m : Mode) : ∃ s tr p d, MExec m s tr ∧ s.api = .sendReq p ∧ s.bg.pc = .recv ∧ Decodes (seen d) (.tunnelingAck ⟨9, 3, 0x29⟩) := by
  obtain ⟨s, tr, h1, h2⟩ := mexec_of_evs (m := m)
    (evs := mconnEvs ++ [.api (.call (.solicit (.group3 ⟨1, 0, 1⟩))), .api .run, .api .run])
    (f := fun x => (decide (x.1.bg.pc = .recv), match x.1.api with | .sendReq _ => true | _ => false)) (y := (true, true))
    (by cases m <;> decide +kernel)
  simp only [Prod.mk.injEq, decide_eq_true_eq] at h2
  have h3 := h2.2
  split at h3
  · rename_i p hp
    refine ⟨s, tr, p, frame TUNNELING_ACK [4, 9, 3, 0x29], h1, hp, h2.1, ?_⟩
    rw [seen_short (by simp [frame, word])]
    exact .tunnelingAck 9 3 0x29 _
  · cases h3

end Knx
