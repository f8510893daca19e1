import Verif.Props.EndToEnd

/-!
# Who receives the answer to a question (C84)
-/

namespace Knx
open Spec

/-! ## C84 -/

theorem runRd_state (ch st : U8) : runRd ConnectionstateResponse.fromPacket id (buffer (frame CONNECTIONSTATE_RESPONSE [ch, st])) = .ok ⟨ch, st⟩ := by
  rw [buffer_eq_seen, seen_short (by simp [frame, word])]
  exact (runRd_ok_iff (f := id)).2 ⟨⟨ch, st⟩, _, ConnectionstateResponse.fromPacket_iff.2 rfl, rfl⟩

theorem runRd_bye (ch st : U8) : runRd DisconnectResponse.fromPacket id (buffer (frame DISCONNECT_RESPONSE [ch, st])) = .ok ⟨ch, st⟩ := by
  rw [buffer_eq_seen, seen_short (by simp [frame, word])]
  exact (runRd_ok_iff (f := id)).2 ⟨⟨ch, st⟩, _, DisconnectResponse.fromPacket_iff.2 rfl, rfl⟩

/-- C84, the part that holds: if it is the waiting status call that receives the answer, it returns the answer; likewise for the
disconnect call of the monitor. -/
theorem C84_partial (m : Mode) (ch st : U8) :
    (∀ s tr, Exec m s tr → bracket tr = some true → lastCall tr = some .status → apiSent (since isCall tr) ≠ [] →
      ∃ s', step m s (.api (.dgram (frame CONNECTIONSTATE_RESPONSE [ch, st])))
        = some (s', [.rxApi (frame CONNECTIONSTATE_RESPONSE [ch, st]), .ret (.state ⟨ch, st⟩)]) ∧ s'.bg = s.bg) ∧
    (∀ s tr, MExec m s tr → s.api = .dcRecv →
      ∃ s', mstep m s (.api (.dgram (frame DISCONNECT_RESPONSE [ch, st])))
        = some (s', [.rxApi (frame DISCONNECT_RESPONSE [ch, st]), .ret (.code st)]) ∧ s'.bg = s.bg) := by
  constructor
  · intro s tr h h0 h1 h2
    have ha := h.stRecv h0 h1 h2
    exact ⟨{ s with api := .idle }, by simp [step, apiStep, ha, runRd_state, finish], rfl⟩
  · intro s tr _ ha
    exact ⟨{ s with api := .idle }, by simp [mstep, mapiStep, mcallStep, ha, runRd_bye, mfinish], rfl⟩

theorem onDatagram_fine {d : Bytes} {t : ConnectionstateResponse} (h : Decodes (seen d) (.connectionstateResponse t)) (hs : t.status = 0) :
    onDatagram d = .recv := by
  unfold onDatagram
  have hn : d ≠ [] := by rintro rfl; exact decodes_nil h
  rw [if_neg (by simpa using hn), buffer_eq_seen, (C21_dispatch_exact _ _).2 h]
  exact if_neg (by simpa using hs)

/-- C84 is refuted for the status query: while the call waits, the task waits for a datagram on the same socket and may be the one
that receives the answer. A good answer is then thrown away: the state is what it was before, the call is still waiting.
Afterwards the call can be waiting for any number of minutes, with every heart beat sent on time. -/
theorem C84_violated_status {m : Mode} {s : Sys} {tr : List Obs} (h : Exec m s tr) (h0 : bracket tr = some true)
    (h1 : lastCall tr = some .status) (h2 : apiSent (since isCall tr) ≠ []) (hpc : s.bg.pc = .recv) (ch : U8) :
    step m s (.bg (.dgram (frame CONNECTIONSTATE_RESPONSE [ch, 0]))) = some (s, [.rx (frame CONNECTIONSTATE_RESPONSE [ch, 0])]) ∧
    ∀ c, s.bg.conn = some c → s.bg.hbDue = s.bg.now → ∀ n, ∃ s' tr', PromptRun m s (.rx (frame CONNECTIONSTATE_RESPONSE [ch, 0]) :: tr') s' ∧
      ¬ Over tr' ∧ s'.bg.now = s.bg.now + 60000 * n := by
  have e : onDatagram (frame CONNECTIONSTATE_RESPONSE [ch, 0]) = .recv := by
    refine onDatagram_fine (t := ⟨ch, 0⟩) ?_ rfl
    rw [seen_short (by simp [frame, word])]
    exact .connectionstateResponse ch 0 _
  have h3 : step m s (.bg (.dgram (frame CONNECTIONSTATE_RESPONSE [ch, 0]))) = some (s, [.rx (frame CONNECTIONSTATE_RESPONSE [ch, 0])]) := by
    simp only [step, bgStep, hpc, e, endObs, reduceCtorEq, if_false, Option.map_some]
    rw [← hpc]
  refine ⟨h3, fun c hc hd n => ?_⟩
  have ha := h.stRecv h0 h1 h2
  have h4 := beatsRun m s c hpc hc hd (by rw [ha]; rfl) n
  exact ⟨_, _, .step (.bg (.dgram _)) trivial h3 h4, not_over_beats _ _, rfl⟩

theorem done_stuck {k : Kind} {m : Mode} {b : Bg} (e : BgEv) (h : b.pc = .done) : bgStep k m b e = none := by
  unfold bgStep
  rw [h]
  split
  · simp [tickStep, h, inSelect]
  · rfl

/-- The steps of the monitor's callers leave the task where it is and send nothing on its behalf. -/
theorem MApiTr.task {m : Mode} {s s' : MSys} {o : List Obs} (h : MApiTr m s s' o) : s'.bg.pc = s.bg.pc ∧ taskSent o = [] := by
  cases h <;> exact ⟨rfl, rfl⟩

/-- After the task has ended it sends nothing. -/
theorem mdone_silent {m : Mode} {s s' : MSys} {tr : List Obs} (h : MRun m s tr s') (h2 : s.bg.pc = .done) : taskSent tr = [] := by
  induction h with
  | nil => rfl
  | @step s s1 s2 o tr e hs hr ih =>
    cases e with
    | bg e => simp [mstep, done_stuck e h2] at hs
    | delay d => cases hs; exact ih h2
    | api e =>
      obtain ⟨h3, h4⟩ := (mapiStep_tr hs).task
      rw [taskSent_append, h4, ih (h3.trans h2)]
      rfl

/-- When the task has ended the waiting disconnect call of the monitor can only be ended by a datagram, an error or the caller. -/
theorem mdisc_stuck {m : Mode} {s s' : MSys} {tr : List Obs} (h : MRun m s tr s') (h1 : s.api = .dcRecv) (h2 : s.bg.pc = .done)
    (ho : Over tr) : (∃ d, Obs.rxApi d ∈ tr) ∨ Obs.ret .panic ∈ tr ∨ Obs.cancelled ∈ tr := by
  induction h with
  | nil => rcases ho with ho | ho <;> simp [returned] at ho
  | @step s s1 s2 o tr e hs hr ih =>
    have key : s1.api = .dcRecv → s1.bg.pc = .done → ¬ Over o →
        (∃ d, Obs.rxApi d ∈ o ++ tr) ∨ Obs.ret .panic ∈ o ++ tr ∨ Obs.cancelled ∈ o ++ tr := by
      intro g1 g2 g3
      have : Over tr := by
        rcases ho with ho | ho
        · rw [returned_append] at ho
          by_cases hq : returned o = []
          · rw [hq] at ho; exact Or.inl ho
          · exact absurd (Or.inl hq) g3
        · rcases List.mem_append.1 ho with ho | ho
          · exact absurd (Or.inr ho) g3
          · exact Or.inr ho
      rcases ih g1 g2 this with ⟨d, hd⟩ | hd | hd
      · exact Or.inl ⟨d, List.mem_append_right _ hd⟩
      · exact Or.inr (Or.inl (List.mem_append_right _ hd))
      · exact Or.inr (Or.inr (List.mem_append_right _ hd))
    cases e with
    | bg e => simp [mstep, done_stuck e h2] at hs
    | delay d => cases hs; exact key h1 h2 (by rintro (h | h) <;> simp [returned] at h)
    | api e =>
      have ht := mapiStep_tr hs
      cases ht
      case dcOk d r _ _ => exact Or.inl ⟨d, by simp⟩
      case dcBad d _ _ => exact Or.inl ⟨d, by simp⟩
      case dcErr => exact Or.inr (Or.inl (by simp))
      case cancel => exact Or.inr (Or.inr (by simp))
      all_goals first
        | (exfalso; clear key ih ho; simp_all [mlooksUp]; done)
        | exact key h1 h2 (by rintro (h | h) <;> simp [returned] at h)

/-- C84 is refuted for the disconnect of the monitor: the task may be the one that receives the gateway's answer. It then ends, while the
call waits on the socket for a datagram that nobody will send: from then on the monitor's task sends nothing, and the call does not
end unless a datagram arrives unasked, receiving fails or the caller gives up; it can be waiting for any time. -/
theorem C84_violated_monitor {m : Mode} {s : MSys} {tr : List Obs} (_h : MExec m s tr) (ha : s.api = .dcRecv) (hpc : s.bg.pc = .recv) (ch st : U8) :
    ∃ s1, mstep m s (.bg (.dgram (frame DISCONNECT_RESPONSE [ch, st]))) = some (s1, [.rx (frame DISCONNECT_RESPONSE [ch, st]), .exit]) ∧
      (∀ n, ∃ s2, MPromptRun m s1 [] s2 ∧ s2.bg.now = s1.bg.now + n ∧ s2.api = .dcRecv) ∧
      ∀ tr' s2, MRun m s1 tr' s2 → taskSent tr' = [] ∧
        (Over tr' → (∃ d, Obs.rxApi d ∈ tr') ∨ Obs.ret .panic ∈ tr' ∨ Obs.cancelled ∈ tr') := by
  have e : onDatagram (frame DISCONNECT_RESPONSE [ch, st]) = .done := by
    refine onDatagram_bye (t := ⟨ch, st⟩) ?_
    rw [seen_short (by simp [frame, word])]
    exact .disconnectResponse ch st _
  refine ⟨{ s with bg := { s.bg with pc := .done } }, by simp [mstep, bgStep, hpc, e, endObs], fun n => ?_, fun tr' s2 hr => ?_⟩
  · refine ⟨_, .step (.delay n) ?_ rfl (.nil _), rfl, ha⟩
    intro t ht
    simp [bgDeadline, inSelect] at ht
  · exact ⟨mdone_silent hr rfl, mdisc_stuck hr ha rfl⟩

/-- The case of the status query: it has been sent, the task waits for a datagram. -/
example (m : Mode) : ∃ s tr c, Exec m s tr ∧ bracket tr = some true ∧ lastCall tr = some .status ∧ apiSent (since isCall tr) ≠ [] ∧
    s.bg.pc = .recv ∧ s.bg.conn = some c ∧ s.bg.hbDue = s.bg.now := by
  obtain ⟨s, tr, h1, h2⟩ := exec_of_evs (m := m) (evs := [.bg .run, .bg .sendOk, .bg (.dgram grant7), .bg .run,
    .api (.call .status), .api .run, .api .run, .api .sendOk])
    (f := fun x => ((bracket x.2, lastCall x.2, (apiSent (since isCall x.2)).length), x.1.bg.pc, x.1.bg.conn.isSome, x.1.bg.hbDue, x.1.bg.now))
    (y := ((some true, some .status, 1), .recv, true, 0, 0)) (by cases m <;> decide +kernel)
  simp only [Prod.mk.injEq] at h2
  obtain ⟨⟨g1, g2, g3⟩, g4, g5, g6, g7⟩ := h2
  obtain ⟨c, hc⟩ := Option.isSome_iff_exists.1 g5
  exact ⟨s, tr, c, h1, g1, g2, by intro hh; simp [hh] at g3, g4, hc, g6.trans g7.symm⟩

/-- The case of the monitor: the disconnect request has been sent, the task waits for a datagram. -/
example (m : Mode) : ∃ s tr, MExec m s tr ∧ s.api = .dcRecv ∧ s.bg.pc = .recv := by
  obtain ⟨s, tr, h1, h2⟩ := mexec_of_evs (m := m) (evs := [.bg .run, .bg .sendOk, .bg (.dgram grant7), .bg .sendOk, .bg .run, .bg .run,
      .api (.call .disconnect), .api .run, .api .run, .api .sendOk])
    (f := fun x => (x.1.api, x.1.bg.pc)) (y := (.dcRecv, .recv)) (by cases m <;> decide +kernel)
  simp only [Prod.mk.injEq] at h2
  exact ⟨s, tr, h1, h2⟩

end Knx
