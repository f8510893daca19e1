import Verif.Spec.Endpoint
import Verif.Props.Addressing
import Verif.Props.Calls

/-!
# Where the answers go (C92)
-/

namespace Knx
open Spec

theorem hpai_inj {h h' : Hpai} (e : hpai h = hpai h') : h = h' := by
  obtain ⟨c, ⟨⟨a1, a2, a3, a4⟩, p⟩⟩ := h
  obtain ⟨c', ⟨⟨b1, b2, b3, b4⟩, p'⟩⟩ := h'
  simp only [hpai, List.cons_append, List.nil_append, List.cons.injEq, true_and] at e
  obtain ⟨rfl, rfl, rfl, rfl, rfl, e⟩ := e
  have := (word_inj p.isLt p'.isLt).1 e
  rw [BitVec.toNat_inj] at this
  rw [this]

theorem frame_service {svc svc' : Nat} {a b : Bytes} (h : frame svc a = frame svc' b) : word svc = word svc' := by
  have := serviceIs_frame svc svc' a
  rw [h, serviceIs_frame] at this
  simpa using this.symm

theorem frame_body {svc : Nat} {a b : Bytes} (h : frame svc a = frame svc b) : a = b := by
  simp only [frame, header, List.append_assoc, List.cons_append, List.nil_append, List.cons.injEq, true_and] at h
  have := congrArg (List.drop 4) h
  simpa [word] using this

/-- What is sent, by whomever: the endpoint named in a connection state request or in a disconnect request is the data endpoint of
some connection established before. -/
def Named (tr : List Obs) : Prop := ∀ p ∈ sent tr, ∀ h, StateNaming p h ∨ DisconnectNaming p h → ∃ r ∈ ups tr, r.dataEndpoint = h

theorem sent_append (a b : List Obs) : sent (a ++ b) = sent a ++ sent b := by simp [sent]
theorem ups_append' (a b : List Obs) : ups (a ++ b) = ups a ++ ups b := by simp [ups]

theorem Named.append {tr o : List Obs} (h : Named tr) (ho : ∀ p ∈ sent o, ∀ h, StateNaming p h ∨ DisconnectNaming p h → ∃ r ∈ ups tr, r.dataEndpoint = h) :
    Named (tr ++ o) := by
  intro p hp ep he
  rw [sent_append, List.mem_append] at hp
  have : ∃ r ∈ ups tr, r.dataEndpoint = ep := by
    rcases hp with hp | hp
    · exact h p hp ep he
    · exact ho p hp ep he
  obtain ⟨r, h1, h2⟩ := this
  exact ⟨r, by rw [ups_append']; exact List.mem_append_left _ h1, h2⟩

theorem mem_ups_of_lastUp {tr : List Obs} {r : ConnectionResponse} (h : lastUp tr = some r) : r ∈ ups tr := List.mem_of_getLast? h

theorem Spec.DuringCall2.mem {tr : List Obs} {r r' : ConnectionResponse} (h : DuringCall2 tr r r') : r' ∈ ups tr := by
  obtain ⟨a, b, rfl, -, h1, -⟩ := h
  rw [ups_append']
  exact List.mem_append_left _ (mem_ups_of_lastUp h1.2.2)

theorem not_naming {svc : Nat} {b : Bytes} {h : Hpai} (h1 : word svc ≠ word CONNECTIONSTATE_REQUEST) (h2 : word svc ≠ word DISCONNECT_REQUEST) :
    ¬ (StateNaming (frame svc b) h ∨ DisconnectNaming (frame svc b) h) := by
  rintro (⟨ch, e⟩ | ⟨ch, e⟩)
  · exact h1 (frame_service e)
  · exact h2 (frame_service e)

theorem not_naming_request {ch n : U8} {cemi p : Bytes} {h : Hpai} (hp : RequestPacket ch n cemi p) : ¬ (StateNaming p h ∨ DisconnectNaming p h) := by
  obtain ⟨len, rfl⟩ := hp
  rintro (⟨ch, e⟩ | ⟨ch, e⟩)
  · have := congrArg (serviceIs TUNNELING_REQUEST) e
    rw [serviceIs_frame] at this
    simp [serviceIs, header, word] at this
    revert this; decide
  · have := congrArg (serviceIs TUNNELING_REQUEST) e
    rw [serviceIs_frame] at this
    simp [serviceIs, header, word] at this
    revert this; decide

theorem naming_state {ch : U8} {ep h : Hpai}
    (e : StateNaming (frame CONNECTIONSTATE_REQUEST ([ch, 0] ++ hpai ep)) h ∨ DisconnectNaming (frame CONNECTIONSTATE_REQUEST ([ch, 0] ++ hpai ep)) h) :
    ep = h := by
  rcases e with ⟨c, e⟩ | ⟨c, e⟩
  · have := frame_body e
    simp only [List.cons_append, List.nil_append, List.cons.injEq, true_and] at this
    exact hpai_inj this.2
  · exact absurd (frame_service e) (by decide)

theorem naming_disconnect {ch : U8} {ep h : Hpai}
    (e : StateNaming (frame DISCONNECT_REQUEST ([ch, 0] ++ hpai ep)) h ∨ DisconnectNaming (frame DISCONNECT_REQUEST ([ch, 0] ++ hpai ep)) h) :
    ep = h := by
  rcases e with ⟨c, e⟩ | ⟨c, e⟩
  · exact absurd (frame_service e) (by decide)
  · have := frame_body e
    simp only [List.cons_append, List.nil_append, List.cons.injEq, true_and] at this
    exact hpai_inj this.2

/-- What the task sends. -/
theorem task_named {m : Mode} {k : Kind} {s s' : Bg} {tr o : List Obs} {e : BgEv} (h : Reaches m k s tr) (hs : bgStep k m s e = some (s', o))
    {p : Bytes} (hp : p ∈ sent o) {ep : Hpai} (he : StateNaming p ep ∨ DisconnectNaming p ep) : ∃ r ∈ ups tr, r.dataEndpoint = ep := by
  have hp' : Obs.tx .task p ∈ o := by
    have := bgStep_tr hs
    cases this <;> simp [sent] at hp ⊢ <;> exact hp
  rcases C70_task h hs hp' with ⟨rfl, -⟩ | ⟨d, -, ⟨ch, sq, rfl, -⟩, -⟩ | ⟨r, h1, rfl, -⟩ | ⟨d, r, -, -, -, rfl, -⟩
  · exact absurd he (not_naming (by decide) (by decide))
  · exact absurd he (not_naming (by decide) (by decide))
  · exact ⟨r, mem_ups_of_lastUp h1, naming_state he⟩
  · exact absurd he (not_naming (by decide) (by decide))

theorem Exec.named {m : Mode} {s : Sys} {tr : List Obs} (h : Exec m s tr) : Named tr := by
  induction h with
  | init => intro p hp; simp [sent] at hp
  | @step s s' tr o e hx hs ih =>
    refine ih.append fun p hp ep he => ?_
    cases e with
    | delay d => cases hs; simp [sent] at hp
    | bg e =>
      simp only [Knx.step, Option.map_eq_some_iff, Prod.exists, Prod.mk.injEq] at hs
      obtain ⟨b, o', hb, rfl, rfl⟩ := hs
      exact task_named (.client hx) hb hp he
    | api e =>
      have hp' : Obs.tx .api p ∈ o := by
        have := apiStep_tr hs
        cases this <;> simp [sent] at hp ⊢ <;> exact hp
      rcases C90_client_partial hx hs (Or.inl hp') with hk | ⟨r, r', k1, -, ⟨-, rfl⟩ | ⟨-, rfl⟩⟩
      · obtain ⟨c, h1, -, ⟨ch, n, cemi, -, -, h2⟩ | ⟨rfl, ch, ep', rfl⟩ | ⟨rfl, ch, ep', rfl⟩⟩ := C70_client hx hs hp'
        · exact absurd he (not_naming_request h2)
        all_goals simp_all
      · exact ⟨r', k1.mem, naming_state he⟩
      · exact ⟨r', k1.mem, naming_disconnect he⟩

theorem MExec.named {m : Mode} {s : MSys} {tr : List Obs} (h : MExec m s tr) : Named tr := by
  induction h with
  | init => intro p hp; simp [sent] at hp
  | @step s s' tr o e hx hs ih =>
    refine ih.append fun p hp ep he => ?_
    cases e with
    | delay d => cases hs; simp [sent] at hp
    | bg e =>
      simp only [Knx.mstep, Option.map_eq_some_iff, Prod.exists, Prod.mk.injEq] at hs
      obtain ⟨b, o', hb, rfl, rfl⟩ := hs
      exact task_named (.monitor hx) hb hp he
    | api e =>
      have hp' : Obs.tx .api p ∈ o := by
        have := mapiStep_tr hs
        cases this <;> simp [sent] at hp ⊢ <;> exact hp
      rcases C90_monitor_partial hx hs (Or.inl hp') with hk | ⟨r, r', k1, -, -, rfl⟩
      · obtain ⟨c, h1, -, ⟨ch, n, cemi, -, -, h2⟩ | ⟨rfl, ch, ep', rfl⟩⟩ := C70_monitor hx hs hp'
        · exact absurd he (not_naming_request h2)
        all_goals simp_all
      · exact ⟨r', k1.mem, naming_disconnect he⟩

/-- C92: every connect request asks for the answer to be sent to where it came from; so the answer arrives. -/
theorem C92_connect_partial {m : Mode} {k : Kind} {s s' : Bg} {tr o : List Obs} {e : BgEv} {p : Bytes} (h : Reaches m k s tr)
    (hs : bgStep k m s e = some (s', o)) (hp : Obs.tx .task p ∈ o) (hc : serviceIs CONNECT_REQUEST p = true) :
    ∃ h, ConnectNaming p h ∧ ∀ own, answerTo own h.address = own := by
  rcases C70_task h hs hp with ⟨rfl, -⟩ | ⟨d, -, ⟨ch, sq, rfl, -⟩, -⟩ | ⟨r, h1, rfl, -⟩ | ⟨d, r, -, -, -, rfl, -⟩
  · exact ⟨⟨1, routeBack⟩, ⟨⟨1, routeBack⟩, [4, 4, 2, 0], rfl⟩, fun own => by simp [answerTo]⟩
  all_goals (rw [serviceIs_frame] at hc; exact absurd hc (by decide))

/-- C92, exactly which endpoint is named: every connection state request and every disconnect request of the client, sent by the task
or by a call, names the data endpoint of a connection established before, that is, an endpoint of the server; so the answer arrives
if and only if this is the client's own address or 0.0.0.0:0. -/
theorem C92_named_iff {m : Mode} {s : Sys} {tr : List Obs} (h : Exec m s tr) {p : Bytes} (hp : p ∈ sent tr) {ep : Hpai}
    (he : StateNaming p ep ∨ DisconnectNaming p ep) (own : SockAddr) :
    (∃ r ∈ ups tr, r.dataEndpoint = ep) ∧ (answerTo own ep.address = own ↔ ep.address = own ∨ ep.address = routeBack) := by
  refine ⟨h.named p hp ep he, ?_⟩
  unfold answerTo
  split <;> simp_all

/-- The same for the monitor. -/
theorem C92_monitor_named_iff {m : Mode} {s : MSys} {tr : List Obs} (h : MExec m s tr) {p : Bytes} (hp : p ∈ sent tr) {ep : Hpai}
    (he : StateNaming p ep ∨ DisconnectNaming p ep) (own : SockAddr) :
    (∃ r ∈ ups tr, r.dataEndpoint = ep) ∧ (answerTo own ep.address = own ↔ ep.address = own ∨ ep.address = routeBack) := by
  refine ⟨h.named p hp ep he, ?_⟩
  unfold answerTo
  split <;> simp_all

theorem silent {own : SockAddr} {tr : List Obs} (hn : Named tr) (hf : Foreign own tr) (ha : AnswersWhereAsked own tr) {x : Obs} {d : Bytes}
    (hx : x ∈ tr) (hd : x = .rx d ∨ x = .rxApi d) :
    (∀ r, ¬ Decodes (seen d) (.connectionstateResponse r)) ∧ (∀ r, ¬ Decodes (seen d) (.disconnectResponse r)) := by
  obtain ⟨a, b, rfl⟩ := List.append_of_mem hx
  have up : ∀ p ∈ sent a, p ∈ sent (a ++ x :: b) := fun p hp => by rw [sent_append]; exact List.mem_append_left _ hp
  obtain ⟨h1, h2⟩ := ha a x b d rfl hd
  constructor
  · intro r hr
    obtain ⟨p, hp, ep, h3, h4⟩ := h1 r hr
    obtain ⟨r', h5, rfl⟩ := hn p (up p hp) ep (Or.inl h3)
    exact hf r' h5 h4
  · intro r hr
    obtain ⟨p, hp, ep, h3, h4⟩ := h2 r hr
    obtain ⟨r', h5, rfl⟩ := hn p (up p hp) ep (Or.inr h3)
    exact hf r' h5 h4

theorem exit_answer {m : Mode} {k : Kind} {s : Bg} {tr : List Obs} (h : Reaches m k s tr) (he : Obs.exit ∈ tr) :
    ∃ d r, Obs.rx d ∈ tr ∧ Decodes (seen d) (.disconnectResponse r) := by
  obtain ⟨d, r, h1, h2⟩ := (C50_survives_partial h).2 he
  refine ⟨d, r, ?_, h2⟩
  have := List.mem_of_getLast? h1
  simp only [received, List.mem_filterMap] at this
  obtain ⟨x, hx, hy⟩ := this
  cases x <;> simp at hy
  exact hy ▸ hx

theorem state_answer {m : Mode} {s : Sys} {tr : List Obs} (h : Exec m s tr) {x : ConnectionstateResponse} (hx : Obs.ret (.state x) ∈ tr) :
    ∃ d, Obs.rxApi d ∈ tr ∧ Decodes (seen d) (.connectionstateResponse x) := by
  induction h with
  | init => simp at hx
  | @step s s' tr o e hy hs ih =>
    rcases List.mem_append.1 hx with hx' | hx'
    · obtain ⟨d, h1, h2⟩ := ih hx'
      exact ⟨d, List.mem_append_left _ h1, h2⟩
    · obtain ⟨-, -, d, rest, rfl, h2⟩ := C58_status hy hs hx'
      exact ⟨d, by simp, by rw [h2]; exact .connectionstateResponse _ _ _⟩

theorem code_answer {m : Mode} {s : MSys} {tr : List Obs} (h : MExec m s tr) {x : U8} (hx : Obs.ret (.code x) ∈ tr) :
    ∃ d r, Obs.rxApi d ∈ tr ∧ Decodes (seen d) (.disconnectResponse r) := by
  induction h with
  | init => simp at hx
  | @step s s' tr o e hy hs ih =>
    rcases List.mem_append.1 hx with hx' | hx'
    · obtain ⟨d, r, h1, h2⟩ := ih hx'
      exact ⟨d, r, List.mem_append_left _ h1, h2⟩
    · have ht := mstep_api hs (Or.inl (returned_ne hx'))
      cases ht
      case dcOk d r h1 h2 =>
        clear hx
        obtain ⟨a, rest, h3, h4⟩ := runRd_ok_iff.1 h2
        cases h4
        refine ⟨d, a, by simp, ?_⟩
        rw [← buffer_eq_seen, DisconnectResponse.fromPacket_iff.1 h3]
        exact .disconnectResponse _ _ _
      all_goals simp at hx'

/-- C92 is refuted: as long as the connections that are granted come with an endpoint of the server (and not with the client's own
address or 0.0.0.0:0), and nobody sends answers to addresses other than those asked for, no heart beat, no status query and no disconnect
of the client ever gets its answer: no status query ever returns a status, and a disconnect never ends the task. -/
theorem C92_violated {m : Mode} {s : Sys} {tr : List Obs} (h : Exec m s tr) (own : SockAddr) (hf : Foreign own tr) (ha : AnswersWhereAsked own tr) :
    (∀ x d, x ∈ tr → x = .rx d ∨ x = .rxApi d →
      (∀ r, ¬ Decodes (seen d) (.connectionstateResponse r)) ∧ (∀ r, ¬ Decodes (seen d) (.disconnectResponse r))) ∧
    (∀ x, Obs.ret (.state x) ∉ tr) ∧ Obs.exit ∉ tr := by
  have key : ∀ x d, x ∈ tr → x = .rx d ∨ x = .rxApi d →
      (∀ r, ¬ Decodes (seen d) (.connectionstateResponse r)) ∧ (∀ r, ¬ Decodes (seen d) (.disconnectResponse r)) :=
    fun x d hx hd => silent h.named hf ha hx hd
  refine ⟨key, fun x hx => ?_, fun he => ?_⟩
  · obtain ⟨d, h1, h2⟩ := state_answer h hx
    exact (key _ d h1 (Or.inr rfl)).1 _ h2
  · obtain ⟨d, r, h1, h2⟩ := exit_answer (.client h) he
    exact (key _ d h1 (Or.inl rfl)).2 _ h2

/-- C92 is refuted for the monitor: no disconnect ever returns a status. -/
theorem C92_monitor_violated {m : Mode} {s : MSys} {tr : List Obs} (h : MExec m s tr) (own : SockAddr) (hf : Foreign own tr)
    (ha : AnswersWhereAsked own tr) :
    (∀ x d, x ∈ tr → x = .rx d ∨ x = .rxApi d →
      (∀ r, ¬ Decodes (seen d) (.connectionstateResponse r)) ∧ (∀ r, ¬ Decodes (seen d) (.disconnectResponse r))) ∧
    (∀ x, Obs.ret (.code x) ∉ tr) ∧ Obs.exit ∉ tr := by
  have key : ∀ x d, x ∈ tr → x = .rx d ∨ x = .rxApi d →
      (∀ r, ¬ Decodes (seen d) (.connectionstateResponse r)) ∧ (∀ r, ¬ Decodes (seen d) (.disconnectResponse r)) :=
    fun x d hx hd => silent h.named hf ha hx hd
  refine ⟨key, fun x hx => ?_, fun he => ?_⟩
  · obtain ⟨d, r, h1, h2⟩ := code_answer h hx
    exact (key _ d h1 (Or.inr rfl)).2 _ h2
  · obtain ⟨d, r, h1, h2⟩ := exit_answer (.monitor h) he
    exact (key _ d h1 (Or.inl rfl)).2 _ h2

/-- The request of a status query on channel 7. -/
def status7 : Bytes := [6, 0x10, 2, 7, 0, 16, 7, 0, 8, 1, 192, 168, 1, 2, 0x0e, 0x57]

/-- The hypotheses of C92: a client at 192.168.1.5:50000 connects to the server at 192.168.1.2:3671, sends a heart beat, takes a telegram, sends
the request of a status query; the answer to both is to go to 192.168.1.2:3671. -/
example (m : Mode) : ∃ s tr, Exec m s tr ∧ Foreign ⟨⟨192, 168, 1, 5⟩, 50000⟩ tr ∧ AnswersWhereAsked ⟨⟨192, 168, 1, 5⟩, 50000⟩ tr ∧
    sent tr = [connReqPacket, status7, frame TUNNELING_ACK [4, 7, 0, 0], status7] ∧ received tr = [req7] ∧ s.api = .stRecv ∧
    StateNaming status7 conn7.dataEndpoint ∧ answerTo ⟨⟨192, 168, 1, 5⟩, 50000⟩ conn7.dataEndpoint.address = ⟨⟨192, 168, 1, 2⟩, 3671⟩ := by
  obtain ⟨s, tr, h1, h2⟩ := exec_of_evs (m := m) (evs := [.bg .run, .bg .sendOk, .bg (.dgram grant7), .bg .run, .bg .tick, .bg .sendOk,
      .bg (.dgram req7), .bg .sendOk, .bg .run, .api (.call .status), .api .run, .api .run, .api .sendOk])
    (f := fun x => ((sent x.2, ups x.2), (received x.2, apiReceived x.2), x.1.api))
    (y := (([connReqPacket, status7, frame TUNNELING_ACK [4, 7, 0, 0], status7], [conn7]), ([req7], []), .stRecv)) (by cases m <;> decide +kernel)
  simp only [Prod.mk.injEq] at h2
  refine ⟨s, tr, h1, ?_, ?_, h2.1.1, h2.2.1.1, h2.2.2, ⟨7, by decide⟩, by decide⟩
  · intro r hr
    rw [h2.1.2, List.mem_singleton] at hr
    subst hr; decide
  · intro a x b d he hx
    have key : d = req7 := by
      rcases hx with rfl | rfl
      · have : d ∈ received tr := by rw [he]; simp [received]
        rw [h2.2.1.1, List.mem_singleton] at this
        exact this
      · have : d ∈ apiReceived tr := by rw [he]; simp [apiReceived]
        rw [h2.2.1.2] at this
        simp at this
    subst key
    obtain ⟨y, hy⟩ : ∃ y, parseResponse (seen req7) = .ok (.tunnelingRequest y) := ⟨_, rfl⟩
    constructor
    · intro r hr
      rw [← C21_dispatch_exact, hy] at hr
      cases hr
    · intro r hr
      rw [← C21_dispatch_exact, hy] at hr
      cases hr

end Knx
