import Verif.Props.Timing
import Verif.Props.Recovery
import Verif.Props.EndToEnd
import Verif.Props.Whole
import Verif.Spec.Wire

/-!
# C120: What can be seen of the library on the network
-/

namespace Knx
open Spec

theorem explosive_iff (m : Mode) (c : Bytes) : runRd (Cemi.fromPacket m) id c = .panic ↔ Explosive m c := by
  rw [runRd_panic_iff]
  cases m with
  | debug => rw [C13_cemi_panic_iff.2]; simp [Explosive]
  | release => simp [Explosive, C13_cemi_panic_iff.1]

theorem tooShort_iff (d : Bytes) : parseResponse (buffer d) = .panic ↔ TooShort d := by
  rw [buffer_eq_seen, C20_panics_iff]; rfl

theorem parse_iff (d : Bytes) (x : Response) : parseResponse (buffer d) = .ok x ↔ Decodes (seen d) x := by
  rw [buffer_eq_seen, C21_dispatch_exact]

theorem beat_packet (ch : U8) (ep : Hpai) : (ConnectionstateRequest.mk ch ep).packet = frame CONNECTIONSTATE_REQUEST ([ch, 0] ++ hpai ep) :=
  C19_bodies.1 _

theorem enable_packet (ch : U8) : enablePacket ch = frame TUNNELING_FEATURE_SET [4, ch, 0, 0, 8, 0, 1] := by
  rw [enablePacket, C19_bodies.2.2.2.2.1]; rfl

theorem ask_packet : connReqPacket = frame CONNECT_REQUEST (hpai ⟨1, ⟨⟨0, 0, 0, 0⟩, 0⟩⟩ ++ hpai ⟨1, ⟨⟨0, 0, 0, 0⟩, 0⟩⟩ ++ [4, 4, 2, 0]) := connReq_eq

theorem wire_append (a b : List Obs) : wire (a ++ b) = wire a ++ wire b := by simp [wire]

/-- Channel and endpoint of the connection. -/
def link (s : Bg) : Option (U8 × Hpai) := s.conn.map fun c => (c.channel, c.endpoint)

/-- The state of the task belongs to the stage of the session. -/
def Sim (s : Bg) : Session → Prop
  | .idle => s.pc = .teardown ∨ (s.conn = none ∧ (s.pc = .connSend ∨ (∃ dl, s.pc = .connSleep dl) ∨ s.pc = .top))
  | .asked => s.conn = none ∧ ∃ dl, s.pc = .connWait dl
  | .granted r => s.pc = .enable r ∧ s.conn = none
  | .up r => s.pc = .store r ∨
    (link s = some (r.channel, r.dataEndpoint) ∧ (s.pc = .recv ∨ (∃ c, s.pc = .push c) ∨ (∃ a b, s.pc = .notify a b) ∨ s.pc = .hb r.channel r.dataEndpoint))
  | .owes r ch sq c => link s = some (r.channel, r.dataEndpoint) ∧
    (s.pc = (match c with | some raw => .ackReq ch sq raw | none => .ackFeat ch sq) ∨ s.pc = .hb r.channel r.dataEndpoint)
  | .over => s.pc = .done ∨ s.pc = .crashed

theorem Env.sim {k : Kind} {s s' : Bg} {o : List Obs} (h : Env k s s' o) : s'.pc = s.pc ∧ link s' = link s ∧ (s.conn = none → s'.conn = none) := by
  cases h
  case draw h => exact ⟨rfl, by simp [link, h], by simp [h]⟩
  all_goals exact ⟨rfl, rfl, id⟩

theorem Sim.env {s s' : Bg} {p : Session} (h : Sim s p) (h1 : s'.pc = s.pc) (h2 : link s' = link s) (h3 : s.conn = none → s'.conn = none) : Sim s' p := by
  cases p <;> simp only [Sim, h1, h2] at h ⊢
  case idle => exact h.imp id fun h => ⟨h3 h.1, h.2⟩
  case asked => exact ⟨h3 h.1, h.2⟩
  case granted => exact ⟨h.1, h3 h.2⟩
  all_goals exact h

theorem quiet_wire {o : List Obs} (h : ∀ x ∈ o, quiet x = true) : wire o = [] := by
  simp only [wire, List.filterMap_eq_nil_iff]
  intro x hx
  have h1 := h x hx
  clear h
  cases x with
  | tx w p =>
    cases w with
    | task => cases h1
    | api => rfl
  | rx d => cases h1
  | rxConn d => cases h1
  | _ => rfl

theorem Env.wire {k : Kind} {s s' : Bg} {o : List Obs} (h : Env k s s' o) : wire o = [] := by
  cases h
  case quiet h => exact quiet_wire h
  case draw => rfl
  case take h => simpa [Spec.wire] using quiet_wire h
  case drop => rfl
  case subs h => exact quiet_wire h
  case chans => rfl
  case delay => rfl

theorem Sim.pc {s : Bg} {p : Session} (h : Sim s p) :
    match s.pc with
    | .top => p = .idle ∧ s.conn = none
    | .connSend => p = .idle ∧ s.conn = none
    | .connWait _ => p = .asked ∧ s.conn = none
    | .connSleep _ => p = .idle ∧ s.conn = none
    | .enable r => p = .granted r ∧ s.conn = none
    | .store r => p = .up r
    | .notify _ _ => ∃ r, p = .up r ∧ link s = some (r.channel, r.dataEndpoint)
    | .recv => ∃ r, p = .up r ∧ link s = some (r.channel, r.dataEndpoint)
    | .ackReq ch sq raw => ∃ r, p = .owes r ch sq (some raw) ∧ link s = some (r.channel, r.dataEndpoint)
    | .push _ => ∃ r, p = .up r ∧ link s = some (r.channel, r.dataEndpoint)
    | .ackFeat ch sq => ∃ r, p = .owes r ch sq none ∧ link s = some (r.channel, r.dataEndpoint)
    | .discResp _ => False
    | .hb ch ep => ∃ r, (p = .up r ∨ ∃ a b c, p = .owes r a b c) ∧ link s = some (r.channel, r.dataEndpoint) ∧ ch = r.channel ∧ ep = r.dataEndpoint
    | .teardown => p = .idle
    | .done => p = .over
    | .crashed => p = .over := by
  cases p
  case owes r ch sq c => cases c <;> cases hp : s.pc <;> simp_all [Sim]
  all_goals (cases hp : s.pc <;> simp_all [Sim])

theorem garbage_of {d : Bytes} (h : parseResponse (buffer d) = .err) : (∀ y, ¬ Decodes (seen d) y) ∧ ¬ TooShort d := by
  refine ⟨fun y hy => ?_, fun hs => ?_⟩
  · rw [← parse_iff, h] at hy; cases hy
  · rw [← tooShort_iff, h] at hs; cases hs

/-- Steps of the task are moves of the session, or not seen. -/
theorem BgTr.sim {k : Kind} {m : Mode} {s s' : Bg} {o : List Obs} {p : Session} (ht : BgTr k m s s' o) (h : Sim s p) :
    (∃ p', Moves k m p (wire o) p' ∧ Sim s' p') ∨ (wire o = [] ∧ Sim s' p) := by
  have hq := h.pc
  cases ht
  case topNone h1 h2 => simp only [h1] at hq; rw [hq.1]; exact .inr ⟨rfl, .inr ⟨h2, .inl rfl⟩⟩
  case topSome h1 h2 => simp only [h1] at hq; rw [hq.2] at h2; cases h2
  case connSendOk h1 =>
    simp only [h1] at hq; obtain ⟨rfl, hc⟩ := hq
    exact .inl ⟨.asked, by rw [ask_packet]; exact Moves.ask, hc, _, rfl⟩
  case connSendFail h1 => simp only [h1] at hq; obtain ⟨rfl, hc⟩ := hq; exact .inr ⟨rfl, .inr ⟨hc, .inr (.inl ⟨_, rfl⟩)⟩⟩
  case connOkClient dl d r h1 h2 hk =>
    simp only [h1] at hq; obtain ⟨rfl, hc⟩ := hq; subst hk
    exact .inl ⟨.up r, .granted d r ((tryConnect_iff d r).1 h2), .inl rfl⟩
  case connOkMonitor dl d r h1 h2 hk =>
    simp only [h1] at hq; obtain ⟨rfl, hc⟩ := hq; subst hk
    exact .inl ⟨.granted r, .granted d r ((tryConnect_iff d r).1 h2), rfl, hc⟩
  case connBad dl d h1 h2 =>
    simp only [h1] at hq; obtain ⟨rfl, hc⟩ := hq
    refine .inl ⟨.idle, .refused d fun r hr => ?_, .inr ⟨hc, .inr (.inl ⟨_, rfl⟩)⟩⟩
    rw [← tryConnect_iff, h2] at hr; cases hr
  case connErr h1 => simp only [h1] at hq; obtain ⟨rfl, hc⟩ := hq; exact .inl ⟨.idle, .noAnswer, .inr ⟨hc, .inr (.inl ⟨_, rfl⟩)⟩⟩
  case connTimeout h1 h2 => simp only [h1] at hq; obtain ⟨rfl, hc⟩ := hq; exact .inl ⟨.idle, .noAnswer, .inr ⟨hc, .inr (.inl ⟨_, rfl⟩)⟩⟩
  case connRetry h1 h2 => simp only [h1] at hq; obtain ⟨rfl, hc⟩ := hq; exact .inr ⟨rfl, .inr ⟨hc, .inl rfl⟩⟩
  case enableOk r h1 =>
    simp only [h1] at hq; obtain ⟨rfl, -⟩ := hq
    exact .inl ⟨.up r, by rw [enable_packet]; exact Moves.enabled r, .inl rfl⟩
  case enableFail r h1 =>
    simp only [h1] at hq; obtain ⟨rfl, hc⟩ := hq
    exact .inl ⟨.idle, .notEnabled r, .inr ⟨hc, .inr (.inr rfl)⟩⟩
  case storeClient r h1 hk => simp only [h1] at hq; subst hq; exact .inr ⟨rfl, .inr ⟨rfl, .inl rfl⟩⟩
  case storeMonitor r h1 hk => simp only [h1] at hq; subst hq; exact .inr ⟨rfl, .inr ⟨rfl, .inr (.inr (.inl ⟨_, _, rfl⟩))⟩⟩
  case notifyEnd h1 => simp only [h1] at hq; obtain ⟨r, rfl, hl⟩ := hq; exact .inr ⟨rfl, .inr ⟨hl, .inl rfl⟩⟩
  case notifyClosed h1 h2 => simp only [h1] at hq; obtain ⟨r, rfl, hl⟩ := hq; exact .inr ⟨rfl, .inr ⟨hl, .inr (.inr (.inl ⟨_, _, rfl⟩))⟩⟩
  case notifyOpen h1 h2 h3 => simp only [h1] at hq; obtain ⟨r, rfl, hl⟩ := hq; exact .inr ⟨rfl, .inr ⟨hl, .inr (.inr (.inl ⟨_, _, rfl⟩))⟩⟩
  case recvEmpty h1 => simp only [h1] at hq; obtain ⟨r, rfl, hl⟩ := hq; exact .inl ⟨.up r, .empty r, h⟩
  case recvErr d h1 h2 h3 =>
    simp only [h1] at hq; obtain ⟨r, rfl, hl⟩ := hq
    exact .inl ⟨.idle, .garbage r d h2 (garbage_of h3).1 (garbage_of h3).2, .inl rfl⟩
  case recvPanic d h1 h2 h3 =>
    simp only [h1] at hq; obtain ⟨r, rfl, hl⟩ := hq
    exact .inl ⟨.over, .short r d ((tooShort_iff d).1 h3), .inr rfl⟩
  case recvReq d t h1 h2 h3 =>
    simp only [h1] at hq; obtain ⟨r, rfl, hl⟩ := hq
    exact .inl ⟨_, .request r d t.channel t.seq t.cemi ((parse_iff d _).1 h3), hl, .inl rfl⟩
  case recvAck d t h1 h2 h3 =>
    simp only [h1] at hq; obtain ⟨r, rfl, hl⟩ := hq
    exact .inl ⟨_, .ack r d t ((parse_iff d _).1 h3), h⟩
  case recvFeat d t h1 h2 h3 =>
    simp only [h1] at hq; obtain ⟨r, rfl, hl⟩ := hq
    exact .inl ⟨_, .feature r d t.feature t.value t.status t.channel t.seq ((parse_iff d _).1 h3), hl, .inl rfl⟩
  case recvStateOk d t h1 h2 h3 h4 =>
    simp only [h1] at hq; obtain ⟨r, rfl, hl⟩ := hq
    exact .inl ⟨_, .fine r d t.channel (by rw [← h4]; exact (parse_iff d _).1 h3), h⟩
  case recvStateBad d t h1 h2 h3 h4 =>
    simp only [h1] at hq; obtain ⟨r, rfl, hl⟩ := hq
    exact .inl ⟨_, .broken r d t.channel t.status ((parse_iff d _).1 h3) h4, .inl rfl⟩
  case recvDisc d t h1 h2 h3 =>
    simp only [h1] at hq; obtain ⟨r, rfl, hl⟩ := hq
    exact .inl ⟨_, .bye r d t ((parse_iff d _).1 h3), .inl rfl⟩
  case recvIoErr h1 => simp only [h1] at hq; obtain ⟨r, rfl, hl⟩ := hq; exact .inl ⟨.idle, .lost r, .inl rfl⟩
  case ackReqOk ch sq raw c h1 h2 =>
    simp only [h1] at hq; obtain ⟨r, rfl, hl⟩ := hq
    refine .inl ⟨.up r, ?_, .inr ⟨hl, .inr (.inl ⟨_, rfl⟩)⟩⟩
    have := Moves.acked (k := k) (m := m) r ch sq (some raw) (by rintro _ ⟨⟩ he; rw [← explosive_iff, h2] at he; cases he)
    rw [ack_packet]; exact this
  case ackReqBad ch sq raw h1 h2 =>
    simp only [h1] at hq; obtain ⟨r, rfl, hl⟩ := hq
    refine .inl ⟨.up r, ?_, .inr ⟨hl, .inl rfl⟩⟩
    have := Moves.acked (k := k) (m := m) r ch sq (some raw) (by rintro _ ⟨⟩ he; rw [← explosive_iff, h2] at he; cases he)
    rw [ack_packet]; exact this
  case ackReqPanic ch sq raw h1 h2 =>
    simp only [h1] at hq; obtain ⟨r, rfl, hl⟩ := hq
    refine .inl ⟨.over, ?_, .inr rfl⟩
    have := Moves.exploded (k := k) (m := m) r ch sq raw ((explosive_iff m raw).1 h2)
    rw [ack_packet]; exact this
  case ackReqFail ch sq raw h1 => simp only [h1] at hq; obtain ⟨r, rfl, hl⟩ := hq; exact .inl ⟨.idle, .lostOwing r ch sq _, .inl rfl⟩
  case pushClosed c h1 h2 => simp only [h1] at hq; obtain ⟨r, rfl, hl⟩ := hq; exact .inl ⟨.idle, .lost r, .inl rfl⟩
  case pushOk c h1 h2 h3 => simp only [h1] at hq; obtain ⟨r, rfl, hl⟩ := hq; exact .inr ⟨rfl, .inr ⟨hl, .inl rfl⟩⟩
  case ackFeatOk ch sq h1 =>
    simp only [h1] at hq; obtain ⟨r, rfl, hl⟩ := hq
    refine .inl ⟨.up r, ?_, .inr ⟨hl, .inl rfl⟩⟩
    have := Moves.acked (k := k) (m := m) r ch sq none (by rintro _ ⟨⟩)
    rw [ack_packet]; exact this
  case ackFeatFail ch sq h1 => simp only [h1] at hq; obtain ⟨r, rfl, hl⟩ := hq; exact .inl ⟨.idle, .lostOwing r ch sq _, .inl rfl⟩
  case discOk h1 => simp only [h1] at hq
  case discFail h1 => simp only [h1] at hq
  case hbOk ch ep h1 =>
    simp only [h1] at hq; obtain ⟨r, hr, hl, rfl, rfl⟩ := hq
    refine .inl ⟨.up r, ?_, .inr ⟨hl, .inl rfl⟩⟩
    rcases hr with rfl | ⟨a, b, c, rfl⟩
    · rw [beat_packet]; exact Moves.beat (k := k) (m := m) r
    · rw [beat_packet]; exact Moves.forgotten (k := k) (m := m) r a b c
  case hbFail ch ep h1 =>
    simp only [h1] at hq; obtain ⟨r, hr, hl, rfl, rfl⟩ := hq
    refine .inl ⟨.idle, ?_, .inl rfl⟩
    rcases hr with rfl | ⟨a, b, c, rfl⟩
    · exact .lost r
    · exact .lostOwing r a b c
  case teardown h1 => simp only [h1] at hq; subst hq; exact .inr ⟨rfl, .inr ⟨rfl, .inr (.inr rfl)⟩⟩
  case tickIdle c h1 h2 h3 =>
    simp only [h1] at hq; obtain ⟨r, rfl, hl⟩ := hq
    have e : c.channel = r.channel ∧ c.endpoint = r.dataEndpoint := by simpa [link, h3] using hl
    exact .inr ⟨rfl, .inr ⟨hl, .inr (.inr (.inr (by simp only [e])))⟩⟩
  case tickIdleNone h1 h2 h3 => simp only [h1] at hq; obtain ⟨r, rfl, hl⟩ := hq; simp [link, h3] at hl
  case tickBusyNone h1 h2 h3 =>
    cases hp : s.pc <;> simp [hp, busy] at h1 <;> simp only [hp] at hq
    all_goals (obtain ⟨r, rfl, hl⟩ := hq; simp [link, h3] at hl)
  case tickBusy c h1 h2 h3 =>
    cases hp : s.pc <;> simp [hp, busy] at h1 <;> simp only [hp] at hq
    all_goals (obtain ⟨r, rfl, hl⟩ := hq; have e : c.channel = r.channel ∧ c.endpoint = r.dataEndpoint := by simpa [link, h3] using hl)
    · exact .inr ⟨rfl, hl, .inr (by simp only [e])⟩
    · exact .inr ⟨rfl, hl, .inr (by simp only [e])⟩
    · exact .inr ⟨rfl, .inr ⟨hl, .inr (.inr (.inr (by simp only [e])))⟩⟩

theorem GExec.sim {k : Kind} {m : Mode} {s : Bg} {tr : List Obs} (h : GExec k m s tr) : ∃ p, Walk k m (wire tr) p ∧ Sim s p := by
  induction h with
  | init => exact ⟨.idle, .start, .inr ⟨rfl, .inr (.inr rfl)⟩⟩
  | task _ ht ih =>
    obtain ⟨p, h1, h2⟩ := ih
    rw [wire_append]
    rcases ht.sim h2 with ⟨p', h3, h4⟩ | ⟨h3, h4⟩
    · exact ⟨p', .move h1 h3, h4⟩
    · rw [h3, List.append_nil]; exact ⟨p, h1, h4⟩
  | env _ he ih =>
    obtain ⟨p, h1, h2⟩ := ih
    rw [wire_append, he.wire, List.append_nil]
    obtain ⟨h3, h4, h5⟩ := he.sim
    exact ⟨p, h1, h2.env h3 h4 h5⟩

/-- C120: whatever the library does, what is seen of its background task on the network is a walk through the sessions of the specification. -/
theorem C120_refines {m : Mode} {k : Kind} {s : Bg} {tr : List Obs} (h : Reaches m k s tr) : ∃ p, Walk k m (wire tr) p := by
  obtain ⟨p, h1, -⟩ := h.gexec.sim
  exact ⟨p, h1⟩

/-! ## Every walk can be seen -/

/-- The task is in state `b` after the observations `tr`, no call is going on, and all timers have fired on time. -/
inductive Calm (m : Mode) : Kind → Bg → List Obs → Prop
  | client {s : Sys} {tr : List Obs} : PromptRun m Sys.init tr s → s.api = .idle → Calm m .client s.bg tr
  | monitor {s : MSys} {tr : List Obs} : MPromptRun m MSys.init tr s → s.api = .idle → s.waiting = [] → Calm m .monitor s.bg tr

theorem Calm.bg {m : Mode} {k : Kind} {b b' : Bg} {tr o : List Obs} {e : BgEv} (h : Calm m k b tr) (hs : bgStep k m b e = some (b', o)) :
    Calm m k b' (tr ++ o) := by
  cases h with
  | @client s _ h hi =>
    exact .client (s := { s with bg := b' }) (h.trans (.one (.bg e) trivial (by simp [step, hs]))) hi
  | @monitor s _ h hi hw =>
    exact .monitor (s := { s with bg := b' }) (h.trans (.one (.bg e) trivial (by simp [mstep, hs]))) hi hw

theorem Calm.delay {m : Mode} {k : Kind} {b : Bg} {tr : List Obs} (h : Calm m k b tr) (d : Nat) (hd : ∀ t ∈ bgDeadline b, b.now + d ≤ t) :
    Calm m k { b with now := b.now + d } tr := by
  cases h with
  | @client s _ h hi =>
    have := h.trans (.one (.delay d) ⟨hd, by rw [hi]; simp [apiDeadline]⟩ rfl)
    rw [List.append_nil] at this
    exact .client this hi
  | @monitor s _ h hi hw =>
    have := h.trans (.one (.delay d) hd rfl)
    rw [List.append_nil] at this
    exact .monitor this hi hw

theorem Calm.run {m : Mode} {k : Kind} {b b' : Bg} {tr o : List Obs} {evs : List BgEv} (h : Calm m k b tr) (hs : bgRun k m b evs = some (b', o)) :
    Calm m k b' (tr ++ o) := by
  induction evs generalizing b tr o with
  | nil => simp only [bgRun, Option.some.injEq, Prod.mk.injEq] at hs; obtain ⟨rfl, rfl⟩ := hs; simpa using h
  | cons e es ih =>
    simp only [bgRun] at hs
    split at hs
    · cases hs
    · rename_i s1 o1 h1
      obtain ⟨⟨s2, o2⟩, h2, h3⟩ := Option.map_eq_some_iff.1 hs
      simp only [Prod.mk.injEq] at h3
      obtain ⟨rfl, rfl⟩ := h3
      rw [← List.append_assoc]
      exact ih (h.bg h1) h2

/-- The application takes the message that has arrived. -/
theorem Calm.drain {m : Mode} {k : Kind} {b : Bg} {tr : List Obs} {x : Cemi} {c : Conn} (h : Calm m k b tr) (hp : b.pc = .recv) (hc : b.conn = some c)
    (hq : b.queue = [x]) (ho : b.rxOpen = true) : ∃ o, Calm m k { b with queue := [] } (tr ++ o) ∧ wire o = [] := by
  cases h with
  | @client s _ h hi =>
    obtain ⟨b, api⟩ := s
    simp only at hi hp hc hq ho; subst hi
    refine ⟨[.call .disconnect, .tx .api (DisconnectRequest.mk c.channel c.endpoint).packet, .taken 0 x, .ret .unit],
      .client (s := ⟨{ b with queue := [] }, .idle⟩) (h.trans ?_) rfl, rfl⟩
    refine .step (o := [.call .disconnect]) (s' := ⟨b, .dcChan⟩) (.api (.call .disconnect)) trivial (by simp [step, apiStep, ho, apiCall]) ?_
    refine .step (o := []) (s' := ⟨b, .dcEp c.channel⟩) (.api .run) trivial (by simp [step, apiStep, withConn, connLocked, hp, hc]) ?_
    refine .step (o := []) (s' := ⟨b, .dcLog (DisconnectRequest.mk c.channel c.endpoint).packet⟩) (.api .run) trivial
      (by simp [step, apiStep, withConn, connLocked, hp, hc]) ?_
    refine .step (o := []) (s' := ⟨b, .dcSend (DisconnectRequest.mk c.channel c.endpoint).packet⟩) (.api .skipLog) trivial (by simp [step, apiStep]) ?_
    refine .step (o := [.tx .api (DisconnectRequest.mk c.channel c.endpoint).packet]) (s' := ⟨b, .dcRecv⟩) (.api .sendOk) trivial (by simp [step, apiStep]) ?_
    exact .one (.api .run) trivial (by simp [step, apiStep, chanRecv, hq, finish])
  | @monitor s _ h hi hw =>
    obtain ⟨b, api, w⟩ := s
    simp only at hi hp hc hq ho hw; subst hi hw
    have h1 : MPromptRun m ⟨b, .idle, []⟩ [.ncall 0] ⟨b, .idle, [0]⟩ := .one (.api (.ncall 0)) trivial (by simp [mstep, mapiStep, mcallStep, ho])
    have h2 : ∃ o w, mstep m ⟨b, .idle, [0]⟩ (.api (.nrun 0)) = some (⟨{ b with queue := [] }, .idle, w⟩, o) ∧ wire o = [] ∧ (w = [] ∨ w = [0]) := by
      simp only [mstep, mapiStep, List.mem_singleton, if_true, hq, nextMsg, nfinish]
      repeat' split
      all_goals exact ⟨_, _, rfl, rfl, by simp⟩
    obtain ⟨o, w, h3, h4, h5⟩ := h2
    rcases h5 with rfl | rfl
    · exact ⟨[.ncall 0] ++ o, .monitor (h.trans (h1.trans (.one (.api (.nrun 0)) trivial h3))) rfl rfl, by rw [wire_append, h4]; rfl⟩
    · have h6 : MPromptRun m ⟨{ b with queue := [] }, .idle, [0]⟩ [.ncancelled 0] ⟨{ b with queue := [] }, .idle, []⟩ :=
        .one (.api (.ncancel 0)) trivial (by simp [mstep, mapiStep])
      exact ⟨[.ncall 0] ++ (o ++ [.ncancelled 0]), .monitor (h.trans (h1.trans ((MPromptRun.one (.api (.nrun 0)) trivial h3).trans h6))) rfl rfl,
        by rw [wire_append, wire_append, h4]; rfl⟩

/-- The states the walks lead through. -/
def At (b : Bg) (p : Session) : Prop := b.queue = [] ∧ b.rxOpen = true ∧ b.subs = [] ∧
  match p with
  | .idle => b.conn = none ∧ b.pc = .connSend
  | .asked => b.conn = none ∧ ∃ dl, b.pc = .connWait dl
  | .granted r => b.conn = none ∧ b.pc = .enable r
  | .up r => b.pc = .recv ∧ link b = some (r.channel, r.dataEndpoint)
  | .owes r ch sq c => link b = some (r.channel, r.dataEndpoint) ∧ b.pc = (match c with | some raw => .ackReq ch sq raw | none => .ackFeat ch sq)
  | .over => True

theorem Calm.awake {m : Mode} {k : Kind} {b : Bg} {tr : List Obs} (h : Calm m k b tr) (hq : b.queue = []) (ho : b.rxOpen = true) (hs : b.subs = [])
    (hp : b.pc = .teardown ∨ (b.conn = none ∧ (b.pc = .top ∨ b.pc = .connSleep (b.now + 10000)))) :
    ∃ b' o, Calm m k b' (tr ++ o) ∧ At b' .idle ∧ wire o = [] := by
  rcases hp with hp | ⟨hc, hp | hp⟩
  · exact ⟨_, [.down], h.run (evs := [.run, .run]) (b' := { b with conn := none, pc := .connSend }) (by simp [bgRun, bgStep, hp]),
      ⟨hq, ho, hs, rfl, rfl⟩, rfl⟩
  · exact ⟨_, [], h.run (evs := [.run]) (b' := { b with pc := .connSend }) (by simp [bgRun, bgStep, hp, hc]), ⟨hq, ho, hs, hc, rfl⟩, rfl⟩
  · have h1 := h.delay 10000 (by intro t ht; simp [bgDeadline, hp] at ht; omega)
    exact ⟨_, [], h1.run (evs := [.timer]) (b' := { b with now := b.now + 10000, pc := .connSend }) (by simp [bgRun, bgStep, hp]),
      ⟨hq, ho, hs, hc, rfl⟩, rfl⟩

/-- A heart beat, now or as soon as it is due. -/
theorem Calm.beats {m : Mode} {k : Kind} {b : Bg} {tr : List Obs} {r : ConnectionResponse} (h : Calm m k b tr) (hq : b.queue = []) (ho : b.rxOpen = true)
    (hs : b.subs = []) (hl : link b = some (r.channel, r.dataEndpoint)) (hp : inSelect b.pc = true) :
    ∃ b' o, Calm m k b' (tr ++ o) ∧ At b' (.up r) ∧ wire o = [.put (frame CONNECTIONSTATE_REQUEST ([r.channel, 0] ++ hpai r.dataEndpoint))] := by
  obtain ⟨c, hc, e⟩ := Option.map_eq_some_iff.1 hl
  simp only [Prod.mk.injEq] at e
  have hd : bgDeadline b = some b.hbDue := by
    cases hpc : b.pc <;> simp_all [bgDeadline, inSelect]
  have h1 : ∃ n, Calm m k { b with now := n } tr ∧ b.hbDue ≤ n := by
    by_cases hn : b.hbDue ≤ b.now
    · exact ⟨b.now, h, hn⟩
    · exact ⟨_, h.delay (b.hbDue - b.now) (by rw [hd]; intro t ht; cases ht; omega), by omega⟩
  obtain ⟨n, h1, hn⟩ := h1
  refine ⟨_, _, h1.run (evs := [.tick, .sendOk]) (b' := { b with now := n, hbDue := nextTick n b.hbDue, pc := .recv })
    (o := (if busy b.pc = true then [.tick, .interrupt] else [.tick]) ++ [.tx .task (ConnectionstateRequest.mk c.channel c.endpoint).packet])
    (by simp [bgRun, bgStep, tickStep, hp, hn, hc]), ⟨hq, ho, hs, rfl, hl⟩, ?_⟩
  rw [wire_append, beat_packet, e.1, e.2]
  split <;> rfl

/-- Every move can be made. -/
theorem Calm.move {m : Mode} {k : Kind} {b : Bg} {tr : List Obs} {p p' : Session} {w : List Wire} (h : Calm m k b tr) (ha : At b p) (hm : Moves k m p w p')
    (hmon : ∀ r, p = .granted r → k = .monitor) :
    ∃ b' o, Calm m k b' (tr ++ o) ∧ At b' p' ∧ wire o = w := by
  obtain ⟨hq, ho, hs, ha⟩ := ha
  -- from a state in which the connection is given up, or asking for one is to be repeated
  have give : ∀ {b' : Bg} {o : List Obs} {w : List Wire}, Calm m k b' (tr ++ o) → b'.queue = [] → b'.rxOpen = true → b'.subs = [] →
      (b'.pc = .teardown ∨ (b'.conn = none ∧ (b'.pc = .top ∨ b'.pc = .connSleep (b'.now + 10000)))) → wire o = w →
      ∃ b'' o', Calm m k b'' (tr ++ o') ∧ At b'' .idle ∧ wire o' = w := by
    intro b' o w h1 h2 h3 h4 h5 h6
    obtain ⟨b'', o', h7, h8, h9⟩ := h1.awake h2 h3 h4 h5
    exact ⟨b'', o ++ o', by rwa [← List.append_assoc], h8, by rw [wire_append, h9, h6, List.append_nil]⟩
  cases hm
  case ask =>
    obtain ⟨hc, hp⟩ := ha
    exact ⟨_, _, h.bg (e := .sendOk) (b' := { b with pc := .connWait (b.now + 30000) }) (o := [.tx .task connReqPacket]) (by simp [bgStep, hp]),
      ⟨hq, ho, hs, hc, _, rfl⟩, by rw [ask_packet]; rfl⟩
  case granted d r hg =>
    obtain ⟨hc, dl, hp⟩ := ha
    have ht := (tryConnect_iff d r).2 hg
    cases k with
    | client =>
      exact ⟨_, _, h.run (evs := [.dgram d, .run]) (b' := { b with conn := some (Conn.ofResponse .client r), pc := .recv }) (o := [.rxConn d, .up r])
        (by simp [bgRun, bgStep, hp, ht, connected]), ⟨hq, ho, hs, rfl, rfl⟩, rfl⟩
    | monitor =>
      exact ⟨_, _, h.run (evs := [.dgram d]) (b' := { b with pc := .enable r }) (o := [.rxConn d])
        (by simp [bgRun, bgStep, hp, ht, connected]), ⟨hq, ho, hs, hc, rfl⟩, rfl⟩
  case refused d hg =>
    obtain ⟨hc, dl, hp⟩ := ha
    have ht : tryConnect (buffer d) = .err := by
      cases ht : tryConnect (buffer d) with
      | ok r => exact absurd ((tryConnect_iff d r).1 ht) (hg r)
      | err => rfl
      | panic => exact absurd ht (tryConnect_no_panic _)
    exact give (h.bg (e := .dgram d) (b' := { b with pc := .connSleep (b.now + 10000) }) (o := [.rxConn d]) (by simp [bgStep, hp, ht])) hq ho hs
      (.inr ⟨hc, .inr rfl⟩) rfl
  case noAnswer =>
    obtain ⟨hc, dl, hp⟩ := ha
    exact give (h.bg (e := .recvErr) (b' := { b with pc := .connSleep (b.now + 10000) }) (o := [.rxErr]) (by simp [bgStep, hp, tryConnect_zero])) hq ho hs
      (.inr ⟨hc, .inr rfl⟩) rfl
  case enabled r =>
    obtain ⟨hc, hp⟩ := ha
    have hk : k = .monitor := hmon r rfl
    subst hk
    exact ⟨_, _, h.run (evs := [.sendOk, .run, .run]) (b' := { b with conn := some (Conn.ofResponse .monitor r), pc := .recv })
      (o := [.tx .task (enablePacket r.channel), .up r]) (by simp [bgRun, bgStep, hp, hs]), ⟨hq, ho, hs, rfl, rfl⟩, by rw [enable_packet]; rfl⟩
  case notEnabled r =>
    obtain ⟨hc, hp⟩ := ha
    exact give (h.bg (e := .sendFail) (b' := { b with pc := .top }) (o := [.txFail .task (enablePacket r.channel)]) (by simp [bgStep, hp])) hq ho hs
      (.inr ⟨hc, .inl rfl⟩) rfl
  case request r d ch sq cemi hd =>
    obtain ⟨hp, hl⟩ := ha
    have h1 := (parse_iff d _).2 hd
    have h2 := onDatagram_of h1
    exact ⟨_, _, h.bg (e := .dgram d) (b' := { b with pc := .ackReq ch sq cemi }) (o := [.rx d]) (by simp [bgStep, hp, onDatagram, h2, h1, endObs]),
      ⟨hq, ho, hs, hl, rfl⟩, rfl⟩
  case feature r d f v st ch sq hd =>
    obtain ⟨hp, hl⟩ := ha
    have h1 := (parse_iff d _).2 hd
    have h2 := onDatagram_of h1
    exact ⟨_, _, h.bg (e := .dgram d) (b' := { b with pc := .ackFeat ch sq }) (o := [.rx d]) (by simp [bgStep, hp, onDatagram, h2, h1, endObs]),
      ⟨hq, ho, hs, hl, rfl⟩, rfl⟩
  case empty r =>
    obtain ⟨hp, hl⟩ := ha
    exact ⟨_, _, h.bg (e := .dgram []) (b' := { b with pc := .recv }) (o := [.rx []]) (by simp [bgStep, hp, onDatagram, endObs]),
      ⟨hq, ho, hs, rfl, hl⟩, rfl⟩
  case ack r d a hd =>
    obtain ⟨hp, hl⟩ := ha
    have h1 := (parse_iff d _).2 hd
    have h2 := onDatagram_of h1
    exact ⟨_, _, h.bg (e := .dgram d) (b' := { b with pc := .recv }) (o := [.rx d]) (by simp [bgStep, hp, onDatagram, h2, h1, endObs]),
      ⟨hq, ho, hs, rfl, hl⟩, rfl⟩
  case fine r d ch hd =>
    obtain ⟨hp, hl⟩ := ha
    have h1 := (parse_iff d _).2 hd
    have h2 := onDatagram_of h1
    exact ⟨_, _, h.bg (e := .dgram d) (b' := { b with pc := .recv }) (o := [.rx d]) (by simp [bgStep, hp, onDatagram, h2, h1, endObs]),
      ⟨hq, ho, hs, rfl, hl⟩, rfl⟩
  case broken r d ch st hd hst =>
    obtain ⟨hp, hl⟩ := ha
    have h1 := (parse_iff d _).2 hd
    have h2 := onDatagram_of h1
    exact give (h.bg (e := .dgram d) (b' := { b with pc := .teardown }) (o := [.rx d]) (by simp [bgStep, hp, onDatagram, h2, h1, endObs, show ¬ st = 0#8 from hst])) hq ho hs
      (.inl rfl) rfl
  case garbage r d hn hd hsh =>
    obtain ⟨hp, hl⟩ := ha
    have h1 : parseResponse (buffer d) = .err := by
      cases h1 : parseResponse (buffer d) with
      | ok y => exact absurd ((parse_iff d y).1 h1) (hd y)
      | err => rfl
      | panic => exact absurd ((tooShort_iff d).1 h1) hsh
    exact give (h.bg (e := .dgram d) (b' := { b with pc := .teardown }) (o := [.rx d]) (by simp [bgStep, hp, onDatagram, hn, h1, endObs])) hq ho hs
      (.inl rfl) rfl
  case short r d hsh =>
    obtain ⟨hp, hl⟩ := ha
    have h1 := (tooShort_iff d).2 hsh
    have hn : d ≠ [] := by rintro rfl; exact absurd h1 (by decide +kernel)
    exact ⟨_, _, h.bg (e := .dgram d) (b' := { b with pc := .crashed }) (o := [.rx d, .crash]) (by simp [bgStep, hp, onDatagram, hn, h1, endObs]),
      ⟨hq, ho, hs, trivial⟩, rfl⟩
  case bye r d y hd =>
    obtain ⟨hp, hl⟩ := ha
    have h1 := (parse_iff d _).2 hd
    have h2 := onDatagram_of h1
    exact ⟨_, _, h.bg (e := .dgram d) (b' := { b with pc := .done }) (o := [.rx d, .exit]) (by simp [bgStep, hp, onDatagram, h2, h1, endObs]),
      ⟨hq, ho, hs, trivial⟩, rfl⟩
  case beat r => exact h.beats hq ho hs ha.2 (by rw [ha.1]; rfl)
  case lost r =>
    exact give (h.bg (e := .recvErr) (b' := { b with pc := .teardown }) (o := [.rxErr]) (by simp [bgStep, ha.1])) hq ho hs (.inl rfl) rfl
  case acked r ch sq cemi hx =>
    obtain ⟨hl, hp⟩ := ha
    cases cemi with
    | none =>
      exact ⟨_, _, h.bg (e := .sendOk) (b' := { b with pc := .recv }) (o := [.tx .task (TunnelingAck.mk ch sq 0).packet]) (by simp [bgStep, hp]),
        ⟨hq, ho, hs, rfl, hl⟩, by rw [ack_packet]; rfl⟩
    | some raw =>
      have hx := hx raw rfl
      cases hr : runRd (Cemi.fromPacket m) id raw with
      | panic => exact absurd ((explosive_iff m raw).1 hr) hx
      | err =>
        exact ⟨_, _, h.bg (e := .sendOk) (b' := { b with pc := .recv }) (o := [.tx .task (TunnelingAck.mk ch sq 0).packet]) (by simp [bgStep, hp, hr]),
          ⟨hq, ho, hs, rfl, hl⟩, by rw [ack_packet]; rfl⟩
      | ok c =>
        obtain ⟨cn, hc, -⟩ := Option.map_eq_some_iff.1 hl
        obtain ⟨o, h1, h2⟩ := (h.run (evs := [.sendOk, .run]) (b' := { b with queue := [c], pc := .recv })
          (o := [.tx .task (TunnelingAck.mk ch sq 0).packet, .queued c]) (by simp [bgRun, bgStep, hp, hr, ho, hq])).drain rfl hc rfl ho
        exact ⟨{ b with queue := [], pc := .recv }, [.tx .task (TunnelingAck.mk ch sq 0).packet, .queued c] ++ o, by rw [← List.append_assoc]; exact h1,
          ⟨rfl, ho, hs, rfl, hl⟩, by rw [wire_append, h2, ack_packet]; rfl⟩
  case exploded r ch sq c hx =>
    obtain ⟨hl, hp⟩ := ha
    exact ⟨_, _, h.bg (e := .sendOk) (b' := { b with pc := .crashed }) (o := [.tx .task (TunnelingAck.mk ch sq 0).packet, .crash])
      (by simp [bgStep, hp, (explosive_iff m c).2 hx]), ⟨hq, ho, hs, trivial⟩, by rw [ack_packet]; rfl⟩
  case forgotten r ch sq cemi =>
    refine h.beats hq ho hs ha.1 ?_
    rw [ha.2]; cases cemi <;> rfl
  case lostOwing r ch sq cemi =>
    obtain ⟨hl, hp⟩ := ha
    exact give (h.bg (e := .sendFail) (b' := { b with pc := .teardown }) (o := [.txFail .task (TunnelingAck.mk ch sq 0).packet])
      (by cases cemi <;> simp [bgStep, hp])) hq ho hs (.inl rfl) rfl

theorem walk_monitor {k : Kind} {m : Mode} {w : List Wire} {p : Session} (h : Walk k m w p) : ∀ r, p = .granted r → k = .monitor := by
  intro r hr
  subst hr
  cases h with
  | move h hm => cases k <;> cases hm; rfl

/-- C120: and every such walk can be seen: of a library whose timers fire on time, on a network on which datagrams can be lost. -/
theorem C120_complete {m : Mode} {k : Kind} {w : List Wire} {p : Session} (h : Walk k m w p) : ∃ tr, Timely m k tr ∧ wire tr = w := by
  have key : ∃ b tr, Calm m k b tr ∧ At b p ∧ wire tr = w := by
    induction h with
    | start =>
      have h0 : Calm m k Bg.init [] := by
        cases k
        · exact .client (.nil _) rfl
        · exact .monitor (.nil _) rfl rfl
      obtain ⟨b, o, h1, h2, h3⟩ := h0.awake rfl rfl rfl (.inr ⟨rfl, .inl rfl⟩)
      exact ⟨b, _, h1, h2, h3⟩
    | move hw hm ih =>
      obtain ⟨b, tr, h1, h2, h3⟩ := ih
      obtain ⟨b', o, h4, h5, h6⟩ := h1.move h2 hm (walk_monitor hw)
      exact ⟨b', tr ++ o, h4, h5, by rw [wire_append, h3, h6]⟩
  obtain ⟨b, tr, h1, -, h2⟩ := key
  refine ⟨tr, ?_, h2⟩
  cases h1 with
  | client h => exact .client h
  | monitor h => exact .monitor h

/-- C120: the two together: a sequence of datagrams can be seen of the background task exactly if it is a walk of the specification. Timers that fire late
make no difference. -/
theorem C120_iff {m : Mode} {k : Kind} (w : List Wire) :
    ((∃ p, Walk k m w p) ↔ ∃ s tr, Reaches m k s tr ∧ wire tr = w) ∧ ((∃ p, Walk k m w p) ↔ ∃ tr, Timely m k tr ∧ wire tr = w) := by
  have h1 : ∀ tr, Timely m k tr → ∃ s, Reaches m k s tr := by
    intro tr h
    cases h with
    | client h => exact ⟨_, .client (by simpa using Exec.init.append h.run)⟩
    | monitor h => exact ⟨_, .monitor (by simpa using MExec.init.append h.run)⟩
  have h2 : (∃ tr, Timely m k tr ∧ wire tr = w) → ∃ s tr, Reaches m k s tr ∧ wire tr = w := by
    rintro ⟨tr, h, rfl⟩
    obtain ⟨s, h⟩ := h1 tr h
    exact ⟨s, tr, h, rfl⟩
  have h3 : (∃ s tr, Reaches m k s tr ∧ wire tr = w) → ∃ p, Walk k m w p := by
    rintro ⟨s, tr, h, rfl⟩
    exact C120_refines h
  exact ⟨⟨fun ⟨_, h⟩ => h2 (C120_complete h), h3⟩, ⟨fun ⟨_, h⟩ => C120_complete h, fun h => h3 (h2 h)⟩⟩

/-- A session: a connection is granted, a telegram arrives and is acknowledged, another one is not because a heart beat comes in between, and the server says
good bye. -/
example (m : Mode) : ∃ tr, Timely m .client tr ∧ wire tr =
    [.put connReqPacket, .got grant7, .got req7, .put [6, 0x10, 4, 0x21, 0, 10, 4, 7, 0, 0], .got req7,
     .put [6, 0x10, 2, 7, 0, 16, 7, 0, 8, 1, 192, 168, 1, 2, 0x0e, 0x57], .got bye7] := by
  have hr : Decodes (seen req7) (.tunnelingRequest ⟨7, 0, [0x29, 0, 0xbc, 0xe0, 0x11, 2, 8, 1, 1, 0, 0x81]⟩) := (parse_iff _ _).1 (by decide +kernel)
  have hb : Decodes (seen bye7) (.disconnectResponse ⟨7, 0⟩) := (parse_iff _ _).1 (by decide +kernel)
  have hx : ¬ Explosive m [0x29, 0, 0xbc, 0xe0, 0x11, 2, 8, 1, 1, 0, 0x81] := by
    rw [← explosive_iff]; cases m <;> decide +kernel
  have h := Walk.start (k := .client) (m := m) |>.move .ask |>.move (.granted grant7 conn7 grants7) |>.move (.request _ _ _ _ _ hr)
    |>.move (.acked _ _ _ _ (by rintro _ ⟨⟩; exact hx)) |>.move (.request _ _ _ _ _ hr) |>.move (.forgotten _ _ _ _) |>.move (.bye _ _ _ hb)
  obtain ⟨tr, h1, h2⟩ := C120_complete h
  exact ⟨tr, h1, h2.trans (by rw [ask_packet]; decide +kernel)⟩

/-- Not every sequence of datagrams is a walk: the task does not listen before it has asked for a connection. -/
example (m : Mode) (k : Kind) (s : Bg) (tr : List Obs) (d : Bytes) (w : List Wire) (h : Reaches m k s tr) : wire tr ≠ .got d :: w := by
  obtain ⟨p, h⟩ := C120_refines h
  have key : ∀ {w p}, Walk k m w p → (w = [] ∧ p = .idle) ∨ ∃ q w', w = .put q :: w' := by
    intro w p h
    induction h with
    | start => exact .inl ⟨rfl, rfl⟩
    | move _ hm ih =>
      rcases ih with ⟨rfl, rfl⟩ | ⟨q, w', rfl⟩
      · cases hm; exact .inr ⟨_, [], rfl⟩
      · exact .inr ⟨q, _, rfl⟩
  intro e
  rcases key h with ⟨h, -⟩ | ⟨q, w', h⟩ <;> rw [e] at h <;> cases h

end Knx
