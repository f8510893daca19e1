import Verif.Spec.Addressing
import Verif.Props.Timing

/-!
# Which connection a status query or a disconnect request is about (C90)
-/

namespace Knx
open Spec

theorem calls_append' (a b : List Obs) : calls (a ++ b) = calls a ++ calls b := by simp [calls]

theorem Spec.DuringCall.append {tr : List Obs} {r : ConnectionResponse} (h : DuringCall tr r) (o : List Obs) (ho : calls o = []) :
    DuringCall (tr ++ o) r := by
  obtain ⟨a, b, rfl, h1, h2⟩ := h
  exact ⟨a, b ++ o, by simp, by rw [calls_append', h1, ho]; rfl, h2⟩

theorem Spec.DuringCall2.append {tr : List Obs} {r r' : ConnectionResponse} (h : DuringCall2 tr r r') (o : List Obs) (ho : calls o = []) :
    DuringCall2 (tr ++ o) r r' := by
  obtain ⟨a, b, rfl, h1, h2⟩ := h
  exact ⟨a, b ++ o, by simp, by rw [calls_append', h1, ho]; rfl, h2⟩

/-- If no connection was established since the call was made, it is the one that is up last. -/
theorem Spec.DuringCall.same {tr : List Obs} {r : ConnectionResponse} (h : DuringCall tr r) (hu : ups (since isCall tr) = []) : lastUp tr = some r := by
  obtain ⟨a, b, rfl, h1, h2⟩ := h
  have hb : b.any isCall = false := by
    rw [List.any_eq_false]
    intro x hx
    have := List.filterMap_eq_nil_iff.1 h1 x hx
    cases x <;> simp_all [isCall]
  rw [since_task _ hb, show ∀ a b : List Obs, ups (a ++ b) = ups a ++ ups b from fun a b => by simp [ups], List.append_eq_nil_iff] at hu
  rw [lastUp, show ∀ a b : List Obs, ups (a ++ b) = ups a ++ ups b from fun a b => by simp [ups], hu.2, List.append_nil]
  exact h2.2.2

theorem Spec.DuringCall2.both {tr : List Obs} {r r' : ConnectionResponse} (h : DuringCall2 tr r r') : DuringCall tr r ∧ DuringCall tr r' := by
  obtain ⟨a, b, rfl, h1, h2, h3⟩ := h
  exact ⟨h3.append b h1, a, b, rfl, h1, h2⟩

/-- What the calls have looked up. -/
def Looked (api : Api) (tr : List Obs) : Prop :=
  match api with
  | .stEp ch => ∃ r, DuringCall tr r ∧ ch = r.channel
  | .stSend p => ∃ r r', DuringCall2 tr r r' ∧ p = (ConnectionstateRequest.mk r.channel r'.dataEndpoint).packet
  | .dcEp ch => ∃ r, DuringCall tr r ∧ ch = r.channel
  | .dcLog p => ∃ r r', DuringCall2 tr r r' ∧ p = (DisconnectRequest.mk r.channel r'.dataEndpoint).packet
  | .dcSend p => ∃ r r', DuringCall2 tr r r' ∧ p = (DisconnectRequest.mk r.channel r'.dataEndpoint).packet
  | _ => True

theorem Looked.append {api : Api} {tr : List Obs} (h : Looked api tr) (o : List Obs) (ho : calls o = []) : Looked api (tr ++ o) := by
  cases api <;> simp only [Looked] at h ⊢
  case stEp => obtain ⟨r, h1, h2⟩ := h; exact ⟨r, h1.append o ho, h2⟩
  case dcEp => obtain ⟨r, h1, h2⟩ := h; exact ⟨r, h1.append o ho, h2⟩
  case stSend => obtain ⟨r, r', h1, h2⟩ := h; exact ⟨r, r', h1.append o ho, h2⟩
  case dcLog => obtain ⟨r, r', h1, h2⟩ := h; exact ⟨r, r', h1.append o ho, h2⟩
  case dcSend => obtain ⟨r, r', h1, h2⟩ := h; exact ⟨r, r', h1.append o ho, h2⟩

theorem Exec.currentAt {m : Mode} {s : Sys} {tr : List Obs} {d : Conn} (h : Exec m s tr) (hi : s.api ≠ .idle) (hc : s.bg.conn = some d) :
    ∃ r, CurrentAt tr r ∧ d.channel = r.channel ∧ d.endpoint = r.dataEndpoint := by
  obtain ⟨r, h1, h2, h3⟩ := h.gexec.grants.2.2 d hc
  refine ⟨r, ⟨?_, ?_, h1⟩, h2, h3⟩
  · rw [h.bracket]; simp [hi]
  · rw [← h.gexec.upNow, hc]; rfl

theorem Spec.CurrentAt.during {tr : List Obs} {r : ConnectionResponse} (h : CurrentAt tr r) : DuringCall tr r := ⟨tr, [], by simp, rfl, h⟩

theorem Exec.looked {m : Mode} {s : Sys} {tr : List Obs} (h : Exec m s tr) : Looked s.api tr := by
  induction h with
  | init => trivial
  | @step s s' tr o e hx hs ih =>
    cases e with
    | bg e =>
      simp only [Knx.step, Option.map_eq_some_iff, Prod.exists, Prod.mk.injEq] at hs
      obtain ⟨b, o', hb, rfl, rfl⟩ := hs
      refine ih.append _ ?_
      have := (bgStep_tr hb).facts.call.noCall
      rw [List.any_eq_false] at this
      rw [calls, List.filterMap_eq_nil_iff]
      intro x hx
      have := this x hx
      cases x <;> simp_all [isCall]
    | delay d => cases hs; simpa using ih
    | api e =>
      have ht := apiStep_tr hs
      cases ht
      case stChan d h1 h2 h3 =>
        obtain ⟨r, g1, g2, -⟩ := hx.currentAt (by simp [h1]) h3
        simp only [Looked, List.append_nil]
        exact ⟨r, Spec.CurrentAt.during g1, g2⟩
      case dcChan d h1 h2 h3 =>
        obtain ⟨r, g1, g2, -⟩ := hx.currentAt (by simp [h1]) h3
        simp only [Looked, List.append_nil]
        exact ⟨r, Spec.CurrentAt.during g1, g2⟩
      case stEp ch d h1 h2 h3 =>
        obtain ⟨r', g1, -, g2⟩ := hx.currentAt (by simp [h1]) h3
        rw [h1] at ih
        obtain ⟨r, k1, rfl⟩ := ih
        simp only [Looked, List.append_nil]
        exact ⟨r, r', ⟨tr, [], by simp, rfl, g1, k1⟩, by rw [g2]⟩
      case dcEp ch d h1 h2 h3 =>
        obtain ⟨r', g1, -, g2⟩ := hx.currentAt (by simp [h1]) h3
        rw [h1] at ih
        obtain ⟨r, k1, rfl⟩ := ih
        simp only [Looked, List.append_nil]
        exact ⟨r, r', ⟨tr, [], by simp, rfl, g1, k1⟩, by rw [g2]⟩
      case dcLog p h1 => rw [h1] at ih; simpa [Looked] using ih
      case callErr h1 _ _ => rw [h1]; trivial
      case callPanic h1 _ _ => rw [h1]; trivial
      case drop h1 _ => rw [h1]; trivial
      all_goals trivial

/-- C90, the part that holds: a status query and a disconnect request of the client carry the channel of a connection that was up at some
time during the call, and the endpoint of a connection that was up then or later during the call; if no connection was established
during the call, both are those of the connection established last. -/
theorem C90_client_partial {m : Mode} {s s' : Sys} {tr o : List Obs} {e : Ev} {p : Bytes} (h : Exec m s tr) (hs : Knx.step m s e = some (s', o))
    (hp : Obs.tx .api p ∈ o ∨ Obs.txFail .api p ∈ o) :
    ((∃ addr, lastCall tr = some (.read addr)) ∨ (∃ addr v small, lastCall tr = some (.write addr v small))) ∨
    ∃ r r', DuringCall2 tr r r' ∧ (ups (since isCall tr) = [] → r = r' ∧ lastUp tr = some r) ∧
      ((lastCall tr = some .status ∧ p = frame CONNECTIONSTATE_REQUEST ([r.channel, 0] ++ hpai r'.dataEndpoint)) ∨
       (lastCall tr = some .disconnect ∧ p = frame DISCONNECT_REQUEST ([r.channel, 0] ++ hpai r'.dataEndpoint))) := by
  have same : ∀ {r r'}, DuringCall2 tr r r' → ups (since isCall tr) = [] → r = r' ∧ lastUp tr = some r := by
    intro r r' h1 h2
    obtain ⟨h3, h4⟩ := h1.both
    have e1 := h3.same h2
    have e2 := h4.same h2
    rw [e1] at e2
    cases e2
    exact ⟨rfl, e1⟩
  have hc := h.callInv
  have hl := h.looked
  have ht : ApiTr m s s' o := by
    cases e with
    | api e => exact apiStep_tr hs
    | delay d => cases hs; simp at hp
    | bg e =>
      simp only [Knx.step, Option.map_eq_some_iff, Prod.exists, Prod.mk.injEq] at hs
      obtain ⟨b, o', hb, rfl, rfl⟩ := hs
      have := bgStep_tr hb
      cases this <;> simp at hp
  have tun : ∀ c q, s.api = .sendReq c q → (∃ addr, lastCall tr = some (.read addr)) ∨ (∃ addr v small, lastCall tr = some (.write addr v small)) := by
    intro c q hapi
    rw [hapi] at hc
    obtain ⟨h1, _, _, n, ch, cemi, h3, _⟩ := hc
    cases c <;> simp [tunnelCemi] at h3
    · exact Or.inl ⟨_, h1⟩
    · exact Or.inr ⟨_, _, _, h1⟩
  cases ht
  case sendRead hapi => exact Or.inl (tun _ _ hapi)
  case sendWrite hapi _ => exact Or.inl (tun _ _ hapi)
  case sendFail hapi => exact Or.inl (tun _ _ hapi)
  case stSend q hapi =>
    simp at hp
    rw [hapi] at hc hl
    obtain ⟨r, r', k1, k2⟩ := hl
    exact Or.inr ⟨r, r', k1, same k1, Or.inl ⟨hc.1, by rw [hp, k2, C19_bodies.1]⟩⟩
  case stSendFail q hapi =>
    simp at hp
    rw [hapi] at hc hl
    obtain ⟨r, r', k1, k2⟩ := hl
    exact Or.inr ⟨r, r', k1, same k1, Or.inl ⟨hc.1, by rw [hp, k2, C19_bodies.1]⟩⟩
  case dcSend q hapi =>
    simp at hp
    rw [hapi] at hc hl
    obtain ⟨r, r', k1, k2⟩ := hl
    exact Or.inr ⟨r, r', k1, same k1, Or.inr ⟨hc.1, by rw [hp, k2, C19_bodies.2.1]⟩⟩
  case dcSendFail q hapi =>
    simp at hp
    rw [hapi] at hc hl
    obtain ⟨r, r', k1, k2⟩ := hl
    exact Or.inr ⟨r, r', k1, same k1, Or.inr ⟨hc.1, by rw [hp, k2, C19_bodies.2.1]⟩⟩
  all_goals simp at hp

/-! ## The monitor -/

/-- What the calls of the monitor have looked up. -/
def MLooked (api : MApi) (tr : List Obs) : Prop :=
  match api with
  | .dcEp ch => ∃ r, DuringCall tr r ∧ ch = r.channel
  | .dcSend p => ∃ r r', DuringCall2 tr r r' ∧ p = (DisconnectRequest.mk r.channel r'.dataEndpoint).packet
  | _ => True

theorem MLooked.append {api : MApi} {tr : List Obs} (h : MLooked api tr) (o : List Obs) (ho : calls o = []) : MLooked api (tr ++ o) := by
  cases api <;> simp only [MLooked] at h ⊢
  case dcEp => obtain ⟨r, h1, h2⟩ := h; exact ⟨r, h1.append o ho, h2⟩
  case dcSend => obtain ⟨r, r', h1, h2⟩ := h; exact ⟨r, r', h1.append o ho, h2⟩

theorem MExec.currentAt {m : Mode} {s : MSys} {tr : List Obs} {d : Conn} (h : MExec m s tr) (hi : s.api ≠ .idle) (hc : s.bg.conn = some d) :
    ∃ r, CurrentAt tr r ∧ d.channel = r.channel ∧ d.endpoint = r.dataEndpoint := by
  obtain ⟨r, h1, h2, h3⟩ := h.gexec.grants.2.2 d hc
  refine ⟨r, ⟨?_, ?_, h1⟩, h2, h3⟩
  · rw [h.bracket]; simp [hi]
  · rw [← h.gexec.upNow, hc]; rfl

theorem MExec.looked {m : Mode} {s : MSys} {tr : List Obs} (h : MExec m s tr) : MLooked s.api tr := by
  induction h with
  | init => trivial
  | @step s s' tr o e hx hs ih =>
    cases e with
    | bg e =>
      simp only [Knx.mstep, Option.map_eq_some_iff, Prod.exists, Prod.mk.injEq] at hs
      obtain ⟨b, o', hb, rfl, rfl⟩ := hs
      refine ih.append _ ?_
      have := (bgStep_tr hb).facts.call.noCall
      rw [List.any_eq_false] at this
      rw [calls, List.filterMap_eq_nil_iff]
      intro x hx
      have := this x hx
      cases x <;> simp_all [isCall]
    | delay d => cases hs; simpa using ih
    | api e =>
      have ht := mapiStep_tr hs
      cases ht
      case dcChan d h1 h2 h3 =>
        obtain ⟨r, g1, g2, -⟩ := hx.currentAt (by simp [h1]) h3
        simp only [MLooked, List.append_nil]
        exact ⟨r, Spec.CurrentAt.during g1, g2⟩
      case dcEp ch d h1 h2 h3 =>
        obtain ⟨r', g1, -, g2⟩ := hx.currentAt (by simp [h1]) h3
        rw [h1] at ih
        obtain ⟨r, k1, rfl⟩ := ih
        simp only [MLooked, List.append_nil]
        exact ⟨r, r', ⟨tr, [], by simp, rfl, g1, k1⟩, by rw [g2]⟩
      case callErr h1 _ _ => rw [h1]; trivial
      case callPanic h1 _ _ => rw [h1]; trivial
      case ncall h1 _ _ => exact ih.append _ rfl
      case drop h1 _ _ => rw [h1]; trivial
      case nskip => exact ih.append _ rfl
      case nind => exact ih.append _ rfl
      case nbad => exact ih.append _ rfl
      case nend => exact ih.append _ rfl
      case ncancel => exact ih.append _ rfl
      case mkChan => exact ih.append _ rfl
      case drain => exact ih.append _ rfl
      case fill => exact ih.append _ rfl
      case closeChan => exact ih.append _ rfl
      all_goals trivial

/-- C90 for the disconnect request of the monitor. -/
theorem C90_monitor_partial {m : Mode} {s s' : MSys} {tr o : List Obs} {e : MEv} {p : Bytes} (h : MExec m s tr) (hs : Knx.mstep m s e = some (s', o))
    (hp : Obs.tx .api p ∈ o ∨ Obs.txFail .api p ∈ o) :
    ((∃ addr, lastCall tr = some (.solicit addr)) ∨ (∃ addr v small, lastCall tr = some (.write addr v small))) ∨
    ∃ r r', DuringCall2 tr r r' ∧ (ups (since isCall tr) = [] → r = r' ∧ lastUp tr = some r) ∧
      lastCall tr = some .disconnect ∧ p = frame DISCONNECT_REQUEST ([r.channel, 0] ++ hpai r'.dataEndpoint) := by
  have same : ∀ {r r'}, DuringCall2 tr r r' → ups (since isCall tr) = [] → r = r' ∧ lastUp tr = some r := by
    intro r r' h1 h2
    obtain ⟨h3, h4⟩ := h1.both
    have e1 := h3.same h2
    have e2 := h4.same h2
    rw [e1] at e2
    cases e2
    exact ⟨rfl, e1⟩
  have hc := h.callInv
  have hl := h.looked
  have ht : MApiTr m s s' o := by
    cases e with
    | api e => exact mapiStep_tr hs
    | delay d => cases hs; simp at hp
    | bg e =>
      simp only [Knx.mstep, Option.map_eq_some_iff, Prod.exists, Prod.mk.injEq] at hs
      obtain ⟨b, o', hb, rfl, rfl⟩ := hs
      have := bgStep_tr hb
      cases this <;> simp at hp
  have tun : ∀ q, s.api = .sendReq q → (∃ addr, lastCall tr = some (.solicit addr)) ∨ (∃ addr v small, lastCall tr = some (.write addr v small)) := by
    intro q hapi
    rw [hapi] at hc
    obtain ⟨c, h1, _, n, ch, cemi, h3, _⟩ := hc
    cases c <;> simp [mtunnelCemi] at h3
    · exact Or.inr ⟨_, _, _, h1⟩
    · exact Or.inl ⟨_, h1⟩
  cases ht
  case send hapi => exact Or.inl (tun _ hapi)
  case sendFail hapi => exact Or.inl (tun _ hapi)
  case dcSend q hapi =>
    simp at hp
    rw [hapi] at hc hl
    obtain ⟨r, r', k1, k2⟩ := hl
    exact Or.inr ⟨r, r', k1, same k1, hc.1, by rw [hp, k2, C19_bodies.2.1]⟩
  case dcSendFail q hapi =>
    simp at hp
    rw [hapi] at hc hl
    obtain ⟨r, r', k1, k2⟩ := hl
    exact Or.inr ⟨r, r', k1, same k1, hc.1, by rw [hp, k2, C19_bodies.2.1]⟩
  all_goals simp at hp

/-! ## Refutation -/

/-- The task loses its connection and gets another one. -/
def again (d : Bytes) : List BgEv := [.recvErr, .run, .run, .sendOk, .dgram d, .run]

theorem again_run (m : Mode) (d2 : Bytes) (r1 r2 : ConnectionResponse) (h2 : Grants d2 r2) :
    bgRun .client m (linkUp .client r1) (again d2)
      = some (linkUp .client r2, [.rxErr, .down, .tx .task connReqPacket, .rxConn d2, .up r2]) := by
  simp [again, bgRun, bgStep, linkUp, Bg.init, (tryConnect_iff d2 r2).2 h2, connected]

/-- C90 is refuted: if the connection `r1` is lost and `r2` established between the two look-ups of a disconnect, then its request carries
the channel of `r1` and the endpoint of `r2`: for any two connections a server may grant. -/
theorem C90_violated_disconnect (m : Mode) (d1 d2 : Bytes) (r1 r2 : ConnectionResponse) (h1 : Grants d1 r1) (h2 : Grants d2 r2) :
    ∃ s, Exec m s (linkTrace .client d1 r1 ++ [.call .disconnect, .rxErr, .down, .tx .task connReqPacket, .rxConn d2, .up r2,
      .tx .api (frame DISCONNECT_REQUEST ([r1.channel, 0] ++ hpai r2.dataEndpoint))]) := by
  have e0 := exec_link m h1
  have e1 : runEvs m ⟨linkUp .client r1, .idle⟩ [.api (.call .disconnect), .api .run] = some (⟨linkUp .client r1, .dcEp r1.channel⟩, [.call .disconnect]) := by
    simp [runEvs, Knx.step, apiStep, apiCall, linkUp, Bg.init, withConn, connLocked, Conn.ofResponse]
  have e2 := bgRun_run (s := ⟨linkUp .client r1, .dcEp r1.channel⟩) (again_run m d2 r1 r2 h2)
  have e3 : runEvs m ⟨linkUp .client r2, .dcEp r1.channel⟩ [.api .run, .api .skipLog, .api .sendOk]
      = some (⟨linkUp .client r2, .dcRecv⟩, [.tx .api (frame DISCONNECT_REQUEST ([r1.channel, 0] ++ hpai r2.dataEndpoint))]) := by
    simp [runEvs, Knx.step, apiStep, linkUp, Bg.init, withConn, connLocked, Conn.ofResponse, C19_bodies.2.1]
  have := ((e0.append (runEvs_run e1)).append e2).append (runEvs_run e3)
  exact ⟨_, by simpa using this⟩

/-- C90 is refuted for a status query. -/
theorem C90_violated_status (m : Mode) (d1 d2 : Bytes) (r1 r2 : ConnectionResponse) (h1 : Grants d1 r1) (h2 : Grants d2 r2) :
    ∃ s, Exec m s (linkTrace .client d1 r1 ++ [.call .status, .rxErr, .down, .tx .task connReqPacket, .rxConn d2, .up r2,
      .tx .api (frame CONNECTIONSTATE_REQUEST ([r1.channel, 0] ++ hpai r2.dataEndpoint))]) := by
  have e0 := exec_link m h1
  have e1 : runEvs m ⟨linkUp .client r1, .idle⟩ [.api (.call .status), .api .run] = some (⟨linkUp .client r1, .stEp r1.channel⟩, [.call .status]) := by
    simp [runEvs, Knx.step, apiStep, apiCall, linkUp, Bg.init, withConn, connLocked, Conn.ofResponse]
  have e2 := bgRun_run (s := ⟨linkUp .client r1, .stEp r1.channel⟩) (again_run m d2 r1 r2 h2)
  have e3 : runEvs m ⟨linkUp .client r2, .stEp r1.channel⟩ [.api .run, .api .sendOk]
      = some (⟨linkUp .client r2, .stRecv⟩, [.tx .api (frame CONNECTIONSTATE_REQUEST ([r1.channel, 0] ++ hpai r2.dataEndpoint))]) := by
    simp [runEvs, Knx.step, apiStep, linkUp, Bg.init, withConn, connLocked, Conn.ofResponse, C19_bodies.1]
  have := ((e0.append (runEvs_run e1)).append e2).append (runEvs_run e3)
  exact ⟨_, by simpa using this⟩

theorem magain_run (m : Mode) (d2 : Bytes) (r1 r2 : ConnectionResponse) (h2 : Grants d2 r2) :
    bgRun .monitor m (linkUp .monitor r1) [.recvErr, .run, .run, .sendOk, .dgram d2, .sendOk, .run, .run]
      = some (linkUp .monitor r2, [.rxErr, .down, .tx .task connReqPacket, .rxConn d2, .tx .task (enablePacket r2.channel), .up r2]) := by
  simp [bgRun, bgStep, linkUp, Bg.init, (tryConnect_iff d2 r2).2 h2, connected]

/-- C90 is refuted for the monitor. -/
theorem C90_violated_monitor (m : Mode) (d1 d2 : Bytes) (r1 r2 : ConnectionResponse) (h1 : Grants d1 r1) (h2 : Grants d2 r2) :
    ∃ s, MExec m s (linkTrace .monitor d1 r1 ++ [.call .disconnect, .rxErr, .down, .tx .task connReqPacket, .rxConn d2,
      .tx .task (enablePacket r2.channel), .up r2, .tx .api (frame DISCONNECT_REQUEST ([r1.channel, 0] ++ hpai r2.dataEndpoint))]) := by
  have e0 := mexec_link m h1
  have e1 : mrunEvs m ⟨linkUp .monitor r1, .idle, []⟩ [.api (.call .disconnect), .api .run]
      = some (⟨linkUp .monitor r1, .dcEp r1.channel, []⟩, [.call .disconnect]) := by
    simp [mrunEvs, Knx.mstep, mapiStep, mcallStep, mapiCall, linkUp, Bg.init, mwithConn, connLocked, Conn.ofResponse]
  have e2 := bgRun_mrun (s := ⟨linkUp .monitor r1, .dcEp r1.channel, []⟩) (magain_run m d2 r1 r2 h2)
  have e3 : mrunEvs m ⟨linkUp .monitor r2, .dcEp r1.channel, []⟩ [.api .run, .api .sendOk]
      = some (⟨linkUp .monitor r2, .dcRecv, []⟩, [.tx .api (frame DISCONNECT_REQUEST ([r1.channel, 0] ++ hpai r2.dataEndpoint))]) := by
    simp [mrunEvs, Knx.mstep, mapiStep, mcallStep, linkUp, Bg.init, mwithConn, connLocked, Conn.ofResponse, C19_bodies.2.1]
  have := ((e0.append (mrunEvs_run e1)).append e2).append (mrunEvs_run e3)
  exact ⟨_, by simpa using this⟩

/-- The hypotheses of C90: a disconnect on channel 7 whose request is being sent, no connection established during the call. -/
example (m : Mode) : ∃ s s' tr, Exec m s tr ∧
    Knx.step m s (.api .sendOk) = some (s', [.tx .api [6, 0x10, 2, 9, 0, 16, 7, 0, 8, 1, 192, 168, 1, 2, 0x0e, 0x57]]) ∧
    ups (since isCall tr) = [] ∧ lastUp tr = some conn7 := by
  obtain ⟨s, tr, h1, h2⟩ := exec_of_evs (m := m) (evs := [.bg .run, .bg .sendOk, .bg (.dgram grant7), .bg .run,
      .api (.call .disconnect), .api .run, .api .run, .api .skipLog])
    (f := fun x => (ups (since isCall x.2), lastUp x.2, x.1.api))
    (y := ([], some conn7, .dcSend [6, 0x10, 2, 9, 0, 16, 7, 0, 8, 1, 192, 168, 1, 2, 0x0e, 0x57])) (by cases m <;> decide +kernel)
  simp only [Prod.mk.injEq] at h2
  exact ⟨s, _, tr, h1, by simp only [Knx.step, apiStep, h2.2.2]; rfl, h2.1, h2.2.1⟩

/-- The same for the monitor. -/
example (m : Mode) : ∃ s s' tr, MExec m s tr ∧
    Knx.mstep m s (.api .sendOk) = some (s', [.tx .api [6, 0x10, 2, 9, 0, 16, 7, 0, 8, 1, 192, 168, 1, 2, 0x0e, 0x57]]) ∧
    ups (since isCall tr) = [] ∧ lastUp tr = some conn7 := by
  obtain ⟨s, tr, h1, h2⟩ := mexec_of_evs (m := m) (evs := mconnEvs ++ [.api (.call .disconnect), .api .run, .api .run])
    (f := fun x => (ups (since isCall x.2), lastUp x.2, x.1.api))
    (y := ([], some conn7, .dcSend [6, 0x10, 2, 9, 0, 16, 7, 0, 8, 1, 192, 168, 1, 2, 0x0e, 0x57])) (by cases m <;> decide +kernel)
  simp only [Prod.mk.injEq] at h2
  exact ⟨s, _, tr, h1, by simp only [Knx.mstep, mapiStep, mcallStep, h2.2.2]; rfl, h2.1, h2.2.1⟩

end Knx
