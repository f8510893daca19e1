import Verif.Lemmas.Brackets
import Verif.Props.Timing

/-!
# Properties of the API calls (C74–C76) and time-outs that do not come early (C55, C71)
-/

namespace Knx
open Spec

/-! ## C74 -/

/-- C74: a write or a solicit of the monitor returns Ok exactly when it has sent its one request; when it returns an error or
panics, it has sent nothing. -/
theorem C74_telegram {m : Mode} {s s' : MSys} {tr o : List Obs} {e : MEv} {c : Call} {r : Ret} (h : MExec m s tr)
    (hs : mstep m s e = some (s', o)) (hr : Obs.ret r ∈ o) (hc : lastCall (tr ++ o) = some c)
    (hk : (∃ addr, c = .solicit addr) ∨ ∃ addr v small, c = .write addr v small) :
    (r = .unit ∧ apiSent (since isCall tr) = [] ∧ ∃ p ch n cemi, o = [.tx .api p, .ret .unit] ∧
      drawn (since isCall tr) = [n] ∧ TelegramOf c cemi ∧ RequestPacket ch n cemi p) ∨
    ((r = .err ∨ r = .panic) ∧ apiSent (since isCall (tr ++ o)) = []) := by
  have hi := h.callInv
  have ht := mstep_api hs (Or.inl (returned_ne hr))
  have hne : c ≠ .disconnect ∧ c ≠ .isConnected ∧ ∀ id, c ≠ .subscribe id := by
    rcases hk with ⟨_, rfl⟩ | ⟨_, _, _, rfl⟩ <;> simp
  cases ht
  case callErr c' h1 h2 h3 =>
    simp only [List.mem_cons, Obs.ret.injEq, reduceCtorEq, List.not_mem_nil, or_false, false_or] at hr
    exact Or.inr ⟨Or.inl hr, by rw [since_call _ _ _ (by rfl)]; rfl⟩
  case callPanic c' h1 h2 h3 =>
    simp only [List.mem_cons, Obs.ret.injEq, reduceCtorEq, List.not_mem_nil, or_false, false_or] at hr
    exact Or.inr ⟨Or.inr hr, by rw [since_call _ _ _ (by rfl)]; rfl⟩
  all_goals simp only [List.mem_cons, Obs.ret.injEq, reduceCtorEq, List.not_mem_nil, or_false, false_or] at hr
  all_goals
    rw [lastCall_same _ _ (by rfl)] at hc
    rw [since_task _ (by rfl), apiSent_append]
  case noConn h1 h2 h3 =>
    refine Or.inr ⟨Or.inl hr, ?_⟩
    simp only [apiSent, List.filterMap_cons, List.filterMap_nil, List.append_nil]
    cases ha : s.api <;> simp only [ha, mlooksUp, Bool.false_eq_true] at h1 <;> rw [ha] at hi
    · obtain ⟨_, _, _, h, _⟩ := hi; exact h
    · obtain ⟨_, _, _, h, _⟩ := hi; exact h
    · exact hi.2.1
    · exact hi.2.1
  case pickPanic n cemi d h1 h2 h3 h4 =>
    rw [h1] at hi
    obtain ⟨_, _, _, h, _⟩ := hi
    exact Or.inr ⟨Or.inr hr, by rw [h]; rfl⟩
  case send p h1 =>
    rw [h1] at hi
    obtain ⟨c', g1, g2, n, ch, cemi, g3, g4, g5⟩ := hi
    rw [g1] at hc; cases hc
    exact Or.inl ⟨hr, g2, p, ch, n, cemi, rfl, g4, telegramOf_monitor g3, requestPacket_of g5⟩
  case sendFail p h1 =>
    rw [h1] at hi
    obtain ⟨c', g1, g2, _⟩ := hi
    exact Or.inr ⟨Or.inl hr, by rw [g2]; rfl⟩
  case dcSendFail p h1 => rw [h1] at hi; rw [hi.1] at hc; cases hc; exact absurd rfl hne.1
  case dcOk d q h1 h2 => rw [h1] at hi; rw [hi.1] at hc; cases hc; exact absurd rfl hne.1
  case dcBad d h1 h2 => rw [h1] at hi; rw [hi.1] at hc; cases hc; exact absurd rfl hne.1
  case dcErr h1 => rw [h1] at hi; rw [hi.1] at hc; cases hc; exact absurd rfl hne.1
  case isConn h1 h2 => rw [h1] at hi; rw [hi.1] at hc; cases hc; exact absurd rfl hne.2.1
  case subscribe id h1 h2 h3 => rw [h1] at hi; rw [hi.1] at hc; cases hc; exact absurd rfl (hne.2.2 id)

/-- C74: what `disconnect` of the monitor returns. With a status: it has sent the disconnect request and received a disconnect response
with this status. With an error: it was not connected and has sent nothing, or what it received is no disconnect response. It panics when
it cannot send or cannot receive. -/
theorem C74_disconnect {m : Mode} {s s' : MSys} {tr o : List Obs} {e : MEv} {r : Ret} (h : MExec m s tr)
    (hs : mstep m s e = some (s', o)) (hr : Obs.ret r ∈ o) (hc : lastCall (tr ++ o) = some .disconnect) :
    (∃ d ch ep, o = [.rxApi d, .ret r] ∧ apiSent (since isCall tr) = [frame DISCONNECT_REQUEST ([ch, 0] ++ hpai ep)] ∧
      ((∃ st q, r = .code st ∧ Decodes (seen d) (.disconnectResponse ⟨q, st⟩)) ∨
       (r = .err ∧ ∀ q, ¬ Decodes (seen d) (.disconnectResponse q)))) ∨
    (o = [.ret r] ∧ r = .err ∧ upNow tr = false ∧ apiSent (since isCall tr) = []) ∨
    (r = .panic ∧ ((∃ p, o = [.txFail .api p, .ret r]) ∨ e = .api .recvErr)) := by
  have hi := h.callInv
  have hup := h.gexec.upNow
  have ht := mstep_api hs (Or.inl (returned_ne hr))
  cases ht
  case callErr c' h1 h2 h3 =>
    rw [show [Obs.call c', .ret .err] = [.call c'] ++ [.ret .err] from rfl, ← List.append_assoc, lastCall_same _ _ (by rfl), lastCall_call] at hc
    cases hc; simp [mtunnelCemi] at h3
  case callPanic c' h1 h2 h3 =>
    rw [show [Obs.call c', .ret .panic] = [.call c'] ++ [.ret .panic] from rfl, ← List.append_assoc, lastCall_same _ _ (by rfl), lastCall_call] at hc
    cases hc; simp [mtunnelCemi] at h3
  all_goals simp only [List.mem_cons, Obs.ret.injEq, reduceCtorEq, List.not_mem_nil, or_false, false_or] at hr
  all_goals rw [lastCall_same _ _ (by rfl)] at hc
  case noConn h1 h2 h3 =>
    subst hr
    refine Or.inr (Or.inl ⟨rfl, rfl, by rw [← hup, h3]; rfl, ?_⟩)
    cases ha : s.api <;> simp only [ha, mlooksUp, Bool.false_eq_true] at h1 <;> rw [ha] at hi
    · obtain ⟨_, _, _, h, _⟩ := hi; exact h
    · obtain ⟨_, _, _, h, _⟩ := hi; exact h
    · exact hi.2.1
    · exact hi.2.1
  case pickPanic n cemi d h1 h2 h3 h4 =>
    rw [h1] at hi
    obtain ⟨c', g1, g2, _⟩ := hi
    rw [g1] at hc; cases hc; simp [mtunnelCemi] at g2
  case send p h1 =>
    rw [h1] at hi
    obtain ⟨c', g1, _, _, _, _, g2, _⟩ := hi
    rw [g1] at hc; cases hc; simp [mtunnelCemi] at g2
  case sendFail p h1 =>
    rw [h1] at hi
    obtain ⟨c', g1, _, _, _, _, g2, _⟩ := hi
    rw [g1] at hc; cases hc; simp [mtunnelCemi] at g2
  case isConn h1 h2 => rw [h1] at hi; rw [hi.1] at hc; cases hc
  case subscribe id h1 h2 h3 => rw [h1] at hi; rw [hi.1] at hc; cases hc
  case dcSendFail p h1 => exact Or.inr (Or.inr ⟨hr, Or.inl ⟨p, by rw [hr]⟩⟩)
  case dcErr h1 =>
    refine Or.inr (Or.inr ⟨hr, Or.inr ?_⟩)
    cases e with
    | bg e =>
      simp only [mstep, Option.map_eq_some_iff, Prod.exists, Prod.mk.injEq] at hs
      obtain ⟨b, o', hb, _, rfl⟩ := hs
      have := (bgStep_tr hb).facts.returned
      simp [returned] at this
    | delay d => simp [mstep] at hs
    | api e =>
      cases e <;> simp only [mstep, mapiStep, mcallStep, h1] at hs
      case recvErr => rfl
      all_goals
        try simp only [nextMsg, nfinish, mfinish] at hs
        repeat' split at hs
        all_goals simp at hs
  case dcOk d q h1 h2 =>
    rw [h1] at hi
    obtain ⟨_, _, ch, ep, g⟩ := hi
    rw [C19_bodies.2.1] at g
    obtain ⟨a, rest, h3, h4⟩ := runRd_ok_iff.1 h2
    cases h4
    refine Or.inl ⟨d, ch, ep, by rw [hr], g, Or.inl ⟨a.status, a.channel, hr, ?_⟩⟩
    rw [← buffer_eq_seen, DisconnectResponse.fromPacket_iff.1 h3]
    exact .disconnectResponse _ _ _
  case dcBad d h1 h2 =>
    rw [h1] at hi
    obtain ⟨_, _, ch, ep, g⟩ := hi
    rw [C19_bodies.2.1] at g
    refine Or.inl ⟨d, ch, ep, by rw [hr], g, Or.inr ⟨hr, fun q hq => ?_⟩⟩
    generalize hd : seen d = b at hq
    cases hq
    rename_i ch' st rest
    have : DisconnectResponse.fromPacket (buffer d) = .ok (⟨ch', st⟩, rest) := by
      rw [DisconnectResponse.fromPacket_iff, buffer_eq_seen, hd]
    simp [runRd, this] at h2

/-- C74: what `is_connected` returns: whether the last thing observed of establishing and giving up connections is that one was established. -/
theorem C74_is_connected {m : Mode} {s s' : MSys} {tr o : List Obs} {e : MEv} {r : Ret} (h : MExec m s tr)
    (hs : mstep m s e = some (s', o)) (hr : Obs.ret r ∈ o) (hc : lastCall (tr ++ o) = some .isConnected) :
    o = [.ret r] ∧ r = .bool (upNow tr) ∧ apiSent (since isCall tr) = [] := by
  have hi := h.callInv
  have hup := h.gexec.upNow
  have ht := mstep_api hs (Or.inl (returned_ne hr))
  cases ht
  case callErr c' h1 h2 h3 =>
    rw [show [Obs.call c', .ret .err] = [.call c'] ++ [.ret .err] from rfl, ← List.append_assoc, lastCall_same _ _ (by rfl), lastCall_call] at hc
    cases hc; simp [mtunnelCemi] at h3
  case callPanic c' h1 h2 h3 =>
    rw [show [Obs.call c', .ret .panic] = [.call c'] ++ [.ret .panic] from rfl, ← List.append_assoc, lastCall_same _ _ (by rfl), lastCall_call] at hc
    cases hc; simp [mtunnelCemi] at h3
  all_goals simp only [List.mem_cons, Obs.ret.injEq, reduceCtorEq, List.not_mem_nil, or_false, false_or] at hr
  all_goals rw [lastCall_same _ _ (by rfl)] at hc
  case noConn h1 h2 h3 =>
    cases ha : s.api <;> simp only [ha, mlooksUp, Bool.false_eq_true] at h1 <;> rw [ha] at hi
    · obtain ⟨c', g1, g2, _⟩ := hi
      rw [g1] at hc; cases hc; simp [mtunnelCemi] at g2
    · obtain ⟨c', g1, g2, _⟩ := hi
      rw [g1] at hc; cases hc; simp [mtunnelCemi] at g2
    · rw [hi.1] at hc; cases hc
    · rw [hi.1] at hc; cases hc
  case pickPanic n cemi d h1 h2 h3 h4 =>
    rw [h1] at hi
    obtain ⟨c', g1, g2, _⟩ := hi
    rw [g1] at hc; cases hc; simp [mtunnelCemi] at g2
  case send p h1 =>
    rw [h1] at hi
    obtain ⟨c', g1, _, _, _, _, g2, _⟩ := hi
    rw [g1] at hc; cases hc; simp [mtunnelCemi] at g2
  case sendFail p h1 =>
    rw [h1] at hi
    obtain ⟨c', g1, _, _, _, _, g2, _⟩ := hi
    rw [g1] at hc; cases hc; simp [mtunnelCemi] at g2
  case dcSendFail p h1 => rw [h1] at hi; rw [hi.1] at hc; cases hc
  case dcOk d q h1 h2 => rw [h1] at hi; rw [hi.1] at hc; cases hc
  case dcBad d h1 h2 => rw [h1] at hi; rw [hi.1] at hc; cases hc
  case dcErr h1 => rw [h1] at hi; rw [hi.1] at hc; cases hc
  case subscribe id h1 h2 h3 => rw [h1] at hi; rw [hi.1] at hc; cases hc
  case isConn h1 h2 => rw [h1] at hi; subst hr; exact ⟨rfl, by rw [hup], hi.2⟩

/-- C74: what `add_on_connect` returns. -/
theorem C74_subscribe {m : Mode} {s s' : MSys} {tr o : List Obs} {e : MEv} {r : Ret} {id : Nat} (h : MExec m s tr)
    (hs : mstep m s e = some (s', o)) (hr : Obs.ret r ∈ o) (hc : lastCall (tr ++ o) = some (.subscribe id)) :
    o = [.subscribed id, .ret .unit] ∧ r = .unit ∧ apiSent (since isCall tr) = [] := by
  have hi := h.callInv
  have ht := mstep_api hs (Or.inl (returned_ne hr))
  cases ht
  case callErr c' h1 h2 h3 =>
    rw [show [Obs.call c', .ret .err] = [.call c'] ++ [.ret .err] from rfl, ← List.append_assoc, lastCall_same _ _ (by rfl), lastCall_call] at hc
    cases hc; simp [mtunnelCemi] at h3
  case callPanic c' h1 h2 h3 =>
    rw [show [Obs.call c', .ret .panic] = [.call c'] ++ [.ret .panic] from rfl, ← List.append_assoc, lastCall_same _ _ (by rfl), lastCall_call] at hc
    cases hc; simp [mtunnelCemi] at h3
  all_goals simp only [List.mem_cons, Obs.ret.injEq, reduceCtorEq, List.not_mem_nil, or_false, false_or] at hr
  all_goals rw [lastCall_same _ _ (by rfl)] at hc
  case noConn h1 h2 h3 =>
    cases ha : s.api <;> simp only [ha, mlooksUp, Bool.false_eq_true] at h1 <;> rw [ha] at hi
    · obtain ⟨c', g1, g2, _⟩ := hi
      rw [g1] at hc; cases hc; simp [mtunnelCemi] at g2
    · obtain ⟨c', g1, g2, _⟩ := hi
      rw [g1] at hc; cases hc; simp [mtunnelCemi] at g2
    · rw [hi.1] at hc; cases hc
    · rw [hi.1] at hc; cases hc
  case pickPanic n cemi d h1 h2 h3 h4 =>
    rw [h1] at hi
    obtain ⟨c', g1, g2, _⟩ := hi
    rw [g1] at hc; cases hc; simp [mtunnelCemi] at g2
  case send p h1 =>
    rw [h1] at hi
    obtain ⟨c', g1, _, _, _, _, g2, _⟩ := hi
    rw [g1] at hc; cases hc; simp [mtunnelCemi] at g2
  case sendFail p h1 =>
    rw [h1] at hi
    obtain ⟨c', g1, _, _, _, _, g2, _⟩ := hi
    rw [g1] at hc; cases hc; simp [mtunnelCemi] at g2
  case dcSendFail p h1 => rw [h1] at hi; rw [hi.1] at hc; cases hc
  case dcOk d q h1 h2 => rw [h1] at hi; rw [hi.1] at hc; cases hc
  case dcBad d h1 h2 => rw [h1] at hi; rw [hi.1] at hc; cases hc
  case dcErr h1 => rw [h1] at hi; rw [hi.1] at hc; cases hc
  case isConn h1 h2 => rw [h1] at hi; rw [hi.1] at hc; cases hc
  case subscribe id' h1 h2 h3 =>
    rw [h1] at hi; rw [hi.1] at hc; cases hc
    exact ⟨rfl, hr, hi.2⟩

/-- Before the connection: not connected, a write fails. Then: connected, a write of one byte succeeds, the disconnect is confirmed with status 0. -/
example (m : Mode) : ∃ s tr, MExec m s tr ∧ returned tr = [.unit, .bool false, .err, .bool true, .unit, .err, .code 0] ∧
    apiSent tr = [frame TUNNELING_REQUEST ([4, 7, 1, 0] ++ lDataReqFrame 3 0x801 (apduWriteBig [5])),
      frame DISCONNECT_REQUEST ([7, 0] ++ hpai conn7.dataEndpoint)] := by
  obtain ⟨s, tr, h1, h2⟩ := mexec_of_evs (m := m) (evs := [.api (.mkChan 1 2), .api (.call (.subscribe 1)), .api .run,
      .api (.call .isConnected), .api .run, .api (.call (.write (.group3 ⟨1, 0, 1⟩) [5] false)), .api .run] ++ mconnEvs ++
      [.bg .run, .api (.call .isConnected), .api .run, .api (.call (.write (.group3 ⟨1, 0, 1⟩) [5] false)), .api .run, .api .run,
       .api .sendOk, .api (.call (.solicit (.group3 ⟨1, 0, 1⟩))), .api .run, .api .run, .api .sendFail,
       .api (.call .disconnect), .api .run, .api .run, .api .sendOk, .api (.dgram [6, 0x10, 2, 0x0a, 0, 8, 7, 0])])
    (f := fun x => (returned x.2, apiSent x.2))
    (y := ([.unit, .bool false, .err, .bool true, .unit, .err, .code 0],
      [frame TUNNELING_REQUEST ([4, 7, 1, 0] ++ lDataReqFrame 3 0x801 (apduWriteBig [5])),
      frame DISCONNECT_REQUEST ([7, 0] ++ hpai conn7.dataEndpoint)])) (by cases m <;> decide +kernel)
  simp only [Prod.mk.injEq] at h2
  exact ⟨s, tr, h1, h2⟩

/-! ## C75 -/

/-- The calls the client has. -/
def clientCall : Call → Bool
  | .read _ => true
  | .write _ _ _ => true
  | .status => true
  | .disconnect => true
  | _ => false

/-- The calls the monitor has (besides `next_msg`). -/
def monitorCall : Call → Bool
  | .write _ _ _ => true
  | .solicit _ => true
  | .disconnect => true
  | .isConnected => true
  | .subscribe _ => true
  | _ => false

/-- C75 for the client: in every execution calls and their ends (a result, or cancellation by the caller) alternate: every result belongs to the
one call in progress, no call gets two, and none starts before the one before is over. While no call is in progress and the client has
not been dropped every call can start; while one is, it can be cancelled at any time. -/
theorem C75_client {m : Mode} {s : Sys} {tr : List Obs} (h : Exec m s tr) :
    (bracket tr = some false ∧ (Obs.dropped ∉ tr → ∀ c, clientCall c = true → ∃ s' o, step m s (.api (.call c)) = some (s', .call c :: o))) ∨
    (bracket tr = some true ∧ (∀ c, step m s (.api (.call c)) = none) ∧ ∃ s', step m s (.api .cancel) = some (s', [.cancelled])) := by
  have hb := h.bracket
  by_cases hi : s.api = .idle
  · refine Or.inl ⟨by rw [hb]; simp [hi], fun hd c hc => ?_⟩
    have hr : s.bg.rxOpen = true := by
      by_contra hx
      exact hd ((h.gexec.channel.closed (by simpa using hx)).2.2)
    cases c <;> simp only [clientCall, Bool.false_eq_true] at hc
    all_goals simp only [step, apiStep, reduceCtorEq, if_false, hi, hr, if_true, apiCall]
    · cases readCemi m _ <;> exact ⟨_, _, rfl⟩
    · cases writeCemi m _ _ _ <;> exact ⟨_, _, rfl⟩
    · exact ⟨_, _, rfl⟩
    · exact ⟨_, _, rfl⟩
  · refine Or.inr ⟨by rw [hb]; simp [hi], fun c => ?_, { s with api := .idle }, by simp [step, apiStep, hi]⟩
    cases ha : s.api <;> simp [step, apiStep, ha] at hi ⊢

/-- C75 for the monitor's calls that hold the transport. -/
theorem C75_monitor {m : Mode} {s : MSys} {tr : List Obs} (h : MExec m s tr) :
    (bracket tr = some false ∧ (Obs.dropped ∉ tr → ∀ c, monitorCall c = true → ∃ s' o, mstep m s (.api (.call c)) = some (s', .call c :: o))) ∨
    (bracket tr = some true ∧ (∀ c, mstep m s (.api (.call c)) = none) ∧ ∃ s', mstep m s (.api .cancel) = some (s', [.cancelled])) := by
  have hb := h.bracket
  by_cases hi : s.api = .idle
  · refine Or.inl ⟨by rw [hb]; simp [hi], fun hd c hc => ?_⟩
    have hr : s.bg.rxOpen = true := by
      by_contra hx
      exact hd ((h.gexec.channel.closed (by simpa using hx)).2.2)
    cases c <;> simp only [monitorCall, Bool.false_eq_true] at hc
    all_goals simp only [mstep, mapiStep, mcallStep, hi, hr, if_true, mapiCall]
    · cases writeCemi m _ _ _ <;> exact ⟨_, _, rfl⟩
    · exact ⟨_, _, rfl⟩
    · cases readCemi m _ <;> exact ⟨_, _, rfl⟩
    · exact ⟨_, _, rfl⟩
    · exact ⟨_, _, rfl⟩
  · refine Or.inr ⟨by rw [hb]; simp [hi], fun c => ?_, { s with api := .idle }, by simp [mstep, mapiStep, hi]⟩
    cases ha : s.api <;> simp [mstep, mapiStep, mcallStep, ha] at hi ⊢

/-- C75 for `next_msg`: the same for every caller by itself, whatever the others and the other calls do; it can start while no call holds
the transport. -/
theorem C75_next {m : Mode} {s : MSys} {tr : List Obs} (h : MExec m s tr) (i : Nat) :
    (nbracket i tr = some false ∧ (Obs.dropped ∉ tr → bracket tr = some false →
      ∃ s', mstep m s (.api (.ncall i)) = some (s', [.ncall i]))) ∨
    (nbracket i tr = some true ∧ mstep m s (.api (.ncall i)) = none ∧ ∃ s', mstep m s (.api (.ncancel i)) = some (s', [.ncancelled i])) := by
  have hb := h.nbracket i
  by_cases hi : i ∈ s.waiting
  · refine Or.inr ⟨by rw [hb]; simp [hi], ?_, { s with waiting := s.waiting.filter (· ≠ i) }, by simp [mstep, mapiStep, hi]⟩
    cases ha : s.api <;> simp [mstep, mapiStep, mcallStep, ha, hi]
  · refine Or.inl ⟨by rw [hb]; simp [hi], fun hd hc => ?_⟩
    have hr : s.bg.rxOpen = true := by
      by_contra hx
      exact hd ((h.gexec.channel.closed (by simpa using hx)).2.2)
    have ha : s.api = .idle := by
      rw [h.bracket] at hc
      simpa using hc
    exact ⟨{ s with waiting := i :: s.waiting }, by simp [mstep, mapiStep, mcallStep, ha, hr, hi]⟩

/-- Three calls, one of them cancelled and one still open. -/
example (m : Mode) : ∃ s tr, Exec m s tr ∧ bracket tr = some true ∧ returned tr = [.err] ∧ Obs.cancelled ∈ tr ∧ (calls tr).length = 3 := by
  obtain ⟨s, tr, h1, h2⟩ := exec_of_evs (m := m) (evs := [.api (.call .status), .api .run, .bg .run, .bg .sendOk, .bg (.dgram grant7), .bg .run,
      .api (.call (.read (.group3 ⟨1, 0, 1⟩))), .api .run, .api .cancel, .api (.call .disconnect), .api .run])
    (f := fun x => (bracket x.2, returned x.2, x.2.contains .cancelled, (calls x.2).length))
    (y := (some true, [.err], true, 3)) (by cases m <;> decide +kernel)
  simp only [Prod.mk.injEq, List.contains_iff_mem] at h2
  exact ⟨s, tr, h1, h2⟩

example (m : Mode) : ∃ s tr, MExec m s tr ∧ bracket tr = some false ∧ nbracket 4 tr = some false ∧ nbracket 5 tr = some true ∧
    (nexts tr).length = 1 := by
  obtain ⟨s, tr, h1, h2⟩ := mexec_of_evs (m := m) (evs := mconnEvs ++ [.api (.ncall 4), .api (.ncall 5), .api (.call .isConnected),
      .bg (.dgram req7), .bg .sendOk, .bg .run, .api (.nrun 4), .api .run])
    (f := fun x => (bracket x.2, nbracket 4 x.2, nbracket 5 x.2, (nexts x.2).length))
    (y := (some false, some false, some true, 1)) (by cases m <;> decide +kernel)
  simp only [Prod.mk.injEq] at h2
  exact ⟨s, tr, h1, h2⟩

/-! ## C76 -/

theorem writeCemi_panic_iff (m : Mode) (addr : KnxAddress) (v : Bytes) (small : Bool) :
    writeCemi m addr v small = .panic ↔ (small = true ∧ v = []) ∨ (m = .debug ∧ small = false ∧ (v.length + 2) % 256 = 0) := by
  cases small with
  | false =>
    have := (C10_exact m addr 3 Apci.groupValueWrite v).1
    simp only [Bool.false_eq_true, false_and, false_or, true_and]
    rw [← this]
    rfl
  | true =>
    cases v with
    | nil => simp [writeCemi, Apdu.groupValueWrite]
    | cons d v =>
      rw [writeCemi_eq m addr (d :: v) true (by simp) (by simp)]
      simp

theorem request_panic_iff (m : Mode) (t : TunnelingRequest) :
    t.packet m = .panic ↔ m = .debug ∧ 65526 ≤ t.cemi.length % 65536 := by
  have h := addU_panic_iff m (10 : U16) (BitVec.ofNat 16 t.cemi.length)
  have e : (10 : U16).toNat + (BitVec.ofNat 16 t.cemi.length).toNat = 10 + t.cemi.length % 65536 := by simp
  rw [e] at h
  unfold TunnelingRequest.packet
  split
  · rename_i hx; rw [hx] at h; simp only [reduceCtorEq, false_iff] at h ⊢; exact fun hc => h ⟨hc.1, by omega⟩
  · rename_i hx; rw [hx] at h; simp only [reduceCtorEq, false_iff] at h ⊢; exact fun hc => h ⟨hc.1, by omega⟩
  · rename_i hx; rw [hx] at h; simp only [true_iff] at h ⊢; exact ⟨h.1, by omega⟩

theorem writeCemi_length {m : Mode} {addr : KnxAddress} {v cemi : Bytes} {small : Bool} (h : writeCemi m addr v small = .ok cemi) :
    cemi.length = if small then 11 else v.length + 11 := by
  cases small with
  | true =>
    have hv : v ≠ [] := by rintro rfl; simp [writeCemi, Apdu.groupValueWrite] at h
    rw [writeCemi_eq m addr v true (fun _ => hv) (by simp)] at h
    cases h
    simp [lDataReqFrame, apduWriteSmall, word]
  | false =>
    change (LDataReq.new addr (Tpdu.dataGroup ⟨Apci.groupValueWrite, .big v⟩)).packet m = _ at h
    rw [LDataReq.packet_eq] at h
    split at h
    · cases h
    · cases h
      have : (LDataReq.new addr (Tpdu.dataGroup ⟨Apci.groupValueWrite, .big v⟩)).tpdu.packet.length = v.length + 2 := by
        simp [LDataReq.new, Tpdu.packet, Tpdu.dataGroup, Apdu.packet_length]
      simp [word, this]

theorem request_panic {m : Mode} {c : Call} {cemi : Bytes} {ch n : U8} (h1 : tunnelCemi m c = some (.ok cemi) ∨ mtunnelCemi m c = some (.ok cemi))
    (h2 : (TunnelingRequest.mk ch n cemi).packet m = .panic) :
    m = .debug ∧ ∃ addr v, c = .write addr v false ∧ 65526 ≤ (v.length + 11) % 65536 := by
  obtain ⟨hm, hl⟩ := (request_panic_iff m _).1 h2
  refine ⟨hm, ?_⟩
  have rd : ∀ addr, readCemi m addr = .ok cemi → False := by
    intro addr h
    rw [readCemi_eq] at h; cases h
    simp [lDataReqFrame, apduRead, word] at hl
  have wr : ∀ addr v small, writeCemi m addr v small = .ok cemi → small = false ∧ 65526 ≤ (v.length + 11) % 65536 := by
    intro addr v small h
    have := writeCemi_length h
    simp only [this] at hl
    cases small <;> simp at hl ⊢
    exact hl
  rcases h1 with h | h <;> cases c <;> simp only [tunnelCemi, mtunnelCemi, Option.some.injEq, reduceCtorEq] at h
  · exact (rd _ h).elim
  · obtain ⟨rfl, h'⟩ := wr _ _ _ h; exact ⟨_, _, rfl, h'⟩
  · obtain ⟨rfl, h'⟩ := wr _ _ _ h; exact ⟨_, _, rfl, h'⟩
  · exact (rd _ h).elim

theorem call_panic {m : Mode} {c : Call} (h : tunnelCemi m c = some .panic ∨ mtunnelCemi m c = some .panic) :
    ∃ addr v small, c = .write addr v small ∧
      ((small = true ∧ v = []) ∨ (m = .debug ∧ small = false ∧ (v.length + 2) % 256 = 0)) := by
  rcases h with h | h <;> cases c <;> simp only [tunnelCemi, mtunnelCemi, Option.some.injEq, reduceCtorEq] at h
  · rw [readCemi_eq] at h; cases h
  · exact ⟨_, _, _, rfl, (writeCemi_panic_iff _ _ _ _).1 h⟩
  · exact ⟨_, _, _, rfl, (writeCemi_panic_iff _ _ _ _).1 h⟩
  · rw [readCemi_eq] at h; cases h

/-- C76: the calls of the client panic only in three situations: a write of an empty small value or, in a debug build, of a value of a length that is
254 modulo 256, at once; in a debug build a write of a value whose telegram does not fit into a frame (`65515` bytes and some more), when it is about to be
sent; and a disconnect whose request cannot be sent. In particular a read and a status query never panic. -/
theorem C76_client {m : Mode} {s s' : Sys} {tr o : List Obs} {e : Ev} (h : Exec m s tr)
    (hs : step m s e = some (s', o)) (hr : Obs.ret .panic ∈ o) :
    (∃ addr v small, o = [.call (.write addr v small), .ret .panic] ∧
      ((small = true ∧ v = []) ∨ (m = .debug ∧ small = false ∧ (v.length + 2) % 256 = 0))) ∨
    (∃ addr v, o = [.ret .panic] ∧ lastCall tr = some (.write addr v false) ∧ m = .debug ∧ 65526 ≤ (v.length + 11) % 65536) ∨
    (∃ p, o = [.txFail .api p, .ret .panic] ∧ lastCall tr = some .disconnect) := by
  have hi := h.callInv
  have ht := step_api hs (Or.inl (returned_ne hr))
  cases ht
  case callPanic c h1 h2 h3 =>
    obtain ⟨addr, v, small, rfl, h4⟩ := call_panic (Or.inl h3)
    exact Or.inl ⟨addr, v, small, rfl, h4⟩
  case pickPanic c n cemi d h1 h2 h3 h4 =>
    rw [h1] at hi
    obtain ⟨hm, addr, v, rfl, h5⟩ := request_panic (Or.inl hi.2.1) h4
    exact Or.inr (Or.inl ⟨addr, v, rfl, hi.1, hm, h5⟩)
  case dcSendFail p h1 =>
    rw [h1] at hi
    exact Or.inr (Or.inr ⟨p, rfl, hi.1⟩)
  all_goals simp at hr

/-- C76 for the monitor: the same, and a disconnect that cannot receive an answer. -/
theorem C76_monitor {m : Mode} {s s' : MSys} {tr o : List Obs} {e : MEv} (h : MExec m s tr)
    (hs : mstep m s e = some (s', o)) (hr : Obs.ret .panic ∈ o) :
    (∃ addr v small, o = [.call (.write addr v small), .ret .panic] ∧
      ((small = true ∧ v = []) ∨ (m = .debug ∧ small = false ∧ (v.length + 2) % 256 = 0))) ∨
    (∃ addr v, o = [.ret .panic] ∧ lastCall tr = some (.write addr v false) ∧ m = .debug ∧ 65526 ≤ (v.length + 11) % 65536) ∨
    (∃ p, o = [.txFail .api p, .ret .panic] ∧ lastCall tr = some .disconnect) ∨
    (o = [.ret .panic] ∧ lastCall tr = some .disconnect ∧ e = .api .recvErr) := by
  have hi := h.callInv
  have ht := mstep_api hs (Or.inl (returned_ne hr))
  have hd := C74_disconnect h hs hr
  cases ht
  case callPanic c h1 h2 h3 =>
    obtain ⟨addr, v, small, rfl, h4⟩ := call_panic (Or.inr h3)
    exact Or.inl ⟨addr, v, small, rfl, h4⟩
  case pickPanic n cemi d h1 h2 h3 h4 =>
    rw [h1] at hi
    obtain ⟨c, g1, g2, _⟩ := hi
    obtain ⟨hm, addr, v, rfl, h5⟩ := request_panic (Or.inr g2) h4
    exact Or.inr (Or.inl ⟨addr, v, rfl, g1, hm, h5⟩)
  case dcSendFail p h1 =>
    rw [h1] at hi
    exact Or.inr (Or.inr (Or.inl ⟨p, rfl, hi.1⟩))
  case dcErr h1 =>
    rw [h1] at hi
    rw [lastCall_same _ _ (by rfl)] at hd
    refine Or.inr (Or.inr (Or.inr ⟨rfl, hi.1, ?_⟩))
    have := hd hi.1
    simpa using this
  all_goals simp at hr

/-- C76: `next_msg` never panics, whatever arrives. -/
theorem C76_next {m : Mode} {s s' : MSys} {tr o : List Obs} {e : MEv} {i : Nat} (h : MExec m s tr)
    (hs : mstep m s e = some (s', o)) : Obs.nret i .panic ∉ o := by
  intro hr
  obtain ⟨_, h1 | h1⟩ := C61_caller h hs hr
  · obtain ⟨c, _, _, h2⟩ := h1
    simp [Shown] at h2
  · simp at h1

/-- C76: and in these situations they do panic: such a write, -/
theorem C76_write_panics {m : Mode} {s : Sys} {tr : List Obs} {addr : KnxAddress} {v : Bytes} {small : Bool} (h : Exec m s tr)
    (hb : bracket tr = some false) (hd : Obs.dropped ∉ tr)
    (hv : (small = true ∧ v = []) ∨ (m = .debug ∧ small = false ∧ (v.length + 2) % 256 = 0)) :
    step m s (.api (.call (.write addr v small))) = some (s, [.call (.write addr v small), .ret .panic]) := by
  have hr : s.bg.rxOpen = true := by
    by_contra hx
    exact hd ((h.gexec.channel.closed (by simpa using hx)).2.2)
  have ha : s.api = .idle := by
    rw [h.bracket] at hb
    simpa using hb
  simp [step, apiStep, ha, hr, apiCall, (writeCemi_panic_iff m addr v small).2 hv, startTunnel]

/-- C76: such a long write, once it has drawn its number and finds a connection, -/
theorem C76_long_panics {m : Mode} {s s' : Sys} {tr o : List Obs} {addr : KnxAddress} {v : Bytes} (h : Exec m s tr)
    (hb : bracket tr = some true) (hc : lastCall tr = some (.write addr v false)) (hn : drawn (since isCall tr) ≠ [])
    (hs : step m s (.api .run) = some (s', o)) (hq : apiSent (since isCall tr) = []) (hu : upNow tr = true)
    (hm : m = .debug) (hv : 65526 ≤ (v.length + 11) % 65536) : o = [.ret .panic] := by
  have hi := h.callInv
  have hup := h.gexec.upNow
  rw [hu] at hup
  rw [h.bracket] at hb
  simp only [step, apiStep, reduceCtorEq, if_false] at hs
  cases ha : s.api <;> rw [ha] at hs hi hb <;> simp only [reduceCtorEq] at hs
  case seqNr c cemi => exact absurd hi.2.2.2.2 hn
  case chanId c n cemi =>
    obtain ⟨g1, g2, _⟩ := hi
    rw [hc] at g1; cases g1
    simp only [tunnelCemi, Option.some.injEq] at g2
    obtain ⟨_, h1 | ⟨d, h1, h2⟩⟩ := withConn_cases hs
    · simp [h1.1] at hup
    · have hp : (TunnelingRequest.mk d.channel n cemi).packet m = .panic := by
        rw [request_panic_iff]
        refine ⟨hm, ?_⟩
        simp only [writeCemi_length g2, Bool.false_eq_true, if_false]
        exact hv
      simp only [hp, finish] at h2
      cases h2; rfl
  case reading => obtain ⟨_, _, _, _, _, g, _⟩ := hi; rw [hq] at g; cases g
  case writing => obtain ⟨_, _, _, _, _, _, g, _⟩ := hi; rw [hq] at g; cases g
  all_goals (simp only [CallInv, hc, Option.some.injEq, reduceCtorEq, false_and] at hi)

/-- C76: a disconnect whose request cannot be sent. -/
theorem C76_disconnect_panics {m : Mode} {s s' : Sys} {tr o : List Obs} (h : Exec m s tr)
    (hc : lastCall tr = some .disconnect) (hs : step m s (.api .sendFail) = some (s', o)) :
    ∃ p, o = [.txFail .api p, .ret .panic] := by
  have hi := h.callInv
  simp only [step, apiStep, reduceCtorEq, if_false] at hs
  cases ha : s.api <;> rw [ha] at hs hi <;> simp only [reduceCtorEq] at hs
  case sendReq c p =>
    have := hi.1
    obtain ⟨_, _, _, _, _, _, h3, _⟩ := hi
    rw [hc] at this; cases this; simp [tunnelCemi] at h3
  case stSend p => have := hi.1; rw [hc] at this; cases this
  case dcSend p => simp only [finish] at hs; cases hs; exact ⟨p, rfl⟩

/-- The three situations. -/
example (m : Mode) : ∃ s tr, Exec m s tr ∧ returned tr = [.panic, .panic] ∧ calls tr = [.write (.group3 ⟨1, 0, 1⟩) [] true, .disconnect] := by
  obtain ⟨s, tr, h1, h2⟩ := exec_of_evs (m := m) (evs := [.bg .run, .bg .sendOk, .bg (.dgram grant7), .bg .run,
      .api (.call (.write (.group3 ⟨1, 0, 1⟩) [] true)), .api (.call .disconnect), .api .run, .api .run, .api .skipLog, .api .sendFail])
    (f := fun x => (returned x.2, calls x.2)) (y := ([.panic, .panic], [.write (.group3 ⟨1, 0, 1⟩) [] true, .disconnect]))
    (by cases m <;> decide +kernel)
  simp only [Prod.mk.injEq] at h2
  exact ⟨s, tr, h1, h2⟩

example (addr : KnxAddress) (v : Bytes) (hv : v.length = 65515) : ∃ s s' tr, Exec .debug s tr ∧ bracket tr = some true ∧
    lastCall tr = some (.write addr v false) ∧ drawn (since isCall tr) = [0] ∧ apiSent (since isCall tr) = [] ∧ upNow tr = true ∧
    step .debug s (.api .run) = some (s', [.ret .panic]) := by
  have hw : ∃ cemi, writeCemi .debug addr v false = .ok cemi := by
    have h1 : writeCemi .debug addr v false ≠ .panic := by
      rw [Ne, writeCemi_panic_iff]; simp [hv]
    change (LDataReq.new _ (Tpdu.dataGroup ⟨Apci.groupValueWrite, .big v⟩)).packet .debug ≠ _ at h1
    change ∃ cemi, (LDataReq.new _ (Tpdu.dataGroup ⟨Apci.groupValueWrite, .big v⟩)).packet .debug = _
    rw [LDataReq.packet_eq] at h1 ⊢
    split at h1
    · exact absurd rfl h1
    · rename_i hx; rw [if_neg hx]; exact ⟨_, rfl⟩
  obtain ⟨cemi, hw⟩ := hw
  have h1 : Exec .debug ⟨linkUp .client conn7, .seqNr (.write addr v false) cemi⟩ _ :=
    (exec_link .debug grants7).step (.api (.call (.write addr v false)))
      (o := [.call (.write addr v false)]) (by
        simp [step, apiStep, apiCall, hw, startTunnel, linkUp, Bg.init])
  have h2 := h1.step (.api .run) (o := [.drew 0])
    (s' := ⟨{ linkUp .client conn7 with conn := some { Conn.ofResponse .client conn7 with seq := 1 } },
      .chanId (.write addr v false) 0 cemi⟩) (by
        simp [step, apiStep, withConn, connLocked, linkUp, Bg.init, Conn.ofResponse])
  refine ⟨_, ⟨{ linkUp .client conn7 with conn := some { Conn.ofResponse .client conn7 with seq := 1 } }, .idle⟩, _, h2, rfl, rfl, rfl, rfl, rfl, ?_⟩
  have hp : (TunnelingRequest.mk (Conn.ofResponse .client conn7).channel 0 cemi).packet .debug = .panic := by
    rw [request_panic_iff]
    simp [writeCemi_length hw, hv]
  have hp' : (TunnelingRequest.mk (Conn.ofResponse .client conn7).channel 0#8 cemi).packet .debug = .panic := hp
  simp [step, apiStep, withConn, connLocked, linkUp, Bg.init, hp', finish]

/-! ## C55 and C71: not too early -/

theorem over_append {a b : List Obs} (h : Over a ∨ Over b) : Over (a ++ b) := by
  rcases h with (h | h) | (h | h)
  · left; rw [returned_append]; simp [h]
  · right; exact List.mem_append_left _ h
  · left; rw [returned_append]; simp [h]
  · right; exact List.mem_append_right _ h

/-- A call that waits for telegrams, and neither takes one nor comes to its end, keeps its deadline. -/
theorem waits_on {m : Mode} {s s' : Sys} {tr : List Obs} {dl : Nat} (h : Run m s tr s') (h1 : ¬ Over tr) (h2 : taken tr = [])
    (h3 : (∃ a, s.api = .reading a dl) ∨ s.api = .writing dl) : s'.api = s.api := by
  induction h with
  | nil s => rfl
  | @step s s1 s2 o tr e hs hr ih =>
    have e1 : s1.api = s.api := by
      cases e with
      | bg e =>
        simp only [Knx.step, Option.map_eq_some_iff, Prod.exists, Prod.mk.injEq] at hs
        obtain ⟨b, o', hb, rfl, rfl⟩ := hs
        rfl
      | delay d => cases hs; rfl
      | api e =>
        rcases h3 with ⟨a, h3⟩ | h3
        · rcases (apiStep_tr hs).of_reading h3 with ⟨c, rest, g1, g2, rfl, rfl⟩ | g
          · rw [taken_append] at h2; simp [taken] at h2
          · exact absurd (over_append (Or.inl g)) h1
        · exact absurd (over_append (Or.inl ((apiStep_tr hs).of_writing h3))) h1
    rw [taken_append] at h2
    rw [ih (fun g => h1 (over_append (Or.inr g))) (List.append_eq_nil_iff.1 h2).2 (by rw [e1]; exact h3), e1]

/-- C55, C71: a read and a write do not give up early: if nothing arrives for them and the task does not end, then from the moment a write sends its
request, or a read sends its request or takes a telegram, at least ten seconds pass before it returns an error. -/
theorem waits_ten_seconds {m : Mode} {s s1 s2 s3 : Sys} {tr0 o1 tr o : List Obs} {c : Call} {e1 e : Ev} (h : Exec m s tr0)
    (hc : lastCall tr0 = some c) (h1 : step m s e1 = some (s1, o1)) (ho : ((∃ addr, c = .read addr) ∨ ∃ addr v small, c = .write addr v small) ∧
      apiSent o1 ≠ [] ∨ (∃ addr, c = .read addr) ∧ taken o1 ≠ [])
    (h2 : Run m s1 tr s2) (h3 : ¬ Over (o1 ++ tr)) (h4 : taken tr = []) (h5 : step m s2 e = some (s3, o)) (h6 : Obs.ret .err ∈ o)
    (h7 : taken o = []) : s.bg.now + 10000 ≤ s2.bg.now ∨ Obs.exit ∈ tr0 ++ o1 ++ tr ∨ Obs.crash ∈ tr0 ++ o1 ++ tr := by
  have hi := h.callInv
  have ht := step_api h1 (by rcases ho with ⟨_, h⟩ | ⟨_, h⟩; exacts [.inr (.inl h), .inr (.inr (.inl h))])
  have hw : (∃ a, s1.api = .reading a (s.bg.now + 10000)) ∨ s1.api = .writing (s.bg.now + 10000) := by
    cases ht
    case sendRead => exact Or.inl ⟨_, rfl⟩
    case sendWrite => exact Or.inr rfl
    case readSkip => exact Or.inl ⟨_, rfl⟩
    case stSend hapi =>
      rw [hapi] at hi; have := hi.1; rw [hc] at this; cases this
      rcases ho with ⟨⟨_, h⟩ | ⟨_, _, _, h⟩, _⟩ | ⟨⟨_, h⟩, _⟩ <;> cases h
    case dcSend hapi =>
      rw [hapi] at hi; have := hi.1; rw [hc] at this; cases this
      rcases ho with ⟨⟨_, h⟩ | ⟨_, _, _, h⟩, _⟩ | ⟨⟨_, h⟩, _⟩ <;> cases h
    all_goals first
      | (exfalso; rcases ho with ⟨_, h⟩ | ⟨_, h⟩ <;> simp [apiSent, taken] at h; done)
      | (exfalso; exact h3 (over_append (Or.inl (by left; simp [returned]))))
      | (exfalso; exact h3 (over_append (Or.inl (by right; simp))))
  have hx : Exec m s2 (tr0 ++ o1 ++ tr) := (h.step _ h1).append h2
  have hk := waits_on h2 (fun g => h3 (over_append (Or.inr g))) h4 hw
  have hend : sendersGone s2.bg = true → Obs.exit ∈ tr0 ++ o1 ++ tr ∨ Obs.crash ∈ tr0 ++ o1 ++ tr := by
    intro hg
    rw [hx.gexec.ending.exit, hx.gexec.ending.crash]
    unfold sendersGone at hg
    split at hg
    · exact Or.inl ‹_›
    · exact Or.inr ‹_›
    · cases hg
  have ht2 := step_api h5 (Or.inl (returned_ne h6))
  rw [← hk] at hw
  cases ht2
  case readTimeout a dl g1 g2 =>
    rw [g1] at hw; simp only [Api.reading.injEq, reduceCtorEq, or_false] at hw
    obtain ⟨_, _, rfl⟩ := hw
    exact Or.inl g2
  case writeTimeout dl g1 g2 =>
    rw [g1] at hw; simp only [Api.writing.injEq, reduceCtorEq, exists_false, false_or] at hw
    obtain rfl := hw
    exact Or.inl g2
  case readGone g1 g2 g3 => exact Or.inr (hend g3)
  case writeGone g1 g2 g3 => exact Or.inr (hend g3)
  all_goals first
    | (exfalso; simp [taken] at h7; done)
    | (exfalso; simp at h6; done)
    | (exfalso; clear hk hend hx; simp_all [looksUp]; done)
    | (exfalso; clear hk hend hx; rcases hw with ⟨_, hw⟩ | hw <;> simp_all [looksUp]; done)

/-- C55: a read does not give up early: if the task does not end, at least ten seconds pass from the moment it sends its request, or takes its last
telegram, until it returns an error without a telegram. -/
theorem C55_not_early {m : Mode} {s s1 s2 s3 : Sys} {tr0 o1 tr o : List Obs} {addr : KnxAddress} {e1 e : Ev} (h : Exec m s tr0)
    (hc : lastCall tr0 = some (.read addr)) (h1 : step m s e1 = some (s1, o1)) (ho : apiSent o1 ≠ [] ∨ taken o1 ≠ [])
    (h2 : Run m s1 tr s2) (h3 : ¬ Over (o1 ++ tr)) (h4 : taken tr = []) (h5 : step m s2 e = some (s3, o)) (h6 : Obs.ret .err ∈ o)
    (h7 : taken o = []) (hx : Obs.exit ∉ tr0 ++ o1 ++ tr) (hy : Obs.crash ∉ tr0 ++ o1 ++ tr) : s.bg.now + 10000 ≤ s2.bg.now := by
  rcases waits_ten_seconds h hc h1 (by rcases ho with h | h; exacts [Or.inl ⟨Or.inl ⟨_, rfl⟩, h⟩, Or.inr ⟨⟨_, rfl⟩, h⟩]) h2 h3 h4 h5 h6 h7 with
    g | g | g
  · exact g
  · exact absurd g hx
  · exact absurd g hy

/-- C71: a write does not give up early: if the task does not end, and it takes no telegram, at least ten seconds pass from the moment it sends its
request until it returns an error. -/
theorem C71_not_early {m : Mode} {s s1 s2 s3 : Sys} {tr0 o1 tr o : List Obs} {addr : KnxAddress} {v : Bytes} {small : Bool} {e1 e : Ev}
    (h : Exec m s tr0) (hc : lastCall tr0 = some (.write addr v small)) (h1 : step m s e1 = some (s1, o1)) (ho : apiSent o1 ≠ [])
    (h2 : Run m s1 tr s2) (h3 : ¬ Over (o1 ++ tr)) (h4 : taken tr = []) (h5 : step m s2 e = some (s3, o)) (h6 : Obs.ret .err ∈ o)
    (h7 : taken o = []) (hx : Obs.exit ∉ tr0 ++ o1 ++ tr) (hy : Obs.crash ∉ tr0 ++ o1 ++ tr) : s.bg.now + 10000 ≤ s2.bg.now := by
  rcases waits_ten_seconds h hc h1 (Or.inl ⟨Or.inr ⟨_, _, _, rfl⟩, ho⟩) h2 h3 h4 h5 h6 h7 with g | g | g
  · exact g
  · exact absurd g hx
  · exact absurd g hy

/-- A write and a read whose answers do not come; the read takes an unrelated telegram after four seconds and then waits for ten more. -/
example (m : Mode) : ∃ s tr s' tr', Exec m s tr ∧ PromptRun m s tr' s' ∧ lastCall tr = some (.write (.group3 ⟨1, 0, 1⟩) [1, 2] false) ∧
    (apiSent tr).length = 1 ∧ tr' = [.ret .err] ∧ s'.bg.now = s.bg.now + 10000 := by
  obtain ⟨s, tr, s', tr', h1, h2, h3⟩ := prompt_of_evs (m := m) (evs := [.bg .run, .bg .sendOk, .bg (.dgram grant7), .bg .run,
      .bg .tick, .bg .sendOk, .api (.call (.write (.group3 ⟨1, 0, 1⟩) [1, 2] false)), .api .run, .api .run, .api .sendOk])
    (evs' := [.delay 4000, .delay 6000, .api .timer])
    (f := fun x y => ((lastCall x.2, (apiSent x.2).length), y.2, decide (y.1.bg.now = x.1.bg.now + 10000)))
    (y := ((some (.write (.group3 ⟨1, 0, 1⟩) [1, 2] false), 1), [.ret .err], true)) (by cases m <;> decide +kernel)
  simp only [Prod.mk.injEq, decide_eq_true_eq] at h3
  exact ⟨s, tr, s', tr', h1, h2, h3.1.1, h3.1.2, h3.2⟩

example (m : Mode) : ∃ s tr s' tr', Exec m s tr ∧ PromptRun m s tr' s' ∧ lastCall tr = some (.read (.group3 ⟨3, 0, 1⟩)) ∧
    (apiSent tr).length = 1 ∧ (taken tr').length = 1 ∧ returned tr' = [.err] ∧ s'.bg.now = s.bg.now + 14000 := by
  obtain ⟨s, tr, s', tr', h1, h2, h3⟩ := prompt_of_evs (m := m) (evs := [.bg .run, .bg .sendOk, .bg (.dgram grant7), .bg .run,
      .bg .tick, .bg .sendOk, .api (.call (.read (.group3 ⟨3, 0, 1⟩))), .api .run, .api .run, .api .sendOk])
    (evs' := [.delay 4000, .bg (.dgram req7), .bg .sendOk, .bg .run, .api .run, .delay 10000, .api .timer])
    (f := fun x y => ((lastCall x.2, (apiSent x.2).length), (taken y.2).length, returned y.2, decide (y.1.bg.now = x.1.bg.now + 14000)))
    (y := ((some (.read (.group3 ⟨3, 0, 1⟩)), 1), 1, [.err], true)) (by cases m <;> decide +kernel)
  simp only [Prod.mk.injEq, decide_eq_true_eq] at h3
  exact ⟨s, tr, s', tr', h1, h2, h3.1.1, h3.1.2, h3.2⟩

end Knx
