import Verif.Lemmas.Pairing

/-!
# Lemmas about the monitor API: the steps as a relation
-/

namespace Knx
open Spec

/-- The cEMI message a call of the monitor sends. -/
def mtunnelCemi (m : Mode) : Call → Option (Res Bytes)
  | .solicit a => some (readCemi m a)
  | .write a v small => some (writeCemi m a v small)
  | _ => none

/-- The API state is one that looks at the connection data and fails without. -/
def mlooksUp : MApi → Bool
  | .seqNr _ => true
  | .chanId _ _ => true
  | .dcChan => true
  | .dcEp _ => true
  | _ => false

/-- Telegram code handed to the callers of `next_msg`. -/
def shownCode (x : U8) : Prop := x = codeLDataInd ∨ x = codeLBusmonInd

/-- The steps of the monitor API. -/
inductive MApiTr (m : Mode) (s : MSys) : MSys → List Obs → Prop
  | callTunnel (c cemi) : s.api = .idle → s.bg.rxOpen = true → mtunnelCemi m c = some (.ok cemi) →
      MApiTr m s { s with api := .seqNr cemi } [.call c]
  | callErr (c) : s.api = .idle → s.bg.rxOpen = true → mtunnelCemi m c = some .err →
      MApiTr m s s [.call c, .ret .err]
  | callPanic (c) : s.api = .idle → s.bg.rxOpen = true → mtunnelCemi m c = some .panic →
      MApiTr m s s [.call c, .ret .panic]
  | callDisc : s.api = .idle → s.bg.rxOpen = true → MApiTr m s { s with api := .dcChan } [.call .disconnect]
  | callConn : s.api = .idle → s.bg.rxOpen = true → MApiTr m s { s with api := .isConn } [.call .isConnected]
  | callSub (id) : s.api = .idle → s.bg.rxOpen = true → MApiTr m s { s with api := .subscribe id } [.call (.subscribe id)]
  | ncall (i) : s.api = .idle → s.bg.rxOpen = true → i ∉ s.waiting →
      MApiTr m s { s with waiting := i :: s.waiting } [.ncall i]
  | drop : s.api = .idle → s.bg.rxOpen = true → s.waiting = [] →
      MApiTr m s { s with bg := { s.bg with rxOpen := false, queue := [] } } [.dropped]
  | noConn : mlooksUp s.api = true → connLocked .monitor s.bg = false → s.bg.conn = none →
      MApiTr m s { s with api := .idle } [.ret .err]
  | draw (cemi d) : s.api = .seqNr cemi → connLocked .monitor s.bg = false → s.bg.conn = some d →
      MApiTr m s ⟨{ s.bg with conn := some { d with seq := d.seq + 1 } }, .chanId d.seq cemi, s.waiting⟩ [.drew d.seq]
  | pick (n cemi d p) : s.api = .chanId n cemi → connLocked .monitor s.bg = false → s.bg.conn = some d →
      (TunnelingRequest.mk d.channel n cemi).packet m = .ok p → MApiTr m s { s with api := .sendReq p } []
  | pickPanic (n cemi d) : s.api = .chanId n cemi → connLocked .monitor s.bg = false → s.bg.conn = some d →
      (TunnelingRequest.mk d.channel n cemi).packet m = .panic → MApiTr m s { s with api := .idle } [.ret .panic]
  | send (p) : s.api = .sendReq p → MApiTr m s { s with api := .idle } [.tx .api p, .ret .unit]
  | sendFail (p) : s.api = .sendReq p → MApiTr m s { s with api := .idle } [.txFail .api p, .ret .err]
  | dcChan (d) : s.api = .dcChan → connLocked .monitor s.bg = false → s.bg.conn = some d →
      MApiTr m s { s with api := .dcEp d.channel } []
  | dcEp (ch d) : s.api = .dcEp ch → connLocked .monitor s.bg = false → s.bg.conn = some d →
      MApiTr m s { s with api := .dcSend (DisconnectRequest.mk ch d.endpoint).packet } []
  | dcSend (p) : s.api = .dcSend p → MApiTr m s { s with api := .dcRecv } [.tx .api p]
  | dcSendFail (p) : s.api = .dcSend p → MApiTr m s { s with api := .idle } [.txFail .api p, .ret .panic]
  | dcOk (d r) : s.api = .dcRecv → runRd DisconnectResponse.fromPacket id (buffer d) = .ok r →
      MApiTr m s { s with api := .idle } [.rxApi d, .ret (.code r.status)]
  | dcBad (d) : s.api = .dcRecv → runRd DisconnectResponse.fromPacket id (buffer d) = .err →
      MApiTr m s { s with api := .idle } [.rxApi d, .ret .err]
  | dcErr : s.api = .dcRecv → MApiTr m s { s with api := .idle } [.ret .panic]
  | isConn : s.api = .isConn → connLocked .monitor s.bg = false →
      MApiTr m s { s with api := .idle } [.ret (.bool s.bg.conn.isSome)]
  | subscribe (id) : s.api = .subscribe id → connLocked .monitor s.bg = false → 0 < (s.bg.chans id).cap →
      MApiTr m s ⟨{ s.bg with subs := s.bg.subs ++ [id] }, .idle, s.waiting⟩ [.subscribed id, .ret .unit]
  | cancel : s.api ≠ .idle → MApiTr m s { s with api := .idle } [.cancelled]
  | nskip (i c rest) : i ∈ s.waiting → s.bg.queue = c :: rest → ¬ shownCode c.msgCode →
      MApiTr m s { s with bg := { s.bg with queue := rest } } [.taken i c]
  | nind (i c rest d) : i ∈ s.waiting → s.bg.queue = c :: rest → shownCode c.msgCode → LDataInd.fromCemi c = .ok d →
      MApiTr m s ⟨{ s.bg with queue := rest }, s.api, s.waiting.filter (· ≠ i)⟩ [.taken i c, .nret i (.ind d)]
  | nbad (i c rest) : i ∈ s.waiting → s.bg.queue = c :: rest → shownCode c.msgCode → LDataInd.fromCemi c = .err →
      MApiTr m s ⟨{ s.bg with queue := rest }, s.api, s.waiting.filter (· ≠ i)⟩ [.taken i c, .nret i .err]
  | nend (i) : i ∈ s.waiting → s.bg.queue = [] → sendersGone s.bg = true →
      MApiTr m s { s with waiting := s.waiting.filter (· ≠ i) } [.nret i .err]
  | ncancel (i) : i ∈ s.waiting → MApiTr m s { s with waiting := s.waiting.filter (· ≠ i) } [.ncancelled i]
  | mkChan (id cap) : (s.bg.chans id).cap = 0 → 0 < cap → MApiTr m s (setChan s id ⟨cap, 0, true⟩) []
  | drain (id) : (s.bg.chans id).isOpen = true → 0 < (s.bg.chans id).len →
      MApiTr m s (setChan s id { s.bg.chans id with len := (s.bg.chans id).len - 1 }) []
  | fill (id) : (s.bg.chans id).isOpen = true → (s.bg.chans id).len < (s.bg.chans id).cap →
      MApiTr m s (setChan s id { s.bg.chans id with len := (s.bg.chans id).len + 1 }) []
  | closeChan (id) : MApiTr m s (setChan s id { s.bg.chans id with isOpen := false }) []

theorem mwithConn_cases {s : MSys} {f : Conn → Option (MSys × List Obs)} {x : MSys × List Obs}
    (h : mwithConn s f = some x) :
    connLocked .monitor s.bg = false ∧
      ((s.bg.conn = none ∧ x = ({ s with api := .idle }, [.ret .err])) ∨ ∃ d, s.bg.conn = some d ∧ f d = some x) := by
  unfold mwithConn at h
  split at h
  · cases h
  · rename_i hl
    refine ⟨by simpa using hl, ?_⟩
    split at h
    · rename_i hc; left; refine ⟨hc, ?_⟩; unfold mfinish at h; cases h; rfl
    · rename_i d hc; exact Or.inr ⟨d, hc, h⟩

/-- Every step of the monitor API is one of the listed ones. -/
theorem mapiStep_tr {m : Mode} {s s' : MSys} {e : MApiEv} {o : List Obs}
    (h : mapiStep m s e = some (s', o)) : MApiTr m s s' o := by
  have startC : ∀ c r, s.api = .idle → s.bg.rxOpen = true → mtunnelCemi m c = some r →
      mstartTunnel s c r = some (s', o) → MApiTr m s s' o := by
    intro c r h1 h2 h3 h
    cases r <;> (unfold mstartTunnel at h; cases h)
    · exact .callTunnel _ _ h1 h2 h3
    · exact .callErr _ h1 h2 h3
    · exact .callPanic _ h1 h2 h3
  unfold mapiStep at h
  split at h
  · split at h
    · cases h
    · rename_i hi; cases h; exact .cancel hi
  · split at h
    · rename_i i hi
      split at h
      · rename_i c rest hq
        unfold nextMsg nfinish at h
        split at h
        · rename_i hcode
          have hs : ¬ shownCode c.msgCode := by rw [hcode]; unfold shownCode; decide
          split at h
          · rename_i hp; exact absurd hp (C15_lDataCon c).1
          · cases h; exact .nskip _ _ _ hi hq hs
        · split at h
          · rename_i hcode
            split at h
            · rename_i d hd; cases h; exact .nind _ _ _ _ hi hq (Or.inl hcode) hd
            · rename_i hd; cases h; exact .nbad _ _ _ hi hq (Or.inl hcode) hd
            · rename_i hp; exact absurd hp (C14_lDataInd_total c).1
          · rename_i hn1
            split at h
            · rename_i hcode
              split at h
              · rename_i d hd; cases h; exact .nind _ _ _ _ hi hq (Or.inr hcode) hd
              · rename_i hd; cases h; exact .nbad _ _ _ hi hq (Or.inr hcode) hd
              · rename_i hp; exact absurd hp (C14_lDataInd_total c).1
            · rename_i hn2; cases h; exact .nskip _ _ _ hi hq (by rintro (h | h); exacts [hn1 h, hn2 h])
      · rename_i hq
        split at h
        · rename_i hg; cases h; exact .nend _ hi hq hg
        · cases h
    · cases h
  · split at h
    · rename_i hi; cases h; exact .ncancel _ hi
    · cases h
  · split at h
    · rename_i hc; cases h; exact .mkChan _ _ hc.1 hc.2
    · cases h
  · split at h
    · rename_i hc; cases h; exact .drain _ hc.1 hc.2
    · cases h
  · split at h
    · rename_i hc; cases h; exact .fill _ hc.1 hc.2
    · cases h
  · cases h; exact .closeChan _
  · unfold mcallStep at h
    split at h
    all_goals (rename_i hapi)
    · split at h
      · split at h
        · rename_i hx
          unfold mapiCall at h
          split at h
          · exact startC _ _ hapi hx rfl h
          · exact startC _ _ hapi hx rfl h
          · cases h; exact .callDisc hapi hx
          · cases h; exact .callConn hapi hx
          · cases h; exact .callSub _ hapi hx
          · cases h
        · cases h
      · split at h
        · rename_i hx; cases h; exact .ncall _ hapi hx.1 hx.2
        · cases h
      · split at h
        · rename_i hx; cases h; exact .drop hapi hx.1 hx.2
        · cases h
      · cases h
    · split at h
      · obtain ⟨hl, ⟨hc, hx⟩ | ⟨d, hc, hx⟩⟩ := mwithConn_cases h
        · cases hx; exact .noConn (by rw [hapi]; rfl) hl hc
        · cases hx; exact .draw _ _ hapi hl hc
      · cases h
    · split at h
      · obtain ⟨hl, ⟨hc, hx⟩ | ⟨d, hc, hx⟩⟩ := mwithConn_cases h
        · cases hx; exact .noConn (by rw [hapi]; rfl) hl hc
        · split at hx
          · rename_i hp; cases hx; exact .pick _ _ _ _ hapi hl hc hp
          · rename_i hp; exact absurd hp packet_ne_err
          · rename_i hp; cases hx; exact .pickPanic _ _ _ hapi hl hc hp
      · cases h
    · split at h
      · cases h; exact .send _ hapi
      · cases h; exact .sendFail _ hapi
      · cases h
    · split at h
      · obtain ⟨hl, ⟨hc, hx⟩ | ⟨d, hc, hx⟩⟩ := mwithConn_cases h
        · cases hx; exact .noConn (by rw [hapi]; rfl) hl hc
        · cases hx; exact .dcChan _ hapi hl hc
      · cases h
    · split at h
      · obtain ⟨hl, ⟨hc, hx⟩ | ⟨d, hc, hx⟩⟩ := mwithConn_cases h
        · cases hx; exact .noConn (by rw [hapi]; rfl) hl hc
        · cases hx; exact .dcEp _ _ hapi hl hc
      · cases h
    · split at h
      · cases h; exact .dcSend _ hapi
      · cases h; exact .dcSendFail _ hapi
      · cases h
    · split at h
      · split at h
        · rename_i hr; cases h; exact .dcOk _ _ hapi hr
        · rename_i hr; cases h; exact .dcBad _ hapi hr
        · rename_i hr; exact absurd hr (runRd_no_panic DisconnectResponse.fromPacket_no_panic)
      · cases h; exact .dcErr hapi
      · cases h
    · split at h
      · split at h
        · cases h
        · rename_i hl; cases h; exact .isConn hapi (by simpa using hl)
      · cases h
    · split at h
      · split at h
        · cases h
        · rename_i hl
          cases h
          rw [not_or] at hl
          exact .subscribe _ hapi (by simpa using hl.1) (Nat.pos_of_ne_zero hl.2)
      · cases h

end Knx
